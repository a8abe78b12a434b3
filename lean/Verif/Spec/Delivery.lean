/-
Specification vocabulary for C92: what a client is sent from the authorization endpoint.
-/
import Verif.Model.Delivery
import Verif.Spec.Provider

namespace OidcOp.Spec

/-- The address an answer goes to. -/
def Target : HttpOut → String
  | .redirect u _ _ => u
  | .form u _ => u

/-- The parameters of an answer. -/
def Params : HttpOut → Dict Json
  | .redirect _ _ ps => ps
  | .form _ ps => ps

/-- The state of the request comes back, and a request without state gets none. -/
def StateReturned (req : AuthzReq) (ps : Dict Json) : Prop :=
  (∀ st, req.state = some st → st ≠ "" → ps.get? "state" = some (.str st)) ∧
  (req.state = none ∨ req.state = some "" → ps.get? "state" = none)

/-- An answer that tells an error has nothing else that is of use. -/
def NoCredentials (ps : Dict Json) : Prop :=
  ps.get? "code" = none ∧ ps.get? "access_token" = none ∧ ps.get? "id_token" = none

/-- The response type asks for no token from the authorization endpoint: a code, or nothing. -/
def NoTokenAsked (rt : List String) : Prop := rt = ["none"] ∨ ("code" ∈ rt ∧ ∀ x ∈ rt, x = "code")

/-- The response mode is one that there is, and it fits the response type. -/
def ModeFits (req : AuthzReq) : Prop :=
  req.responseMode = none ∨ req.responseMode = some "form_post" ∨
  (req.responseMode = some "query" ∧ NoTokenAsked req.responseType) ∨
  (req.responseMode = some "fragment" ∧ ¬ NoTokenAsked req.responseType)

/-- The answer is in the place that the request asks for: a form for "form_post", the place that is named, and without a response
mode the query for a code and the fragment for tokens. -/
def PlaceAsked (req : AuthzReq) : HttpOut → Prop
  | .form _ _ => req.responseMode = some "form_post"
  | .redirect _ place _ =>
    req.responseMode ≠ some "form_post" ∧
    (place = .query ∧ NoTokenAsked req.responseType ∨ place = .fragment ∧ ¬ NoTokenAsked req.responseType)

/-- The answer has the members of the response and no other credentials. -/
def Tells (ps : Dict Json) (r : AuthzResp) : Prop :=
  ps.get? "code" = r.code.map .str ∧ ps.get? "access_token" = r.accessToken.map .str ∧
  ps.get? "id_token" = r.idToken.map .str ∧ ps.get? "expires_in" = r.expiresIn.map .num ∧
  ps.get? "scope" = r.scope.map listJson ∧ ps.get? "error" = none

/-- The answer reports the outcome: a response or an error. -/
def Reports (ps : Dict Json) : ARes → Prop
  | .resp r _ => Tells ps r
  | .err c d _ => ps.get? "error" = some (.str c) ∧ ps.get? "error_description" = some (.str d) ∧ NoCredentials ps

/-- The answer tells which provider it is from, and for which client it is. -/
def NamesIssuer (D : Delivery) (req : AuthzReq) (ps : Dict Json) : Prop :=
  ps.get? "iss" = some (.str D.issuer) ∧ ps.get? "client_id" = req.clientId.map .str

/-- With session management, the answer has the session state for the client and the redirect URI. -/
def HasSessionState (D : Delivery) (req : AuthzReq) (uri : String) (ps : Dict Json) : Prop :=
  D.iframe = true → ∃ c, req.clientId = some c ∧ ps.get? "session_state" = some (.str (D.sessionState c uri))

end OidcOp.Spec
