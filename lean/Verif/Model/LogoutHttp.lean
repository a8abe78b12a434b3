/-
The end session endpoint as it is reached over HTTP: `Session.parse_request` (oidc/session.py:351-394), then `process_request`.
-/
import Verif.Model.Logout
import Verif.Model.TokenHttp

namespace OidcOp

/-- An ID token that verified as a hint: "alg" of its header, and the claims that are looked at. -/
structure HintToken where
  alg : String
  hint : Hint
  deriving DecidableEq, Repr

/-- What `parse_request` uses.  `verifyHint` is `EndSessionRequest.verify` of oidcmsg: it verifies the ID token with the keys of the
key jar, at a time; that it returns False is an error here.  `algs` is `id_token_signing_alg_values_supported` of the metadata. -/
structure EndPoint where
  auth : TokenAuth := {}
  verifyHint : Int → String → Except Exc HintToken
  algs : List String

/-- An end session request: the authorization header, the parameters that client authentication looks at, and the others.  It is
passed on as a dictionary (example/flask_op/views.py:224-251). -/
structure EndHttp where
  header : Option String := none
  creds : AuthnReq := {}
  postUri : Option String := none
  state : Option String := none
  /-- `id_token_hint` -/
  hint : Option String := none
  deriving DecidableEq, Repr, Inhabited

/-- The client id of the request after client authentication, oidc/session.py:368-375.  Both `auth_info["client_id"]` and
`auth_info["token"]` are read; one that is missing is a KeyError.  With the method "none" the client id may be None, but there is
no token then. -/
def endClient (req : AuthnReq) : Option AuthInfo → Except Exc (Option String)
  | none => .ok req.clientId
  | some ai =>
    match ai.clientId, ai.token with
    | some c, some _ => .ok (some c)
    | _, _ => .error .keyError

/-- The hint, oidc/session.py:380-392 -/
def endHint (P : EndPoint) (now : Int) : Option String → Except Exc (Option Hint)
  | none => .ok none
  | some t =>
    match P.verifyHint now t with
    | .error e => .error e
    | .ok h => if h.alg ∈ P.algs then .ok (some h.hint) else .error (.other "JWSException")

/-- `parse_request`, oidc/session.py:351-394.  UnknownOrNoAuthnMethod, which is caught there, is raised nowhere.  The endpoint has no
`get_client_id_from_token`. -/
def endParse (P : EndPoint) (now : Int) (seen : List String) (h : EndHttp) : Except Exc EndReq × List String :=
  match clientAuthentication (P.auth.at now) P.auth.methods none h.creds h.header seen with
  | (.error e, seen') => (.error e, seen')
  | (.ok ai, seen') =>
    match endClient h.creds ai with
    | .error e => (.error e, seen')
    | .ok c =>
      match endHint P now h.hint with
      | .error e => (.error e, seen')
      | .ok hint => (.ok { clientId := c, postUri := h.postUri, hint := hint, state := h.state }, seen')

/-- A request to the end session endpoint: `parse_request`, then `process_request` (oidc/session.py:246-349). -/
def endHttp (K : LogoutCtx) (P : EndPoint) (w : World) (seen : List String) (h : EndHttp) (cookie : LogoutCookie) :
    Except Exc Str × List String :=
  match endParse P w.now seen h with
  | (.error e, seen') => (.error e, seen')
  | (.ok req, seen') => (endSession K req cookie w, seen')

end OidcOp
