/-
The user info endpoint (oidc/userinfo.py) and the introspection endpoint (oauth2/introspection.py) as they are reached over
HTTP: client authentication, parsing, processing and, for user info, the form of the answer.
-/
import Verif.Model.TokenHttp
import Verif.Model.Resource
import Verif.Model.Algs

namespace OidcOp

/-- A request: the authorization header, the parameters that authentication looks at, and "token" (for introspection). -/
structure ResHttp where
  header : Option String := none
  authn : AuthnReq := {}
  token : Option String := none
  deriving DecidableEq, Repr, Inhabited

/-- The user info endpoint: how clients authenticate, the records of the clients and the user database. -/
structure InfoEndpoint where
  auth : TokenAuth := {}
  clients : Dict Cinfo := []
  users : Option UserDb := none

/-- `default_capabilities`, oidc/userinfo.py:31-37 -/
def userinfoMethods : List (Option CAuthn) := [some .bearerHeader, some .bearerBody]

/-- `UserInfo.get_client_id_from_token`, oidc/userinfo.py:48-50 -/
def userinfoClientOf (E : Env) (w : World) (t : String) (_ : AuthnReq) : Except Exc String :=
  (sessionByToken E w t).map (·.client)

/-- What comes out of parsing: an error message, or the token that goes on. -/
inductive InfoParse where
  | err (code : String)
  | token (v : String)
  deriving DecidableEq, Repr, Inhabited

/-- oidc/userinfo.py:178-182, after client authentication: both members have to be there. -/
def infoToken : Option AuthInfo → Except Exc InfoParse
  | none => .error .keyError
  | some ai =>
    match ai.clientId, ai.token with
    | some _, some t => .ok (.token t)
    | _, _ => .error .keyError

/-- `UserInfo.parse_request`, oidc/userinfo.py:160-184 -/
def userinfoParse (E : Env) (A : TokenAuth) (w : World) (seen : List String) (h : ResHttp) :
    Except Exc InfoParse × List String :=
  match clientAuthentication (A.at w.now) A.methods (some (userinfoClientOf E w)) h.authn h.header seen with
  | (.error e, seen') =>
    (if e = .valueError ∨ e = .unknownToken then .ok (.err "invalid_token") else .error e, seen')
  | (.ok ai, seen') => (infoToken ai, seen')

/-- The answer: an error message, or claims or the message that access is not granted, in the form that the client asked for
(`none` is plain JSON), made out to a client. -/
inductive InfoAnswer where
  | err (code : String)
  | denied (form : Option JwtArgs) (recv : String)
  | claims (form : Option JwtArgs) (info : Dict Json) (recv : String)
  deriving DecidableEq, Repr, Inhabited

/-- oidc/userinfo.py:63-84: which form the answer to a client has. -/
def infoForm (clients : Dict Cinfo) (client : String) : Except Exc (Option JwtArgs) :=
  if client = "" then .error (.other "MissingValue")
  else
    match clients.get? client with
    | none => .error .keyError
    | some ci => userinfoArgs ci

/-- `UserInfo.do_response`, oidc/userinfo.py:52-109 -/
def infoResponse (clients : Dict Cinfo) : InfoRes → Except Exc InfoAnswer
  | .err c => .ok (.err c)
  | .denied client => (infoForm clients client).map (fun f => .denied f client)
  | .claims info client => (infoForm clients client).map (fun f => .claims f info client)

/-- A request to the user info endpoint, from beginning to end. -/
def userinfoHttp (E : Env) (I : InfoEndpoint) (w : World) (seen : List String) (h : ResHttp) :
    Except Exc InfoAnswer × List String :=
  match userinfoParse E I.auth w seen h with
  | (.error e, seen') => (.error e, seen')
  | (.ok (.err c), seen') => (.ok (.err c), seen')
  | (.ok (.token v), seen') =>
    match userinfoProcess E I.users w v with
    | .error e => (.error e, seen')
    | .ok r => (infoResponse I.clients r, seen')

/-- A request to the introspection endpoint: endpoint.py:136-206 and oauth2/introspection.py:78-128.  A request without
"token" does not verify.  The endpoint has no methods of its own: without "client_authn_method" in the configuration the list is
empty. -/
def introspectHttp (E : Env) (A : TokenAuth) (db : Option UserDb) (issuer : String) (extra : String → Dict Json)
    (username : Bool) (w : World) (seen : List String) (h : ResHttp) : Except Exc (Dict Json) × List String :=
  match clientAuthentication (A.at w.now) A.methods none h.authn h.header seen with
  | (.error e, seen') => (.error e, seen')
  | (.ok _, seen') =>
    match h.token with
    | none => (.ok [("error", .str "invalid_request")], seen')
    | some v => (introspectProcess E db issuer extra username w v, seen')

end OidcOp
