/-
The provider put together from the modelled parts: token handlers, session id cipher, subject identifiers, claims interface,
scopes and redirection.  `Verif/Lemmas/Parts.lean` makes an `Env` of it.
-/
import Verif.Model.World
import Verif.Model.TokenHandler
import Verif.Model.Subject
import Verif.Model.Claims
import Verif.Model.Response
import Verif.Model.Uri

namespace OidcOp

/-- The name of a token class, session/token.py and session/grant.py:118-123 `token_map`. -/
def TokenClass.name : TokenClass → String
  | .authorizationCode => "authorization_code"
  | .accessToken => "access_token"
  | .refreshToken => "refresh_token"
  | .idToken => "id_token"
  | .other n => n

/-- What a provider is put together from.  The functions of a number stand for what differs from one call of a token handler
to the next: the clock, the random strings, the usage rules and the payload (which depend on the whole history before the
call). -/
structure Parts where
  cfg : TokenCfg := {}
  authz : AuthzCfg := {}
  /-- cryptojwt with the provider's keys -/
  jwt : JwtLib
  /-- `TokenHandler.handler` and `handler_order`, token/handler.py:35-50 -/
  handlers : Dict Handler
  order : List String := ["authorization_code", "access_token", "refresh_token", "id_token"]
  issuer : String
  /-- the cipher of session ids, session/database.py:55-61 -/
  crypt : Cipher
  sidRnd : Nat → Str
  clock : Nat → Int
  rnd : Nat → Str
  /-- "expires_in" of the usage rules -/
  expiresIn : Nat → TokenClass → String → Option Int
  /-- what `payload_arguments` gives, session/grant.py:195-248 -/
  payload : Nat → TokenClass → String → Dict Json
  /-- algorithm and payload of an ID token as it is signed, token/id_token.py:213-260 -/
  idAlg : Nat → String → String
  idPayload : Nat → String → Dict Json
  /-- a failure of minting -/
  fail : Nat → TokenClass → Option Exc
  uuid : Nat → String
  hash : String → String
  subs : SubCfg := {}
  claims : ClaimsCfg
  claimsDb : ClaimsDb
  scopes : ScopeCfg
  uri : UriLib
  redirectUris : Dict (Option (List RegUri))

/-- The value made by handler call `n`, session/grant.py:317-346 -/
def Parts.token (p : Parts) (n : Nat) (c : TokenClass) (s : String) : Str :=
  match p.handlers.get? c.name with
  | none => []
  | some h =>
    (h.call p.jwt p.issuer (p.expiresIn n c s) (p.clock n) n (p.rnd n) s.toList (p.payload n c s)).getD
      (p.jwt.sign n (p.idAlg n s) (p.idPayload n s))

/-- A class without a handler is a KeyError, session/grant.py:317; of a class that is not in `token_map` nothing is minted,
348. -/
def Parts.failure (p : Parts) (n : Nat) (c : TokenClass) : Option Exc :=
  match c with
  | .other _ => some .valueError
  | c => if p.handlers.has c.name then p.fail n c else some .keyError

/-- `token_handler.info(value).get("sid")`, token/handler.py:62-81 -/
def Parts.tokenSid (p : Parts) (v : String) (now : Int) : Except Exc (Option String) :=
  match handlerInfo p.jwt now p.handlers v.toList p.order with
  | .ok r => .ok (r.sid.map String.ofList)
  | .error e => .error e

/-- `encrypted_session_id`, session/database.py:181-185 -/
def Parts.encSid (p : Parts) (n : Nat) (ids : List String) : String :=
  String.ofList (encryptedSessionId p.crypt n (p.sidRnd n) (ids.map String.toList))

/-- `decrypt_session_id`, session/database.py:187-196 -/
def Parts.decSid (p : Parts) (sid : String) : Except Exc (List String) :=
  match decryptSessionId p.crypt sid.toList with
  | .ok ids => .ok (ids.map String.ofList)
  | .error e => .error e

/-- `get_claims_all_usage(session_id, scopes)`, session/claims.py:166-198 and 289-293: the client is that of the session id. -/
def Parts.claimsOf (p : Parts) (sid : String) (g : Grant) (scopes : List String) : Except Exc (Dict (Dict Json)) :=
  match p.decSid sid with
  | .ok [_, c, _] => (grantClaims p.claims g c scopes p.claimsDb).1
  | .ok _ => .error .valueError
  | .error e => .error e

/-- `get_uri` and `response_mode` raise nothing, oauth2/authorization.py:191-219 and 658-704 -/
def Parts.deliverable (p : Parts) (req : AuthzReq) : Bool :=
  (getUri p.uri p.redirectUris req.clientId req.redirectUri).toOption.isSome &&
    (responsePlace req.responseMode (req.responseType != ["none"] && fragmentEnc req.responseType)).toOption.isSome

end OidcOp
