/-
The session cookie of the token endpoint.
-/
import Verif.Model.Login

namespace OidcOp

/-- The cookie that comes with a token response, oauth2/token.py:467-483, with the time stamp of cookie_handler.py:193-237.
Its session id is the session key as it is, not encrypted.  The subject in the cookie is left out, nothing reads it; that no
cookie is sent without a cookie handler is left out too. -/
def tokenCookie (E : Env) (w : World) (accessToken : String) : Except Exc SessionCookie :=
  match sessionByToken E w accessToken with
  | .error e => .error e
  | .ok s =>
    .ok { sid := String.ofList (sessionKey [s.user.toList, s.client.toList, s.grant.id.toList]), timestamp := w.now }

end OidcOp
