/-
Model of `SymKeyAuthn`, user_authn/user.py:235-266, and of `setup_auth` with it.
-/
import Verif.Model.UserAuthn

namespace OidcOp

/-- What `SymKeyAuthn` uses of the libraries: `base64.b64decode` (bytes are characters up to 255), and AES-GCM with a key and a
nonce.  What is decrypted is exactly what was encrypted with the key and the nonce; nonces have at least eight bytes. -/
structure SymLib where
  b64decode : Str → Except Exc Str
  encrypt : Str → Str → Str → Str
  decrypt : Str → Str → Str → Except Exc Str
  opens : ∀ key nonce text, 8 ≤ nonce.length → decrypt key nonce (encrypt key nonce text) = .ok text
  only : ∀ key nonce c text, decrypt key nonce c = .ok text → c = encrypt key nonce text

/-- The configured method, user_authn/user.py:238-245. -/
structure SymKey where
  key : Str
  ttl : Int

/-- The user in the header, user_authn/user.py:255-260.  Anything but one colon makes the unpacking of the pair raise ValueError;
of the exceptions of the decryption only two are caught.  The time to live is not looked at. -/
def SymKey.user (L : SymLib) (k : SymKey) (auth : Str) : Except Exc Str :=
  match L.b64decode auth with
  | .error e => .error e
  | .ok b =>
    match pySplit [':'] b with
    | [c, iv] =>
      match L.decrypt k.key iv c with
      | .ok u => .ok u
      | .error e => if e = .keyError ∨ e = .other "AssertionError" then .error (.other "FailedAuthentication") else .error e
    | _ => .error .valueError

/-- The identity of a cookie for the client, user_authn/user.py:263-264 -/
def symKeyCookie (E : Env) (client : Option String) (cookies : List SessionCookie) : Except Exc (Option Identity) :=
  if cookies.isEmpty then .ok none
  else
    match cookieInfo E client cookies with
    | .error e => .error e
    | .ok none => .ok none
    | .ok (some (i, _)) => .ok (some { uid := i.uid, sid := i.sid })

/-- An identity that is a text, oauth2/authorization.py:578-592 -/
def textIdentity (E : Env) (w : World) (i : Except Exc Identity) : Except Exc (Option Identity) :=
  match i with
  | .error e => .error e
  | .ok i' => checkIdentity E w i'

/-- `setup_auth` for a user id that is still bytes, oauth2/authorization.py:596-653: it differs from every `req_user`, and joining
it with the client id in `session_key` (session/database.py:175-176) is a TypeError.  The entry that is left in the database under
the bytes (session/manager.py:225-229) is left out: no other key is equal to it. -/
def setupBytes (w : World) (req : AuthzReq) (reqUser : Option (Option String)) : Except Exc SetupRes × World :=
  if req.redirectUri.isNone then (.error .keyError, w)
  else if promptHas req "login" then (.ok .login, w)
  else if reqUser.isSome then (.ok (askLogin req), w)
  else if req.clientId.isNone then (.error .keyError, w)
  else (.error .typeError, w)

/-- `setup_auth` with this method, oauth2/authorization.py:555-653.  The user id in the header is bytes (`AESGCM.decrypt`), unless
it is base64url, when `_unwrap_identity` makes an identity of it. -/
def setupSymKey (E : Env) (L : SymLib) (loads : List Nat → Except Exc Identity) (k : SymKey) (m : AuthnMethod) (w : World)
    (req : AuthzReq) (cookies : List SessionCookie) (auth : String) (reqUser : Option (Option String)) :
    Except Exc SetupRes × World :=
  match k.user L auth.toList with
  | .error e => setupRest E m w req reqUser (if caughtAuthn e then .ok none else .error e)
  | .ok user =>
    match symKeyCookie E req.clientId cookies with
    | .error e => setupRest E m w req reqUser (if caughtAuthn e then .ok none else .error e)
    | .ok (some i) => setupRest E m w req reqUser (textIdentity E w (unwrapIdentity loads i))
    | .ok none =>
      match b64d user with
      | .error e => (.error e, w)
      | .ok (some bs) => setupRest E m w req reqUser (textIdentity E w (loads bs))
      | .ok none => setupBytes w req reqUser

end OidcOp
