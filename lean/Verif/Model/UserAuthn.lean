/-
Model of the user authentication methods of user_authn/user.py, and of the authorization endpoint's `setup_auth` with them.
-/
import Verif.Model.Login

namespace OidcOp

/-- What `BasicAuthn` uses of the Python library: `base64.b64decode` (bytes are characters up to 255), `bytes.decode`, and
`urllib.parse.unquote`. -/
structure BasicLib where
  b64decode : Str → Except Exc Str
  decode : Str → Except Exc Str
  unquote : Str → Str

/-- `authorization[6:]` if the header starts with "Basic", user_authn/user.py:220-221 -/
def stripBasic (auth : Str) : Str := if "Basic".toList.isPrefixOf auth then auth.drop 6 else auth

/-- The user and the password of a header, user_authn/user.py:220-225.  Anything but one colon makes the unpacking of the
pair raise ValueError. -/
def basicPair (L : BasicLib) (auth : Str) : Except Exc (Str × Str) :=
  match L.b64decode (stripBasic auth) with
  | .error e => .error e
  | .ok b =>
    match pySplit [':'] b with
    | [u, p] =>
      match L.decode u with
      | .error e => .error e
      | .ok u' =>
        match L.decode p with
        | .error e => .error e
        | .ok p' => .ok (L.unquote u', p')
    | _ => .error .valueError

/-- `BasicAuthn.verify_password`, user_authn/user.py:208-210.  In Python the password is decoded after the user name has
been unquoted and before the table is asked, as here. -/
def verifyPassword (passwd : Dict String) (user password : String) : Except Exc Unit :=
  match passwd.get? user with
  | none => .error .keyError
  | some p => if password ≠ p then .error (.other "FailedAuthentication") else .ok ()

/-- `res.update(self.cookie_info(cookie, client_id))` if there are cookies, user_authn/user.py:227-228, 257-258, 281-282 -/
def withCookie (E : Env) (client : Option String) (cookies : List SessionCookie) (user : String) : Except Exc Identity :=
  if cookies.isEmpty then .ok { uid := some user }
  else
    match cookieInfo E client cookies with
    | .error e => .error e
    | .ok none => .ok { uid := some user }
    | .ok (some (i, _)) => .ok { uid := i.uid, sid := i.sid }

/-- The methods: those that know a user only by their cookie (user_authn/user.py:62-77), `BasicAuthn` (202-229) and
`NoAuthn` (264-284).  `SymKeyAuthn` is left out: the user id that it returns is not a text. -/
inductive AuthnKind where
  | byCookie
  | basic (passwd : Dict String)
  | nobody (user : String)

/-- `authenticated_as` of the methods.  Only the first looks at max_age. -/
def authenticatedBy (E : Env) (L : BasicLib) (now : Int) (client : Option String) (cookies : List SessionCookie) (maxAge : Int)
    (auth : String) : AuthnKind → Except Exc (Option Identity)
  | .byCookie => authenticatedAs E now client cookies maxAge
  | .basic passwd =>
    match basicPair L auth.toList with
    | .error e => .error e
    | .ok (u, p) =>
      match verifyPassword passwd (String.ofList u) (String.ofList p) with
      | .error e => .error e
      | .ok _ => (withCookie E client cookies (String.ofList u)).map some
  | .nobody user => (withCookie E client cookies user).map some

/-- The identity, oauth2/authorization.py:556-592, with a method of any kind. -/
def findIdentityBy (E : Env) (L : BasicLib) (loads : List Nat → Except Exc Identity) (k : AuthnKind) (w : World) (req : AuthzReq)
    (cookies : List SessionCookie) (auth : String) : Except Exc (Option Identity) :=
  match authenticatedBy E L w.now req.clientId cookies (maxAgeOf req) auth k with
  | .error e => if caughtAuthn e then .ok none else .error e
  | .ok none => .ok none
  | .ok (some i) =>
    match unwrapIdentity loads i with
    | .error e => .error e
    | .ok i' => checkIdentity E w i'

/-- `setup_auth` after the identity has been found, oauth2/authorization.py:594-653. -/
def setupRest (E : Env) (m : AuthnMethod) (w : World) (req : AuthzReq) (reqUser : Option (Option String)) :
    Except Exc (Option Identity) → Except Exc SetupRes × World
  | .error e => (.error e, w)
  | .ok none => if req.redirectUri.isNone then (.error .keyError, w) else (.ok (askLogin req), w)
  | .ok (some i) =>
    if req.redirectUri.isNone then (.error .keyError, w)
    else if promptHas req "login" then (.ok .login, w)
    else
      match i.uid with
      | none => (.error .keyError, w)
      | some user =>
        if reqUser.isSome ∧ reqUser ≠ some (some user) then (.ok (askLogin req), w)
        else
          match i.sid with
          | some sid => reuseSession E w req user sid
          | none =>
            match startSession E w m req user with
            | (.error e, w') => (.error e, w')
            | (.ok sid, w') => (.ok (.session sid user), w')

/-- `setup_auth` with a method of any kind, oauth2/authorization.py:529-653. -/
def setupAuthBy (E : Env) (L : BasicLib) (loads : List Nat → Except Exc Identity) (k : AuthnKind) (m : AuthnMethod) (w : World)
    (req : AuthzReq) (cookies : List SessionCookie) (auth : String) (reqUser : Option (Option String)) :
    Except Exc SetupRes × World :=
  setupRest E m w req reqUser (findIdentityBy E L loads k w req cookies auth)

/-- With a method that looks at cookies only this is `setupAuth`. -/
theorem setupAuthBy_byCookie (E : Env) (L : BasicLib) (loads : List Nat → Except Exc Identity) (m : AuthnMethod) (w : World)
    (req : AuthzReq) (cookies : List SessionCookie) (auth : String) (reqUser : Option (Option String)) :
    setupAuthBy E L loads .byCookie m w req cookies auth reqUser = setupAuth E loads m w req cookies reqUser := by
  unfold setupAuthBy setupAuth findIdentityBy findIdentity setupRest
  simp only [authenticatedBy]
  rfl

/-- `UserPassJinja2.verify`, user_authn/user.py:192-197 -/
def userPassVerify (db : Dict String) (username password : String) : Except Exc String :=
  if db.get? username = some password then .ok username else .error (.other "FailedAuthentication")

end OidcOp
