/-
Model of how the authorization endpoint decides about authentication: user_authn/authn_context.py, the cookie part of
user_authn/user.py, and pick_authn_method, setup_auth and process_request of oauth2/authorization.py.
-/
import Verif.Model.World
import Verif.Model.Scopes

namespace OidcOp

/-! ### Picking an authentication method -/

/-- An entry of the broker's database, user_authn/authn_context.py:28-44: its acr, and "expires_in" in the `kwargs` of
the method. -/
structure AuthnMethod where
  id : String := ""
  acr : String := ""
  expiresIn : Option Int := none
  deriving DecidableEq, Repr, Inhabited

/-- `_acr_claim`, user_authn/authn_context.py:111-121.  A missing acr makes the `in` test raise TypeError; a value that
is neither null nor an object is taken to do so too. -/
def acrClaim (req : AuthzReq) : Except Exc (Option (List Json)) :=
  match req.claims.get? "id_token" with
  | none => .ok none
  | some idt =>
    if idt.isEmpty then .ok none
    else
      match idt.get? "acr" with
      | some (.obj acr) =>
        match Dict.get? acr "value" with
        | some v => .ok (some [v])
        | none =>
          match Dict.get? acr "values" with
          | some (.arr vs) => .ok (some vs)
          | some _ => .error .typeError
          | none => .ok none
      | _ => .error .typeError

/-- The acrs that `pick_auth` looks for, user_authn/authn_context.py:135-151.  `hint` is what an ID token hint or a login
hint leads to.  A value that is not a string matches no method. -/
def wantedAcrs (hint : List String) (req : AuthzReq) : Except Exc (List Json) :=
  match req.acrValues with
  | some l => .ok (l.map .str)
  | none =>
    match acrClaim req with
    | .error e => .error e
    | .ok (some (a :: as)) => .ok (a :: as)
    | .ok _ => .ok (hint.map .str)

/-- `pick_auth` with `pick_all=False`, user_authn/authn_context.py:124-161.  The broker is the list of its entries in
the order of insertion. -/
def pickAuth (broker : List AuthnMethod) (hint : List String) (req : AuthzReq) : Except Exc (Option AuthnMethod) :=
  match broker with
  | [m] => .ok (some m)
  | _ =>
    match wantedAcrs hint req with
    | .error e => .error e
    | .ok [] => .ok broker.head?
    | .ok (a :: as) => .ok ((a :: as).findSome? (fun x => broker.find? (fun m => decide (.str m.acr = x))))

/-- `pick_authn_method` and the lookup of its result, oauth2/authorization.py:461-483, 550-553, without a method id and
acr given by the application.  A failed choice gives an error description, which has no "method". -/
def pickMethod (broker : List AuthnMethod) (hint : List String) (req : AuthzReq) : Except Exc AuthnMethod :=
  match pickAuth broker hint req with
  | .ok (some m) => .ok m
  | _ => .error .keyError

/-! ### The identity in a cookie -/

/-- A session cookie after `parse_cookie`: the session id in its value, and its time stamp. -/
structure SessionCookie where
  sid : String
  timestamp : Int
  deriving DecidableEq, Repr, Inhabited

/-- The identity that `setup_auth` works with: its "uid" and "sid" members. -/
structure Identity where
  uid : Option String := none
  sid : Option String := none
  deriving DecidableEq, Repr, Inhabited

/-- `cookie_info`, user_authn/user.py:102-121.  Also the time stamp. -/
def cookieInfo (E : Env) (client : Option String) : List SessionCookie → Except Exc (Option (Identity × Int))
  | [] => .ok none
  | k :: ks =>
    match E.decrypt k.sid with
    | .error e => .error e
    | .ok [] => .error .indexError
    | .ok [_] => .error .indexError
    | .ok [_, c] => if some c ≠ client then cookieInfo E client ks else .error .indexError
    | .ok (u :: c :: _) =>
      if some c ≠ client then cookieInfo E client ks
      else .ok (some ({ uid := some u, sid := some k.sid }, k.timestamp))

/-- `_max_age`, oauth2/authorization.py:559-562, with `max_age`, 87-89, for a request object that was merged into the
request. -/
def maxAgeOf (req : AuthzReq) : Int := if req.upmAnswer then 0 else req.maxAge.getD 0

/-- `authenticated_as`, user_authn/user.py:62-77 -/
def authenticatedAs (E : Env) (now : Int) (client : Option String) (cookies : List SessionCookie) (maxAge : Int) :
    Except Exc (Option Identity) :=
  match cookieInfo E client cookies with
  | .error e => .error e
  | .ok none => .ok none
  | .ok (some (i, ts)) => if maxAge ≠ 0 ∧ now > ts + maxAge then .ok none else .ok (some i)

/-- The alphabet of base64url. -/
def b64Alphabet : Str :=
  "ABCDEFGHIJKLMNOPQRSTUVWXYZabcdefghijklmnopqrstuvwxyz0123456789-_".toList

/-- The value of a base64url character. -/
def b64Val (c : Char) : Nat := b64Alphabet.idxOf c

/-- The bytes of a base64url text without padding whose length is not 1 modulo 4. -/
def b64Bytes : Str → List Nat
  | a :: b :: c :: d :: r =>
    let n := ((b64Val a * 64 + b64Val b) * 64 + b64Val c) * 64 + b64Val d
    n / 65536 :: n / 256 % 256 :: n % 256 :: b64Bytes r
  | [a, b, c] =>
    let n := (b64Val a * 64 + b64Val b) * 64 + b64Val c
    [n / 1024, n / 4 % 256]
  | [a, b] => [(b64Val a * 64 + b64Val b) / 16]
  | _ => []

/-- `bytes.rstrip(b"=")` -/
def stripEq (s : Str) : Str := (s.reverse.dropWhile (fun c => c == '=')).reverse

/-- `cryptojwt.utils.b64d`; `none` is BadSyntax.  A text that has '=' at its end is not completed, so the base64 module
raises binascii.Error, a ValueError, if there are too few of them. -/
def b64d (s : Str) : Except Exc (Option (List Nat)) :=
  let cb := stripEq s
  if !(cb.all (fun c => b64Alphabet.contains c)) then .ok none
  else if cb = s then
    if cb.length % 4 = 1 then .ok none else .ok (some (b64Bytes cb))
  else if cb.length % 4 = 1 then .error .valueError
  else if cb.length % 4 ≠ 0 ∧ s.length < cb.length / 4 * 4 + 4 then .error .valueError
  else .ok (some (b64Bytes cb))

/-- `_unwrap_identity` on a dictionary, oauth2/authorization.py:518-527: the user id is decoded if it looks like
base64url.  `loads` is `json.loads(as_unicode(bytes))`, with the exceptions of both and of taking "uid" and "sid" out of
something that is not a dictionary. -/
def unwrapIdentity (loads : List Nat → Except Exc Identity) (i : Identity) : Except Exc Identity :=
  match i.uid with
  | none => .error .keyError
  | some u =>
    match b64d u.toList with
    | .error e => .error e
    | .ok none => .ok i
    | .ok (some bs) => loads bs

/-- The exceptions of `authenticated_as` that `setup_auth` catches, oauth2/authorization.py:567-578. -/
def caughtAuthn (e : Exc) : Bool :=
  decide (e = .toOld ∨ e = .unknownToken ∨ e = .other "NoSuchAuthentication" ∨ e = .other "TamperAllert")

/-- The check that the session of the cookie is active, oauth2/authorization.py:581-592.  `Revoked` is never raised. -/
def checkIdentity (E : Env) (w : World) (i : Identity) : Except Exc (Option Identity) :=
  match truthyStr i.sid with
  | none => .ok (some i)
  | some sid =>
    match sessionOf E w.st sid with
    | .error e => .error e
    | .ok s => if s.grant.isActive w.now = false then .ok none else .ok (some i)

/-- The identity, oauth2/authorization.py:556-592. -/
def findIdentity (E : Env) (loads : List Nat → Except Exc Identity) (w : World) (req : AuthzReq)
    (cookies : List SessionCookie) : Except Exc (Option Identity) :=
  match authenticatedAs E w.now req.clientId cookies (maxAgeOf req) with
  | .error e => if caughtAuthn e then .ok none else .error e
  | .ok none => .ok none
  | .ok (some i) =>
    match unwrapIdentity loads i with
    | .error e => .error e
    | .ok i' => checkIdentity E w i'

/-! ### setup_auth -/

/-- What `setup_auth` returns: an authentication function, the login_required error, or a session and its user. -/
inductive SetupRes where
  | login
  | loginRequired
  | session (sid user : String)
  deriving DecidableEq, Repr, Inhabited

/-- `AuthnEvent.is_valid`, authn_event.py:19-23 -/
def AuthnEvent.isValid (ev : AuthnEvent) (now : Int) : Bool := decide (ev.validUntil > now)

/-- `get_authentication_event(session_id).is_valid()` -/
def eventOf (E : Env) (w : World) (sid : String) : Except Exc AuthnEvent :=
  match sessionOf E w.st sid with
  | .error e => .error e
  | .ok s =>
    match s.grant.authnEvent with
    | none => .error .attributeError
    | some ev => .ok ev

/-- The last check of a session, oauth2/authorization.py:646-649. -/
def finishSetup (E : Env) (w : World) (sid user : String) : Except Exc SetupRes × World :=
  match eventOf E w sid with
  | .error e => (.error e, w)
  | .ok ev => if ev.isValid w.now then (.ok (.session sid user), w) else (.ok .login, w)

/-- "prompt" in request and "none" in request["prompt"] -/
def promptHas (req : AuthzReq) (p : String) : Bool :=
  match req.prompt with
  | some l => l.contains p
  | none => false

/-- Asking for authentication if that is allowed, oauth2/authorization.py:603-607 and 618-621. -/
def askLogin (req : AuthzReq) : SetupRes := if promptHas req "none" then .loginRequired else .login

/-- Reuse of the session of the identity, oauth2/authorization.py:623-649.  `create_grant` gets a session id and a grant
id of its own. -/
def reuseSession (E : Env) (w : World) (req : AuthzReq) (user sid : String) : Except Exc SetupRes × World :=
  match E.decrypt sid with
  | .error e => (.error e, w)
  | .ok [_, c, _] =>
    if req.clientId ≠ some c then (.ok .login, w)
    else
      match sessionOf E w.st sid with
      | .error e => (.error e, w)
      | .ok s =>
        if s.grant.isActive w.now = false then (.ok .login, w)
        else if some req ≠ s.grant.authzReq then
          match s.grant.authnEvent with
          | none => (.error .attributeError, w)
          | some ev =>
            if ev.isValid w.now = false then (.ok .login, w)
            else
              match (createGrant user c (newGrant E w user { req with clientId := some c } ev []) w.st).1 with
              | .error e => (.error e, authzCreateGrant E w user c req ev)
              | .ok _ => finishSetup E (authzCreateGrant E w user c req ev) (E.encSid w.n [user, c, E.uuid w.n]) user
        else finishSetup E w sid user
  | .ok _ => (.error .valueError, w)

/-- `Authorization.create_session`, oauth2/authorization.py:485-504, with `create_authn_event`, authn_event.py:29-72.
The time stamp is given as `time_stamp` and looked for as `timestamp`, so the time of authentication is the present. -/
def loginEvent (m : AuthnMethod) (now : Int) (user : String) : AuthnEvent :=
  { uid := user, authnInfo := m.acr, authnTime := now
    validUntil := now + (match m.expiresIn with
      | some x => if x = 0 then 3600 else x
      | none => 3600) }

/-- `create_session` for a user who has been authenticated, and the session id it returns. -/
def startSession (E : Env) (w : World) (m : AuthnMethod) (req : AuthzReq) (user : String) :
    Except Exc String × World :=
  match req.clientId with
  | none => (.error .keyError, w)
  | some c =>
    let ev := loginEvent m w.now user
    let w' := authzCreateSession E w user c req ev
    match (createSession user c (newGrant E w user { req with clientId := some c } ev
        (E.authz.rulesOf (some c))) w.st).1 with
    | .error e => (.error e, w')
    | .ok _ => (.ok (E.encSid w.n [user, c, E.uuid w.n]), w')

/-- `setup_auth` with the method picked, oauth2/authorization.py:555-653, and `re_authenticate`, 1042-1059.  `reqUser` is the keyword argument "req_user", which
can be there and be None. -/
def setupAuth (E : Env) (loads : List Nat → Except Exc Identity) (m : AuthnMethod) (w : World) (req : AuthzReq)
    (cookies : List SessionCookie) (reqUser : Option (Option String)) : Except Exc SetupRes × World :=
  match findIdentity E loads w req cookies with
  | .error e => (.error e, w)
  | .ok none => if req.redirectUri.isNone then (.error .keyError, w) else (.ok (askLogin req), w)
  | .ok (some i) =>
    if req.redirectUri.isNone then (.error .keyError, w)
    else if promptHas req "login" then (.ok .login, w)
    else
      match i.uid with
      | none => (.error .keyError, w)
      | some user =>
        if reqUser.isSome ∧ reqUser ≠ some (some user) then (.ok (askLogin req), w)
        else
          match i.sid with
          | some sid => reuseSession E w req user sid
          | none =>
            match startSession E w m req user with
            | (.error e, w') => (.error e, w')
            | (.ok sid, w') => (.ok (.session sid user), w')

/-! ### process_request -/

/-- What the authorization endpoint needs besides the environment. -/
structure LoginCfg where
  scopes : ScopeCfg := {}
  broker : List AuthnMethod := []
  loads : List Nat → Except Exc Identity := fun _ => .error .valueError

/-- What the endpoint answers: a login page of a method, the login_required error, or the outcome of `authz_part2` for a
session, which is a response or an error, and the session cookie that may come with it. -/
inductive ProcRes where
  | loginPage (m : AuthnMethod)
  | loginRequired
  | part2 (sid user : String) (cookie : Option SessionCookie)
  deriving DecidableEq, Repr, Inhabited

/-- The session cookie that comes with the answer of `post_authentication`, oauth2/authorization.py:877-887: the session
id, and the present time (cookie_handler.py:193-237). -/
def cookieOf (E : Env) (w : World) (sid : String) (req : AuthzReq) : Option SessionCookie :=
  match postAuthentication E w sid req with
  | (.ok (some _), _) => if E.deliverable req then some { sid := sid, timestamp := w.now } else none
  | _ => none

/-- `Authorization.process_request`, oauth2/authorization.py:962-1021, on a request that has been parsed.  Parsing the
cookies is left out. -/
def processAuthz (L : LoginCfg) (E : Env) (w : World) (req : AuthzReq) (hint : List String)
    (cookies : List SessionCookie) (reqUser : Option (Option String)) : Except Exc ProcRes × World :=
  match req.clientId with
  | none => (.error .keyError, w)
  | some c =>
    if !(L.scopes.cdb.has c) then (.error .keyError, w)
    else
      match checkUnknownScopes L.scopes c req.scope with
      | .error e => (.error e, w)
      | .ok _ =>
        match pickMethod L.broker hint req with
        | .error e => (.error e, w)
        | .ok m =>
          match setupAuth E L.loads m w req cookies reqUser with
          | (.error e, w') => (.error e, w')
          | (.ok .login, w') => (.ok (.loginPage m), w')
          | (.ok .loginRequired, w') => (.ok .loginRequired, w')
          | (.ok (.session sid user), w') =>
            (.ok (.part2 sid user (cookieOf E w' sid req)), authzPart2 E w' sid req)

end OidcOp
