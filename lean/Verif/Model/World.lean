/-
The provider as a transition system: session database, clock, token handlers, and the operations of
the token endpoint, the authorization endpoint and the session manager.

Session ids and token values are opaque here; the laws of an `Env` say what is assumed of them.
-/
import Verif.Model.Manager
import Verif.Model.Authz
import Verif.Model.Util
import Verif.Spec.Session

namespace OidcOp

/-- `str.replace(" ", "+")` -/
def spaceToPlus (v : String) : String := String.ofList (v.toList.map (fun c => if c = ' ' then '+' else c))

/-- Everything the operations depend on besides the state.  The functions stand for configuration,
token handlers, the session id cipher and the claims interface; the laws are the idealisation:
a token value determines the number of the handler call that made it (randomness / jti never repeats),
its class and session id (they are inside, encrypted or signed), it is not empty and has no blank in it (base64url text, with '.' in a JWT), and if a handler recognises
it then the session id found in it is the one that was put in.  The laws speak of calls that succeed. -/
structure Env where
  cfg : TokenCfg := {}
  authz : AuthzCfg := {}
  /-- value made by handler call number `n` for a class and a session id -/
  mkVal : Nat → TokenClass → String → String
  /-- exception raised by handler call number `n` -/
  fail : Nat → TokenClass → Option Exc
  /-- `token_handler.info(value).get("sid")` at an instant, token/handler.py:62-81 -/
  info : String → Int → Except Exc (Option String)
  /-- `encrypted_session_id`, session/database.py:181-185 -/
  encSid : Nat → List String → String
  /-- `decrypt_session_id`, session/database.py:187-196 -/
  decrypt : String → Except Exc (List String)
  /-- `uuid1().hex` -/
  uuid : Nat → String
  /-- `sub_func[sub_type](user_id, salt=..., sector_identifier=...)` -/
  subOf : String → AuthzReq → String
  /-- `get_claims_all_usage(session_id, scopes)` -/
  claims : String → Grant → List String → Except Exc (Dict (Dict Json))
  /-- `filter_scopes(scopes, client_id)` -/
  filter : String → List String → List String
  /-- whether `get_uri` and `response_mode` let the authorization response out -/
  deliverable : AuthzReq → Bool
  mkVal_inj : ∀ {n c s n' c' s'}, fail n c = none → fail n' c' = none → mkVal n c s = mkVal n' c' s' → n = n' ∧ c = c' ∧ s = s'
  mkVal_ne : ∀ n c s, fail n c = none → mkVal n c s ≠ ""
  mkVal_plus : ∀ n c s, fail n c = none → spaceToPlus (mkVal n c s) = mkVal n c s
  info_seal : ∀ {n c s t s'}, fail n c = none → info (mkVal n c s) t = .ok s' → s' = some s
  decrypt_enc : ∀ n u c g, Spec.CleanId u → Spec.CleanId c → Spec.GrantId g →
    decrypt (encSid n [u, c, g]) = .ok [u, c, g]
  encSid_clean : ∀ n u c g, Spec.CleanId u → Spec.CleanId c → Spec.GrantId g →
    ';' ∉ (encSid n [u, c, g]).toList
  uuid_clean : ∀ n, Spec.GrantId (uuid n)
  uuid_inj : ∀ {n n'}, uuid n = uuid n' → n = n'

/-- The value was made by handler call `n` for a class and a session id. -/
structure Env.Made (E : Env) (n : Nat) (c : TokenClass) (s v : String) : Prop where
  ok : E.fail n c = none
  value : v = E.mkVal n c s

theorem Env.Made.inj {E : Env} {n n' : Nat} {c c' : TokenClass} {s s' v : String} (h : E.Made n c s v)
    (h' : E.Made n' c' s' v) : n = n' ∧ c = c' ∧ s = s' :=
  E.mkVal_inj h.ok h'.ok (h.value.symm.trans h'.value)

theorem Env.Made.ne {E : Env} {n : Nat} {c : TokenClass} {s v : String} (h : E.Made n c s v) : v ≠ "" := by
  rw [h.value]; exact E.mkVal_ne _ _ _ h.ok

theorem Env.Made.plus {E : Env} {n : Nat} {c : TokenClass} {s v : String} (h : E.Made n c s v) : spaceToPlus v = v := by
  rw [h.value]; exact E.mkVal_plus _ _ _ h.ok

theorem Env.Made.seal {E : Env} {n : Nat} {c : TokenClass} {s v : String} {t : Int} {s' : Option String}
    (h : E.Made n c s v) (hi : E.info v t = .ok s') : s' = some s := by
  rw [h.value] at hi; exact E.info_seal h.ok hi

/-- Something a client received. -/
inductive Event where
  /-- an authorization response, for a grant (its reference) and a client -/
  | authz (ref : Nat) (client : String) (resp : AuthzResp)
  /-- a successful token response; `value` is the code or refresh token that was presented -/
  | token (ref : Nat) (client : String) (refresh : Bool) (value : String) (req : TokenReq)
      (resp : TokenResp)
  deriving DecidableEq, Repr, Inhabited

/-- State of the provider.  `n` numbers the calls of random generators, `pool` holds the token requests
that `parse_request` accepted, `log` what was answered. -/
structure World where
  st : Store := {}
  n : Nat := 0
  now : Int := 0
  pool : List TokenReq := []
  log : List Event := []
  deriving DecidableEq, Repr, Inhabited

/-- The result of `get_session_info(sid, grant=True)`. -/
structure Sess where
  sid : String
  user : String
  client : String
  gid : String
  ref : Nat
  grant : Grant
  deriving DecidableEq, Repr, Inhabited

/-- `SessionManager.get_session_info(sid, grant=True)`, session/manager.py:440-453.  A record that is
not a grant makes the caller's first use of it an AttributeError; it is raised here. -/
def sessionOf (E : Env) (st : Store) (sid : String) : Except Exc Sess :=
  match E.decrypt sid with
  | .error e => .error e
  | .ok [u, c, g] =>
    match dbGet ⟨u, some c, some g⟩ st with
    | .error e => .error e
    | .ok r =>
      match st.obj r with
      | some (.grant gr) => .ok { sid := sid, user := u, client := c, gid := g, ref := r, grant := gr }
      | _ => .error .attributeError
  | .ok _ => .error .valueError

/-- `_compatible_sid`, session/manager.py:473-478 -/
def compatibleSid (E : Env) (n : Nat) (sid : String) : String :=
  match unpackSessionKey sid.toList with
  | [a, b, c] => E.encSid n [String.ofList a, String.ofList b, String.ofList c]
  | _ => sid

/-- `get_session_info_by_token(value, grant=True)`, session/manager.py:480-506 -/
def sessionByToken (E : Env) (w : World) (v : String) : Except Exc Sess :=
  match E.info v w.now with
  | .error e => .error e
  | .ok sid? =>
    match truthyStr sid? with
    | none => .error .wrongTokenClass
    | some sid => sessionOf E w.st (compatibleSid E w.n sid)

/-- The outcome of a token handler call for a session. -/
def minter (E : Env) (sid : String) : Minter := fun n c =>
  match E.fail n c with
  | some e => .error e
  | none => .ok (E.mkVal n c sid)

/-- Write the grant back after an endpoint has worked on it.  In Python the object is mutated in place;
`session_manager[sid] = grant` stores it where it was found.  Each minting also stores the grant under
the encrypted session id (oauth2/token.py:94, oauth2/authorization.py:347). -/
def World.commit (w : World) (s : Sess) (gs : GS) : World :=
  let st := w.st.put s.ref (.grant gs.g)
  { w with
    n := gs.n
    st := if gs.g.issuedToken.length = s.grant.issuedToken.length then st
      else (aliasSid s.sid s.ref st).2 }

/-! ### token endpoint -/

/-- `AccessTokenHelper.post_parse_request`, oauth2/token.py:205-227, oidc/token.py:172-199 -/
def codeParseW (E : Env) (w : World) (req : TokenReq) : Except Exc PRes × World :=
  match req.code with
  | none => (.ok (.err "invalid_grant"), w)
  | some code =>
    match sessionByToken E w code with
    | .error e =>
      if e.isKeyError || e = .unknownToken then (.ok (.err "invalid_grant"), w) else (.error e, w)
    | .ok s =>
      match codeParse E.cfg w.now req code s.grant with
      | (res, g') => (res, w.commit s ⟨g', w.n⟩)

/-- `RefreshTokenHelper.post_parse_request`, oauth2/token.py:323-359, oidc/token.py:317-353.
`request.verify` raises when refresh_token is missing. -/
def refreshParseW (E : Env) (w : World) (req : TokenReq) : Except Exc PRes :=
  match req.refreshToken with
  | none => .error (.other "MissingRequiredAttribute")
  | some v =>
    match sessionByToken E w v with
    | .error e => if e.isKeyError then .ok (.err "invalid_grant") else .error e
    | .ok s => refreshParse w.now req v s.grant

/-- `if "grant_types_supported" in client_info and grant_type not in ...`, oauth2/token.py:429-434 -/
def grantTypeRefused (cl : TClient) (gt : String) : Bool :=
  match cl.grantTypes with
  | some l => decide (gt ∉ l)
  | none => false

/-- `Token._post_parse_request`, oauth2/token.py:423-440, for an endpoint with the two standard helpers.
`client` is the client id established by `parse_request` (endpoint.py:180-184). -/
def tokenParse (E : Env) (w : World) (client : String) (req : TokenReq) : Except Exc PRes × World :=
  match req.grantType with
  | none => (.error .keyError, w)
  | some gt =>
    match E.cfg.cdb.get? client with
    | none => (.error .keyError, w)
    | some cl =>
      if grantTypeRefused cl gt then
        (.ok (.err "invalid_request"), w)
      else if gt = "authorization_code" then codeParseW E w req
      else if gt = "refresh_token" then (refreshParseW E w req, w)
      else (.ok (.err "invalid_request"), w)

/-- The helper's `process_request` with its session lookup, oauth2/token.py:107-119, 232-241.  Also
returns the session and the presented value. -/
def tokenHelper (E : Env) (w : World) (kw : Option Bool) (req : TokenReq) :
    Except Exc (HRes × Option (Sess × Bool × String)) × World :=
  match req.grantType with
  | none => (.error .keyError, w)
  | some gt =>
    if gt = "authorization_code" then
      match req.code with
      | none => (.ok (.err "invalid_request", none), w)
      | some code =>
        let v := spaceToPlus code
        match sessionByToken E w v with
        | .error e => (.error e, w)
        | .ok s =>
          match codeProcess E.cfg (minter E s.sid) w.now kw s.client req v ⟨s.grant, w.n⟩ with
          | (.ok r, gs) => (.ok (r, some (s, false, v)), w.commit s gs)
          | (.error e, gs) => (.error e, w.commit s gs)
    else if gt = "refresh_token" then
      match req.refreshToken with
      | none => (.error .keyError, w)
      | some v =>
        match sessionByToken E w v with
        | .error e => (.error e, w)
        | .ok s =>
          match refreshProcess E.cfg (minter E s.sid) w.now kw s.client req v ⟨s.grant, w.n⟩ with
          | (.ok r, gs) => (.ok (r, some (s, true, v)), w.commit s gs)
          | (.error e, gs) => (.error e, w.commit s gs)
    else (.ok (.err "invalid_request", none), w)

/-- `Token.process_request`, oauth2/token.py:442-490.  A response is given only if it has an access
token whose session can be looked up; it is recorded in the log. -/
def tokenProcess (E : Env) (w : World) (kw : Option Bool) (req : TokenReq) : Except Exc HRes × World :=
  match tokenHelper E w kw req with
  | (.error e, w') => if e = .jweException then (.ok (.err "invalid_request"), w') else (.error e, w')
  | (.ok (.err c, _), w') => (.ok (.err c), w')
  | (.ok (.resp _, none), w') => (.error .keyError, w')
  | (.ok (.resp r, some (s, rf, v)), w') =>
    match r.accessToken with
    | none => (.error .keyError, w')
    | some a =>
      match sessionByToken E w' a with
      | .error e => (.error e, w')
      | .ok _ => (.ok (.resp r), { w' with log := w'.log ++ [.token s.ref s.client rf v req r] })

/-! ### authorization endpoint -/

/-- `Grant(...)` as `create_grant` calls it, session/manager.py:182-195 -/
def newGrant (E : Env) (w : World) (u : String) (req : AuthzReq) (ev : AuthnEvent) (rules : Rules) :
    Grant :=
  { id := E.uuid w.n, sub := E.subOf u req, authzReq := some req, authnEvent := some ev,
    usageRules := rules, claims := req.claims, issuedAt := w.now }

/-- `Authorization.create_session`, oauth2/authorization.py:485-504 -/
def authzCreateSession (E : Env) (w : World) (u c : String) (req : AuthzReq) (ev : AuthnEvent) : World :=
  let req := { req with clientId := some c }
  let g := newGrant E w u req ev (E.authz.rulesOf (some c))
  { w with st := (createSession u c g w.st).2, n := w.n + 1 }

/-- `create_grant` as `setup_auth` calls it, oauth2/authorization.py:639-644: no usage rules. -/
def authzCreateGrant (E : Env) (w : World) (u c : String) (req : AuthzReq) (ev : AuthnEvent) : World :=
  let req := { req with clientId := some c }
  { w with st := (createGrant u c (newGrant E w u req ev []) w.st).2, n := w.n + 1 }

/-- The session work of `post_authentication`, oauth2/authorization.py:823-857: authorization, minting.
The result `none` is the "Grant not usable" error. -/
def postAuthentication (E : Env) (w : World) (sid : String) (req : AuthzReq) :
    Except Exc (Option (Sess × ARes)) × World :=
  match sessionOf E w.st sid with
  | .error e => (.error e, w)
  | .ok s =>
    match authzCall E.authz (E.claims sid s.grant) w.now s.client req s.grant with
    | (.error e, g1) => (.error e, w.commit s ⟨g1, w.n⟩)
    | (.ok _, g1) =>
      if g1.isActive w.now = false then (.ok none, w.commit s ⟨g1, w.n⟩)
      else
        match createAuthnResponse (minter E sid) w.now (E.filter s.client) req ⟨g1, w.n⟩ with
        | (.error e, gs) => (.error e, w.commit s gs)
        | (.ok r, gs) => (.ok (some (s, r)), w.commit s gs)

/-- `authz_part2`, oauth2/authorization.py:889-957: every exception becomes an error response; a
response that passes the redirect URI and response mode checks is delivered. -/
def authzPart2 (E : Env) (w : World) (sid : String) (req : AuthzReq) : World :=
  match postAuthentication E w sid req with
  | (.ok (some (s, .resp r _)), w') =>
    if E.deliverable req then { w' with log := w'.log ++ [.authz s.ref s.client r] } else w'
  | (_, w') => w'

/-! ### session manager operations with session ids -/

/-- `SessionManager.revoke_token`, session/manager.py:304-320 -/
def revokeTokenW (E : Env) (w : World) (sid v : String) (recursive : Bool) : World :=
  match sessionOf E w.st sid with
  | .error _ => w
  | .ok s =>
    match s.grant.getToken v with
    | none => w
    | some _ =>
      let g1 := s.grant.updateToken v Token.revoke
      let g2 := if recursive then
          match revokeDependentFuel (g1.issuedToken.length + 1) v g1.issuedToken with
          | .ok ts => { g1 with issuedToken := ts }
          | .error _ => g1
        else g1
      { w with st := w.st.put s.ref (.grant g2) }

/-- `SessionManager.revoke_grant`, session/manager.py:384-393 -/
def revokeGrantW (E : Env) (w : World) (sid : String) : World :=
  match E.decrypt sid with
  | .error _ => w
  | .ok parts =>
    match evalPath parts with
    | .error _ => w
    | .ok p => { w with st := (revokeGrant p w.st).2 }

/-- `SessionManager.revoke_client_session`, session/manager.py:356-377 -/
def revokeClientSessionW (E : Env) (w : World) (sid : String) : World :=
  match E.decrypt sid with
  | .ok [u, c] => { w with st := (revokeClientSession u c w.st).2 }
  | .ok [u, c, _] => { w with st := (revokeClientSession u c w.st).2 }
  | _ => w

/-- `SessionManager.remove_session`, session/manager.py:530-532 -/
def removeSessionW (E : Env) (w : World) (sid : String) : World :=
  match E.decrypt sid with
  | .ok [u, c, g] => { w with st := (removeSession u c g w.st).2 }
  | _ => w

/-- One thing that happens to the provider. -/
inductive WOp where
  /-- time passes -/
  | tick (d : Nat)
  /-- a user has authenticated for a client's request: `create_session` -/
  | login (u c : String) (req : AuthzReq) (ev : AuthnEvent)
  /-- an authenticated user's new request: `create_grant` -/
  | again (u c : String) (req : AuthzReq) (ev : AuthnEvent)
  /-- `add_grant` with any arguments but already issued tokens -/
  | addGrant (u c : String) (g : Grant)
  /-- `authz_part2(request, session_id)` -/
  | authorize (sid : String) (req : AuthzReq)
  /-- `parse_request` at the token endpoint, for a client established by client authentication -/
  | parse (client : String) (req : TokenReq)
  /-- `process_request` at the token endpoint on a request that was parsed before; the same parsed
  request can be processed again and in any order -/
  | process (i : Nat) (kw : Option Bool)
  | revokeToken (sid v : String) (recursive : Bool)
  | revokeGrant (sid : String)
  | revokeClientSession (sid : String)
  | removeSession (sid : String)

/-- The state after an operation, whether it succeeded or not.  `parse_request` stores the authenticated
client id in the request (endpoint.py:180-184); without authentication the client id is the one in the
request (183), so in both cases the two agree. -/
def step (E : Env) (w : World) : WOp → World
  | .tick d => { w with now := w.now + d }
  | .login u c req ev => authzCreateSession E w u c req ev
  | .again u c req ev => authzCreateGrant E w u c req ev
  | .addGrant u c g =>
    { w with st := (addGrant u c { g with id := E.uuid w.n, issuedToken := [] } w.st).2, n := w.n + 1 }
  | .authorize sid req => authzPart2 E w sid req
  | .parse client req =>
    match tokenParse E w client { req with clientId := some client } with
    | (.ok (.req r), w') => { w' with pool := w'.pool ++ [r] }
    | (_, w') => w'
  | .process i kw =>
    match w.pool[i]? with
    | none => w
    | some req => (tokenProcess E w kw req).2
  | .revokeToken sid v rec => revokeTokenW E w sid v rec
  | .revokeGrant sid => revokeGrantW E w sid
  | .revokeClientSession sid => revokeClientSessionW E w sid
  | .removeSession sid => removeSessionW E w sid

/-- The state after a history. -/
def run (E : Env) (w : World) (ops : List WOp) : World := ops.foldl (step E) w

end OidcOp
