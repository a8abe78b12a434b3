/-
C77, the other direction: a user who gives the password is logged in.
-/
import Verif.Props.UserAuthn
import Verif.Props.TokenHome

namespace OidcOp
open Spec

theorem verifyPassword_ok {passwd : Dict String} {user pwd : String} (h : passwd.get? user = some pwd) :
    verifyPassword passwd user pwd = .ok () := by
  unfold verifyPassword
  rw [h]
  simp

theorem findIdentityBy_works {E : Env} {L : BasicLib} {loads : List Nat → Except Exc Identity} {passwd : Dict String} {w : World}
    {req : AuthzReq} {cookies : List SessionCookie} {auth c user pwd : String} (hp : PresentsBasic L auth.toList user pwd)
    (hpw : passwd.get? user = some pwd) (hpl : PlainName user) (hc : req.clientId = some c) (hno : NoCookieFor E cookies c) :
    findIdentityBy E L loads (.basic passwd) w req cookies auth = .ok (some { uid := some user }) := by
  have hb : basicPair L auth.toList = .ok (user.toList, pwd.toList) :=
    (basicPair_iff L auth.toList user.toList pwd.toList).2 (by simpa using hp)
  have hw : withCookie E req.clientId cookies user = .ok { uid := some user } := by
    unfold withCookie
    split
    · rfl
    · rw [hc, cookieInfo_none hno]
  unfold findIdentityBy
  simp only [authenticatedBy, hb, String.ofList_toList, verifyPassword_ok hpw, hw]
  simp only [Except.map, unwrapIdentity, b64d_plain hpl, checkIdentity, truthyStr]

/-- C77, for plain user names and passwords without a colon, in a browser without cookies for the client.  Whatever happened before:
whoever gives the name and the password of a user in an authorization request that does not ask for a login page, and that is
not about another user, gets a new session of that user with the client.  (Missing: the refutations.) -/
theorem C77_works_partial (E : Env) (U : String → Prop) (adds : Bool)
    (hU : ∀ n u c g, (SKey.gra u c g).Good U → ¬ U (E.encSid n [u, c, g])) (now : Int) (ops : List WOp)
    (hops : ∀ op ∈ ops, FairW E U adds op) (L : BasicLib) (loads : List Nat → Except Exc Identity) (passwd : Dict String)
    (m : AuthnMethod) (req : AuthzReq) (cookies : List SessionCookie) (auth : String) (reqUser : Option (Option String))
    (user pwd c : String) (hp : PresentsBasic L auth.toList user pwd) (hpw : passwd.get? user = some pwd) (hpl : PlainName user)
    (hc : req.clientId = some c) (hno : NoCookieFor E cookies c) (hk : (SKey.cli user c).Good U) (hr : req.redirectUri ≠ none)
    (hprompt : ¬ promptHas req "login") (hu : reqUser = none ∨ reqUser = some (some user)) :
    ∃ sid ev, ev.uid = user ∧ ev.authnTime = (run E { now := now } ops).now ∧
      sid = E.encSid (run E { now := now } ops).n [user, c, E.uuid (run E { now := now } ops).n] ∧
      setupAuthBy E L loads (.basic passwd) m (run E { now := now } ops) req cookies auth reqUser =
        (.ok (.session sid user), step E (run E { now := now } ops) (.login user c req ev)) := by
  obtain ⟨-, hi, -⟩ := home_history hU now ops hops
  generalize run E { now := now } ops = w at *
  refine ⟨_, loginEvent m w.now user, rfl, rfl, rfl, ?_⟩
  unfold setupAuthBy
  rw [findIdentityBy_works hp hpw hpl hc hno]
  simp only [setupRest]
  rw [if_neg (by simpa using hr), if_neg hprompt]
  rw [if_neg (by rcases hu with rfl | rfl <;> simp)]
  unfold startSession
  rw [hc]
  simp only
  have hgood : (SKey.gra user c (newGrant E w user { req with clientId := some c } (loginEvent m w.now user)
      (E.authz.rulesOf (some c))).id).Good U := ⟨hk.1, hk.2.1, hk.2.2, E.uuid_clean w.n⟩
  obtain ⟨s', r, hcs, -⟩ := createSession_spec hi.inv hgood
  rw [hcs]
  rfl

/-- C77.  A request that asks for a login page gets one, however its sender is known. -/
theorem C77_login_page (E : Env) (L : BasicLib) (loads : List Nat → Except Exc Identity) (k : AuthnKind)
    (m : AuthnMethod) (w w' : World) (req : AuthzReq) (cookies : List SessionCookie) (auth : String) (reqUser : Option (Option String))
    (sid user : String) (hp : promptHas req "login") :
    setupAuthBy E L loads k m w req cookies auth reqUser ≠ (.ok (.session sid user), w') := by
  intro h
  unfold setupAuthBy at h
  cases hi : findIdentityBy E L loads k w req cookies auth with
  | error e => rw [hi] at h; cases h
  | ok o =>
    rw [hi] at h
    cases o with
    | none =>
      simp only [setupRest, askLogin] at h
      repeat' split at h
      all_goals cases h
    | some i =>
      simp only [setupRest, hp, if_true] at h
      split at h <;> cases h

namespace Ex

/-- C77 is false of the code: a password with a colon is not accepted, although in HTTP only user names cannot have colons (RFC 7617,
section 2); user_authn/user.py:223. -/
theorem C77_colon_refuted :
    ¬ (∀ (E : Env) (L : BasicLib) (loads : List Nat → Except Exc Identity) (passwd : Dict String) (m : AuthnMethod) (w : World),
      Reachable E w → ∀ (req : AuthzReq) (user pwd c : String), PlainName user → ':' ∉ user.toList →
        passwd.get? user = some pwd → req.clientId = some c → req.redirectUri ≠ none → ¬ promptHas req "login" →
        L.b64decode (user.toList ++ ':' :: pwd.toList) = .ok (user.toList ++ ':' :: pwd.toList) →
        L.decode user.toList = .ok user.toList → L.decode pwd.toList = .ok pwd.toList → L.unquote user.toList = user.toList →
        ∃ sid, (setupAuthBy E L loads (.basic passwd) m w req [] (user ++ ":" ++ pwd) none).1 = .ok (.session sid user)) := by
  intro h
  obtain ⟨sid, hs⟩ := h E clear noJson [("d", "kr:all")] {} (init) ⟨1000, [], rfl⟩ (authzReq "c1") "d" "kr:all" "c1"
    (.inr ⟨by decide, by decide⟩) (by decide) (by decide +kernel) rfl (by decide +kernel) (by decide +kernel) rfl rfl rfl rfl
  have : (setupAuthBy E clear noJson (.basic [("d", "kr:all")]) {} init (authzReq "c1") [] ("d" ++ ":" ++ "kr:all") none).1 =
      .error .valueError := by decide +kernel
  rw [this] at hs
  cases hs

/-- The hypotheses of `C77_works_partial` for a request at the start, with a header for the user d. -/
example : PresentsBasic clear "Basic d:krall".toList "d" "krall" ∧ passwords.get? "d" = some "krall" ∧ PlainName "d" ∧
    (authzReq "c1").clientId = some "c1" ∧ NoCookieFor E [] "c1" ∧ (SKey.cli "d" "c1").Good (· = "d") ∧
    (authzReq "c1").redirectUri ≠ none ∧ ¬ promptHas (authzReq "c1") "login" :=
  ⟨(basicPair_iff clear _ "d".toList "krall".toList).1 (by decide +kernel), by decide +kernel, .inr ⟨by decide, by decide⟩, rfl,
    (fun k hk => by cases hk), ⟨rfl, by decide, by decide⟩, by decide +kernel, by decide +kernel⟩

end Ex

end OidcOp
