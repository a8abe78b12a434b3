/-
The flows from the login to the claims: what C121 and C123 are made of.
-/
import Verif.Spec.CodeFlow
import Verif.Props.SingleSignOn
import Verif.Props.Honoured
import Verif.Props.LifeTime
import Verif.Props.Pkce
import Verif.Props.Resource
import Verif.Lemmas.Isolation
import Verif.Props.ProviderExamples

namespace OidcOp
open Spec

/-! ### The authorization response -/

/-- The grant that the authorization handler makes of a new one. -/
theorem authzCall_ok {cfg : AuthzCfg} {claims : List String → Except Exc (Dict (Dict Json))} {clock : Int} {client : String}
    {req : AuthzReq} {g : Grant} {cl : Dict (Dict Json)} (hsc : g.scope = []) (hmu : g.maxUsage = none)
    (hru : g.usageRules = cfg.rulesOf req.clientId) (hcl : claims (req.scope.getD []) = .ok cl) :
    authzCall cfg claims clock client req g = (.ok (),
      { g with expiresAt := (match cfg.expiresIn with
                 | some x => clock + x
                 | none => g.expiresAt), resources := [client], scope := req.scope.getD [], claims := cl }) := by
  unfold authzCall
  cases hx : cfg.expiresIn with
  | none =>
    cases hr : cfg.usageRules with
    | none => simp only [hsc, List.isEmpty_nil, if_true, hcl]
    | some r => simp only [hsc, List.isEmpty_nil, if_true, hcl, ← hru, ← hmu]
  | some x =>
    cases hr : cfg.usageRules with
    | none => simp only [hsc, List.isEmpty_nil, if_true, hcl]
    | some r => simp only [hsc, List.isEmpty_nil, if_true, hcl, ← hru, ← hmu]

/-- A token of an authorization response that was issued at `t0`. -/
structure RootToken (t0 : Int) (ur : List (TokenClass × UsageRules)) (c : TokenClass) (v : String) (t : Token) : Prop where
  cls : t.cls = c
  value : t.value = v
  used : t.used = 0
  revoked : t.revoked = false
  notBefore : t.notBefore = 0
  rules : t.rules = setDefaults c ((ur.lookup c).getD {})
  ends : t.expiresAt = (match ((ur.lookup c).getD {}).expiresIn with
    | some x => if x = 0 then 0 else t0 + x
    | none => 0)

theorem mintAuthz_ok {mk : Minter} {clock : Int} {c : TokenClass} {v : String} {s : GS} (scope : Option (List String)) (ho : OpenGrant s.g clock)
    (hk : c.known = true) (hv : mk s.n c = .ok v) :
    ∃ t, mintAuthz mk clock c scope s = (.ok t, ⟨s.g.plusAll [t], s.n + 1⟩) ∧ RootToken clock s.g.usageRules c v t ∧
      t.scope = scope.getD s.g.scope := by
  have hm : ∃ sc, sc = scope.getD s.g.scope ∧ s.g.mintToken clock c none (some ((s.g.rulesFor c).getD {})) scope "" (mk s.n c) =
      (.ok (some (newToken clock c v none (some ((s.g.rulesFor c).getD {})) sc "bearer")),
        s.g.plusAll [newToken clock c v none (some ((s.g.rulesFor c).getD {})) sc "bearer"]) := by
    unfold Grant.mintToken
    cases scope with
    | none =>
      simp only [ho.active, hk, hv, Bool.true_eq_false, if_false, Option.some_or]
      exact ⟨s.g.scope, rfl, by simp [Grant.plusAll]⟩
    | some sc =>
      simp only [ho.active, hk, hv, Bool.true_eq_false, if_false, Option.some_or]
      exact ⟨sc, rfl, by simp [Grant.plusAll]⟩
  obtain ⟨sc, hsc, hm⟩ := hm
  refine ⟨withExpiry clock ((s.g.rulesFor c).getD {}).expiresIn (newToken clock c v none (some ((s.g.rulesFor c).getD {})) sc "bearer"), ?_, ?_, ?_⟩
  · unfold mintAuthz
    simp only [hm]
    unfold Grant.plusAll
    rw [updateLast_snoc]
    rfl
  · have hl : s.g.usageRules.lookup c = s.g.rulesFor c := lookup_rulesFor _ _
    rw [← hl]
    unfold withExpiry
    cases hx : ((s.g.usageRules.lookup c).getD {}).expiresIn with
    | none => exact ⟨rfl, rfl, rfl, rfl, rfl, rfl, by rw [hx]; rfl⟩
    | some x =>
      simp only []
      split
      · rename_i h0
        exact ⟨rfl, rfl, rfl, rfl, rfl, rfl, by rw [hx]; simp only []; rw [if_pos h0]; rfl⟩
      · rename_i h0
        exact ⟨rfl, rfl, rfl, rfl, rfl, rfl, by rw [hx]; simp only []; rw [if_neg h0]⟩
  · rw [← hsc]
    unfold withExpiry
    cases ((s.g.rulesFor c).getD {}).expiresIn with
    | none => rfl
    | some x => simp only []; split <;> rfl

theorem mintIfAsked_ok {mk : Minter} {clock : Int} {c : TokenClass} {f : Nat → TokenClass → String} {s : GS} (b : Bool) (ho : OpenGrant s.g clock)
    (hk : c.known = true) (hmk : ∀ k c, c.known = true → mk k c = .ok (f k c)) :
    ∃ o new n, mintIfAsked mk clock c b s = (.ok o, ⟨s.g.plusAll new, n⟩) ∧ (b = false → o = none) ∧
      (b = true → ∃ k t, t ∈ new ∧ RootToken clock s.g.usageRules c (f k c) t ∧ o = some t ∧ t.scope = s.g.scope) := by
  unfold mintIfAsked
  cases b with
  | false => exact ⟨none, [], s.n, by rw [plusAll_nil]; rfl, fun _ => rfl, fun h => by cases h⟩
  | true =>
    obtain ⟨t, h1, h2, h4⟩ := mintAuthz_ok none ho hk (hmk s.n c hk)
    refine ⟨some t, [t], s.n + 1, ?_, fun h => (by cases h), fun _ => ⟨s.n, t, by simp, h2, rfl, h4⟩⟩
    rw [if_pos rfl, h1]

theorem mintIdTokenAuthz_ok {mk : Minter} {clock : Int} {f : Nat → TokenClass → String} {s : GS} (b : Bool) (sc : List String)
    (ho : OpenGrant s.g clock) (hmk : ∀ k c, c.known = true → mk k c = .ok (f k c)) :
    ∃ o new n, mintIdTokenAuthz mk clock (some sc) b s = (.ok (some o), ⟨s.g.plusAll new, n⟩) ∧ (b = false → o = none) ∧
      (b = true → ∃ k t, t ∈ new ∧ RootToken clock s.g.usageRules .idToken (f k .idToken) t ∧ o = some t) := by
  unfold mintIdTokenAuthz
  cases b with
  | false => exact ⟨none, [], s.n, by rw [plusAll_nil]; rfl, fun _ => rfl, fun h => by cases h⟩
  | true =>
    obtain ⟨t, h1, h2, -⟩ := mintAuthz_ok (some sc) ho rfl (hmk s.n .idToken rfl)
    refine ⟨some t, [t], s.n + 1, ?_, fun h => (by cases h), fun _ => ⟨s.n, t, by simp, h2, rfl⟩⟩
    rw [if_pos rfl]
    simp only [h1]

/-- A response with the tokens that were asked for. -/
theorem createAuthnResponse_ok {mk : Minter} {clock : Int} {filter : List String → List String} {req : AuthzReq} {asked : List String}
    {f : Nat → TokenClass → String} {s : GS} (hne : req.responseType ≠ [])
    (hall : ∀ x ∈ req.responseType, x = "code" ∨ x = "token" ∨ x = "id_token") (hsc : req.scope = some asked) (ho : OpenGrant s.g clock)
    (hmk : ∀ k c, c.known = true → mk k c = .ok (f k c)) :
    ∃ r frag new n, createAuthnResponse mk clock filter req s = (.ok (.resp r frag), ⟨s.g.plusAll new, n⟩) ∧ r.state = truthyStr req.state ∧
      ("code" ∉ req.responseType → r.code = none) ∧ ("token" ∉ req.responseType → r.accessToken = none) ∧
      ("id_token" ∉ req.responseType → r.idToken = none) ∧
      ("code" ∈ req.responseType → ∃ k t, t ∈ new ∧ RootToken clock s.g.usageRules .authorizationCode (f k .authorizationCode) t ∧
        r.code = some (f k .authorizationCode) ∧ t.scope = s.g.scope) ∧
      ("token" ∈ req.responseType → ∃ k t, t ∈ new ∧ RootToken clock s.g.usageRules .accessToken (f k .accessToken) t ∧
        r.accessToken = some (f k .accessToken) ∧ t.scope = s.g.scope) ∧
      ("id_token" ∈ req.responseType → ∃ k t, t ∈ new ∧ RootToken clock s.g.usageRules .idToken (f k .idToken) t ∧
        r.idToken = some (f k .idToken)) := by
  have hcon : ∀ x, (req.responseType.contains x = true ↔ x ∈ req.responseType) := fun x => by simp
  have hcon' : ∀ x, (req.responseType.contains x = false ↔ x ∉ req.responseType) := fun x => by
    rw [← hcon]; simp
  obtain ⟨o1, l1, n1, h1, h1f, h1t⟩ := mintIfAsked_ok (c := .authorizationCode) (s := s) (req.responseType.contains "code") ho rfl hmk
  obtain ⟨o2, l2, n2, h2, h2f, h2t⟩ := mintIfAsked_ok (c := .accessToken) (s := ⟨s.g.plusAll l1, n1⟩) (req.responseType.contains "token")
    (ho.plusAll l1) rfl hmk
  obtain ⟨o3, l3, n3, h3, h3f, h3t⟩ := mintIdTokenAuthz_ok (s := ⟨(s.g.plusAll l1).plusAll l2, n2⟩) (req.responseType.contains "id_token") asked
    ((ho.plusAll l1).plusAll l2) hmk
  have hnone : ¬ req.responseType = ["none"] := by
    intro h
    have := hall "none" (by rw [h]; simp)
    revert this; decide
  have hemp : ¬ req.responseType.isEmpty = true := by simpa using hne
  have hok : req.responseType.all (fun x => x == "code" || x == "token" || x == "id_token") = true := by
    rw [List.all_eq_true]
    intro x hx
    rcases hall x hx with rfl | rfl | rfl <;> decide
  unfold createAuthnResponse
  rw [hsc]
  simp only []
  rw [if_neg hnone, if_neg hemp]
  simp only [SE.bind_apply, h1, h2, h3]
  rw [if_pos hok, plusAll_plusAll, plusAll_plusAll]
  refine ⟨_, _, l1 ++ (l2 ++ l3), n3, rfl, ?_, ?_, ?_, ?_, ?_, ?_, ?_⟩
  · rfl
  · intro h; show o1.map _ = none; rw [h1f ((hcon' _).2 h)]; rfl
  · intro h; show o2.map _ = none; rw [h2f ((hcon' _).2 h)]; rfl
  · intro h; show o3.map _ = none; rw [h3f ((hcon' _).2 h)]; rfl
  · intro h
    obtain ⟨k, t, m1, m2, m3, m4⟩ := h1t ((hcon _).2 h)
    exact ⟨k, t, by simp [m1], m2, by show o1.map _ = _; rw [m3]; exact congrArg some m2.value, m4⟩
  · intro h
    obtain ⟨k, t, m1, m2, m3, m4⟩ := h2t ((hcon _).2 h)
    exact ⟨k, t, by simp [m1], m2, by show o2.map _ = _; rw [m3]; exact congrArg some m2.value, m4⟩
  · intro h
    obtain ⟨k, t, m1, m2, m3⟩ := h3t ((hcon _).2 h)
    exact ⟨k, t, by simp [m1], m2, by show o3.map _ = _; rw [m3]; exact congrArg some m2.value⟩

theorem commit_sessionOf {E : Env} {w : World} {s : Sess} {sid : String} (hs : sessionOf E w.st sid = .ok s)
    (hp : ';' ∉ s.sid.toList) (ho : s.sid ≠ s.user) (gs : GS) :
    sessionOf E (w.commit s gs).st sid = .ok { s with grant := gs.g } := by
  obtain ⟨h1, h2, h3, h4⟩ := sessionOf_spec hs
  have hd : dbGet ⟨s.user, some s.client, some s.gid⟩ (w.commit s gs).st = .ok s.ref := by
    have := dbGet_put (g' := gs.g) h1 h4
    unfold World.commit
    simp only []
    split
    · exact this
    · show dbGet _ ((w.st.put s.ref (.grant gs.g)).bind s.sid s.ref) = _
      rw [dbGet_bind ho (key_ne hp) (key_ne' hp)]
      exact this
  have hg := grantAt_iff.1 (commit_grantAt h1 gs)
  unfold sessionOf
  rw [h3]
  simp only [hd]
  rw [show (w.commit s gs).st.obj s.ref = (w.commit s gs).st.heap[s.ref]? from rfl, hg]
  subst h2
  rfl

theorem found_sessionOf {E : Env} {st : Store} {sid : String} {s : Sess} (h : sessionOf E st sid = .ok s) :
    found st (.gra s.user s.client s.gid) = some (.grant s.grant) := by
  obtain ⟨h1, -, -, h4⟩ := sessionOf_spec h
  unfold found
  show (match dbGet ⟨s.user, some s.client, some s.gid⟩ st with
    | .ok r => st.obj r
    | .error _ => none) = _
  rw [h4]
  exact grantAt_iff.1 h1

/-- The session that a login makes. -/
theorem startSession_ok {E : Env} {U : String → Prop} {w : World} (hi : DbInv U w.st) {m : AuthnMethod} {req : AuthzReq} {user c : String}
    (hc : req.clientId = some c) (hU : U user) (hcu : CleanId user) (hcc : CleanId c) :
    ∃ r, startSession E w m req user = (.ok (E.encSid w.n [user, c, E.uuid w.n]),
        authzCreateSession E w user c req (loginEvent m w.now user)) ∧
      sessionOf E (authzCreateSession E w user c req (loginEvent m w.now user)).st (E.encSid w.n [user, c, E.uuid w.n]) =
        .ok ⟨E.encSid w.n [user, c, E.uuid w.n], user, c, E.uuid w.n, r,
          newGrant E w user req (loginEvent m w.now user) (E.authz.rulesOf (some c))⟩ := by
  have hreq : ({ req with clientId := some c } : AuthzReq) = req := by rw [← hc]
  have hgood : (SKey.gra user c (E.uuid w.n)).Good U := ⟨hU, hcu, hcc, E.uuid_clean _⟩
  obtain ⟨s', r, he, hi', -, -, hv, -⟩ := createSession_spec hi
    (g := newGrant E w user req (loginEvent m w.now user) (E.authz.rulesOf (some c))) hgood
  have hst : (authzCreateSession E w user c req (loginEvent m w.now user)).st = s' := by
    unfold authzCreateSession
    simp only [hreq, he]
  have hfound : found s' (.gra user c (E.uuid w.n)) =
      some (.grant (newGrant E w user req (loginEvent m w.now user) (E.authz.rulesOf (some c)))) := by
    rw [found_view hi' hgood]
    have hv' : view U s' (.gra user c (E.uuid w.n)) = _ := hv
    rw [hv']; rfl
  obtain ⟨r', hr'⟩ := sessionOf_found (E := E) (sid := E.encSid w.n [user, c, E.uuid w.n])
    (E.decrypt_enc w.n user c (E.uuid w.n) hcu hcc (E.uuid_clean _)) hfound
  refine ⟨r', ?_, by rw [hst]; exact hr'⟩
  unfold startSession
  rw [hc]
  simp only [hreq, he]

/-- The grant that a login leads to. -/
structure FlowGrant (E : Env) (m : AuthnMethod) (req : AuthzReq) (user client : String) (asked : List String) (t0 : Int) (g : Grant) : Prop where
  sub : g.sub = E.subOf user req
  authzReq : g.authzReq = some req
  event : g.authnEvent = some (loginEvent m t0 user)
  rules : g.usageRules = E.authz.rulesOf (some client)
  unlimited : g.maxUsage = none
  revoked : g.revoked = false
  notBefore : g.notBefore = 0
  ends : g.expiresAt = (match E.authz.expiresIn with
    | some x => t0 + x
    | none => 0)
  scope : g.scope = asked
  claims : ∃ sid g0, E.claims sid g0 asked = .ok g.claims

/-- A token of this class and value is in the grant of the session since `t0`. -/
def CameWith (E : Env) (t0 : Int) (sid : String) (g : Grant) (c : TokenClass) (v : Option String) : Prop :=
  ∃ k t, v = some (E.mkVal k c sid) ∧ t ∈ g.issuedToken ∧ RootToken t0 g.usageRules c (E.mkVal k c sid) t ∧
    (c ≠ .idToken → t.scope = g.scope)

theorem login_flow {p : Prov} {U : String → Prop} (hn : Names p U) {Q : String → AuthzReq → Prop} {s : PState} (hinv : ProvInv p U Q s)
    {i : Nat} {req : AuthzReq} {m : AuthnMethod} (hpage : s.pending[i]? = some (req, m)) {user client : String} {asked : List String}
    (hu : U user) (hc : req.clientId = some client) (hne : req.responseType ≠ [])
    (hall : ∀ x ∈ req.responseType, x = "code" ∨ x = "token" ∨ x = "id_token") (hasked : req.scope = some asked)
    (hdel : p.E.deliverable req = true) (hcl : ClaimsWork p.E) (hmake : ∀ k c, c.known = true → p.E.fail k c = none)
    (hexp : ∀ n, p.E.authz.expiresIn = some n → 0 ≤ n) :
    ∃ sid ref r g, (SKey.gra user client (p.E.uuid s.w.n)).Good U ∧ sid = p.E.encSid s.w.n [user, client, p.E.uuid s.w.n] ∧
      (provStep p s (.loggedIn i user)).w.log = s.w.log ++ [.authz ref client r] ∧ r.state = truthyStr req.state ∧
      ("code" ∉ req.responseType → r.code = none) ∧ ("token" ∉ req.responseType → r.accessToken = none) ∧
      ("id_token" ∉ req.responseType → r.idToken = none) ∧
      ("code" ∈ req.responseType → CameWith p.E s.w.now sid g .authorizationCode r.code) ∧
      ("token" ∈ req.responseType → CameWith p.E s.w.now sid g .accessToken r.accessToken) ∧
      ("id_token" ∈ req.responseType → CameWith p.E s.w.now sid g .idToken r.idToken) ∧
      found (provStep p s (.loggedIn i user)).w.st (.gra user client (p.E.uuid s.w.n)) = some (.grant g) ∧
      FlowGrant p.E m req user client asked s.w.now g := by
  obtain ⟨c', h1, h2, -⟩ := hinv.pending _ (List.mem_of_getElem? hpage)
  rw [hc] at h1; cases h1
  have hcu := (hn.users user hu).1
  have hcc := (hn.clients client h2).1
  have hgood : (SKey.gra user client (p.E.uuid s.w.n)).Good U := ⟨hu, hcu, hcc, p.E.uuid_clean _⟩
  obtain ⟨ref, hstart, hsess⟩ := startSession_ok (E := p.E) (w := s.w) (m := m) hinv.world.hinv.inv hc hu hcu hcc
  have hsp := p.E.encSid_clean s.w.n user client (p.E.uuid s.w.n) hcu hcc (p.E.uuid_clean _)
  have hso : p.E.encSid s.w.n [user, client, p.E.uuid s.w.n] ≠ user := by
    intro he
    have := hn.sids s.w.n user client _ hgood
    rw [he] at this
    exact this hu
  generalize hsid : p.E.encSid s.w.n [user, client, p.E.uuid s.w.n] = sid at *
  generalize hw1 : authzCreateSession p.E s.w user client req (loginEvent m s.w.now user) = w1 at *
  have hnow : w1.now = s.w.now := by rw [← hw1]; rfl
  have hlog : w1.log = s.w.log := by rw [← hw1]; rfl
  generalize hg0 : newGrant p.E s.w user req (loginEvent m s.w.now user) (p.E.authz.rulesOf (some client)) = g0 at *
  obtain ⟨cl, hcl1⟩ := hcl.told sid g0 (req.scope.getD [])
  have hcall := authzCall_ok (cfg := p.E.authz) (claims := p.E.claims sid g0) (clock := w1.now) (client := client) (req := req) (g := g0)
    (by rw [← hg0]; rfl) (by rw [← hg0]; rfl) (by rw [← hg0, hc]; rfl) hcl1
  generalize hg1 : ({ g0 with expiresAt := (match p.E.authz.expiresIn with
                 | some x => w1.now + x
                 | none => g0.expiresAt), resources := [client], scope := req.scope.getD [], claims := cl } : Grant) = g1 at *
  have hopen : OpenGrant g1 w1.now := by
    refine ⟨(isActive_clock_iff _ _).2 ⟨?_, ?_, ?_, ?_⟩, ?_⟩
    · rw [← hg1, ← hg0]; rfl
    · intro k hk; rw [← hg1, ← hg0] at hk; cases hk
    · intro h; rw [← hg1, ← hg0] at h; exact absurd rfl h
    · intro h
      rw [← hg1, ← hg0] at h ⊢
      show w1.now ≤ (match p.E.authz.expiresIn with
                 | some x => w1.now + x
                 | none => 0)
      cases hx : p.E.authz.expiresIn with
      | none =>
        refine absurd ?_ h
        show (match p.E.authz.expiresIn with
                 | some x => w1.now + x
                 | none => 0) = 0
        rw [hx]
      | some x => have := hexp x hx; simp only []; omega
    · rw [← hg1, ← hg0]; rfl
  obtain ⟨r, frag, new, n', hresp, hr0, hr1, hr2, hr3, hr4, hr5, hr6⟩ := createAuthnResponse_ok (mk := minter p.E sid) (filter := p.E.filter client)
    (f := fun k c => p.E.mkVal k c sid) (s := ⟨g1, w1.n⟩) hne hall hasked hopen (fun k c hk => by unfold minter; rw [hmake _ _ hk])
  have hpost : postAuthentication p.E w1 sid req = (.ok (some (⟨sid, user, client, p.E.uuid s.w.n, ref, g0⟩, .resp r frag)),
      w1.commit ⟨sid, user, client, p.E.uuid s.w.n, ref, g0⟩
        ⟨g1.plusAll new, n'⟩) := by
    unfold postAuthentication
    rw [hsess]
    simp only [hcall, hopen.active, Bool.true_eq_false, if_false, hresp]
  have hfin : (provStep p s (.loggedIn i user)).w =
      { w1.commit ⟨sid, user, client, p.E.uuid s.w.n, ref, g0⟩
          ⟨g1.plusAll new, n'⟩ with
        log := w1.log ++ [.authz ref client r] } := by
    simp only [provStep, hpage]
    unfold finishLogin
    simp only [hstart]
    have hset : ∀ (s : PState) (x : Option SessionCookie) (w : World), (settle s req (.ok (.part2 sid user x), w)).w = w := by
      intro s x w; cases x <;> rfl
    rw [hset]
    unfold authzPart2
    rw [hpost]
    simp only [hdel, if_true]
    rfl
  have hsess' := commit_sessionOf hsess hsp hso
    ⟨g1.plusAll new, n'⟩
  have hru : ∀ c v t, t ∈ new → RootToken w1.now g1.usageRules c v t →
      t ∈ (g1.plusAll new).issuedToken ∧ RootToken s.w.now (g1.plusAll new).usageRules c v t := by
    intro c v t ht hr
    refine ⟨by show t ∈ g1.issuedToken ++ new; simp [ht], ?_⟩
    rw [← hnow]; exact hr
  refine ⟨sid, ref, r, g1.plusAll new, hgood, rfl, by rw [hfin, hlog], hr0, hr1, hr2, hr3, ?_, ?_, ?_, ?_, ?_⟩
  · intro h
    obtain ⟨k, t, m1, m2, m3, m4⟩ := hr4 h
    exact ⟨k, t, m3, (hru _ _ _ m1 m2).1, (hru _ _ _ m1 m2).2, fun _ => m4⟩
  · intro h
    obtain ⟨k, t, m1, m2, m3, m4⟩ := hr5 h
    exact ⟨k, t, m3, (hru _ _ _ m1 m2).1, (hru _ _ _ m1 m2).2, fun _ => m4⟩
  · intro h
    obtain ⟨k, t, m1, m2, m3⟩ := hr6 h
    exact ⟨k, t, m3, (hru _ _ _ m1 m2).1, (hru _ _ _ m1 m2).2, fun hx => absurd rfl hx⟩
  · rw [hfin]
    exact found_sessionOf hsess'
  · refine ⟨?_, ?_, ?_, ?_, ?_, ?_, ?_, ?_, ?_, ⟨sid, g0, ?_⟩⟩
    · rw [← hg1, ← hg0]; rfl
    · rw [← hg1, ← hg0]; rfl
    · rw [← hg1, ← hg0]; rfl
    · rw [← hg1, ← hg0]; rfl
    · rw [← hg1, ← hg0]; rfl
    · rw [← hg1, ← hg0]; rfl
    · rw [← hg1, ← hg0]; rfl
    · rw [← hg1, ← hg0, ← hnow]; rfl
    · rw [← hg1, hasked]; rfl
    · rw [hasked] at hcl1; rw [← hg1]; exact hcl1

/-! ### The token response and the claims -/

theorem codeHistory_snoc (p : Prov) (now : Int) (ops : List POp) (op : POp) :
    provHistory p now (ops ++ [op]) = provStep p (provHistory p now ops) op := by
  unfold provHistory provRun
  simp

theorem modifyFirst_append {v : String} {f : Token → Token} {l l' : List Token} (h : ∃ t ∈ l, t.value = v) :
    modifyFirst v f (l ++ l') = modifyFirst v f l ++ l' := by
  induction l with
  | nil => obtain ⟨t, ht, _⟩ := h; cases ht
  | cons x r ih =>
    rw [List.cons_append]
    unfold modifyFirst
    by_cases hx : x.value = v
    · rw [if_pos hx, if_pos hx, List.cons_append]
    · rw [if_neg hx, if_neg hx, List.cons_append, ih]
      obtain ⟨t, ht, hv⟩ := h
      rcases List.mem_cons.1 ht with rfl | ht
      · exact absurd hv hx
      · exact ⟨t, ht, hv⟩

/-- The code of such a grant is live as long as it is in time. -/
theorem flowGrant_live {E : Env} {m : AuthnMethod} {req : AuthzReq} {user client : String} {asked : List String} {t0 : Int} {code : String}
    {s : Sess} {w : World} (hg : FlowGrant E m req user client asked t0 s.grant) (hin : InTime E client m t0 w.now) {t : Token}
    (ht : t ∈ s.grant.issuedToken) (hr : RootToken t0 s.grant.usageRules .authorizationCode code t)
    {mints : List TokenClass} (hm : ExchangedFor (E.authz.rulesOf (some client)) mints) (hat : TokenClass.accessToken ∈ mints) :
    ∃ i, Live w s i t mints := by
  obtain ⟨i, hi⟩ := List.getElem?_of_mem ht
  obtain ⟨f1, f2, f3, f4, f5, f6, f7⟩ := hr
  rw [hg.rules] at f6 f7
  refine ⟨i, hi, ⟨f4, ?_, ?_, ?_⟩, ⟨hg.revoked, ?_, ?_, ?_⟩, hg.unlimited, ?_, hat⟩
  · intro k hk
    have : t.rules.maxUsage = some k := hk
    rw [f6] at this
    cases this
    show (t.used : Int) < 1
    rw [f3]; decide
  · intro h; exact absurd f5 h
  · intro h
    have h7 : t.item.expiresAt = _ := f7
    rw [h7] at h ⊢
    cases hl : (E.authz.rulesOf (some client)).lookup .authorizationCode with
    | none => rw [hl] at h; exact absurd rfl h
    | some r =>
      rw [hl] at h
      simp only [Option.getD_some] at h ⊢
      cases he : r.expiresIn with
      | none => rw [he] at h; exact absurd rfl h
      | some x =>
        rw [he] at h
        simp only [] at h ⊢
        by_cases hx : x = 0
        · rw [if_pos hx] at h; exact absurd rfl h
        · rw [if_neg hx]
          exact hin.code x ⟨r, hl, he⟩ hx
  · intro k hk
    have : s.grant.maxUsage = some k := hk
    rw [hg.unlimited] at this; cases this
  · intro h; exact absurd hg.notBefore h
  · intro h
    have h7 : s.grant.item.expiresAt = _ := hg.ends
    rw [h7] at h ⊢
    cases he : E.authz.expiresIn with
    | none => rw [he] at h; exact absurd rfl h
    | some x => exact hin.grant x he
  · rw [f6]
    rcases hm with ⟨r, h1, h2⟩ | ⟨h1, rfl⟩
    · rw [h1]
      simp only [Option.getD_some, setDefaults, h2]
    · cases hl : (E.authz.rulesOf (some client)).lookup .authorizationCode with
      | none => rfl
      | some r => simp only [Option.getD_some, setDefaults, h1 r hl]

/-- An access token that is not used up from the beginning is active when it is made. -/
theorem access_active {g : Grant} {t : Token} {now : Int} (hl : AccessLives g.usageRules) (hu : t.used = 0) (hr : t.revoked = false)
    (hb : t.notBefore = 0) (he : t.expiresAt = endOf now (g.rulesFor .accessToken)) (hru : t.rules = (g.rulesFor .accessToken).getD {}) :
    ItemActive t.item now := by
  refine ⟨hr, ?_, fun h => absurd hb h, ?_⟩
  · intro k hk
    have hk' : t.rules.maxUsage = some k := hk
    show (t.used : Int) < k
    rw [hu]
    rw [hru] at hk'
    cases hx : g.rulesFor .accessToken with
    | none => rw [hx] at hk'; cases hk'
    | some r =>
      rw [hx] at hk'
      exact hl.uses r k (by rw [lookup_rulesFor, hx]) hk'
  · intro h
    have he' : t.item.expiresAt = endOf now (g.rulesFor .accessToken) := he
    rw [he'] at h ⊢
    unfold endOf at h ⊢
    cases hx : expIn (g.rulesFor .accessToken) with
    | none => rw [hx] at h; exact absurd rfl h
    | some x =>
      rw [hx] at h
      simp only [] at h ⊢
      by_cases h0 : x = 0
      · rw [if_pos h0] at h; exact absurd rfl h
      · rw [if_neg h0]
        have : 0 ≤ x := by
          apply hl.life
          unfold expIn at hx
          cases hq : g.rulesFor .accessToken with
          | none => rw [hq] at hx; cases hx; exact .inr ⟨.inl (by rw [lookup_rulesFor, hq]), rfl⟩
          | some r =>
            rw [hq] at hx
            simp only [] at hx
            by_cases hn : r.nonempty = true
            · rw [if_pos hn] at hx
              exact .inl ⟨r, by rw [lookup_rulesFor, hq], hx⟩
            · rw [if_neg hn] at hx
              cases hx
              refine .inr ⟨.inr ?_, rfl⟩
              rw [lookup_rulesFor, hq]
              obtain ⟨a, b, e⟩ := r
              unfold UsageRules.nonempty at hn
              simp at hn
              obtain ⟨⟨rfl, rfl⟩, rfl⟩ := hn
              rfl
        omega

theorem modifyFirst_keeps {v : String} {f : Token → Token} {l : List Token} {t : Token} (h : t ∈ l) :
    ∃ t' ∈ modifyFirst v f l, t' = t ∨ t' = f t := by
  induction l with
  | nil => cases h
  | cons x r ih =>
    unfold modifyFirst
    split
    · rcases List.mem_cons.1 h with rfl | h
      · exact ⟨_, List.mem_cons_self, .inr rfl⟩
      · exact ⟨t, List.mem_cons_of_mem _ h, .inl rfl⟩
    · rcases List.mem_cons.1 h with rfl | h
      · exact ⟨_, List.mem_cons_self, .inl rfl⟩
      · obtain ⟨t', h1, h2⟩ := ih h
        exact ⟨t', List.mem_cons_of_mem _ h1, h2⟩

/-- What is issued for a token request that goes with a code that was issued at the login, if nothing has been done to the session
since. -/
theorem flow_exchange' {p : Prov} {U : String → Prop} (hn : Names p U) {now : Int} {ops : List POp} (hf : ∀ op ∈ ops, FairP p U op)
    {user client gid sid : String} {n0 : Nat} (hu : U user) (hgood : (SKey.gra user client gid).Good U)
    (hsid : sid = p.E.encSid n0 [user, client, gid]) {s2 : PState} (h2 : s2 = provHistory p now ops)
    {req : AuthzReq} {m : AuthnMethod} {asked : List String} {t0 : Int} {g : Grant} (hasked : req.scope = some asked)
    (hcl : ClaimsWork p.E) (hh : HandlersDo p.E s2.w.now) (hopen : NotExcluded p.E.cfg client "authorization_code")
    {mints : List TokenClass} (hm : ExchangedFor (p.E.authz.rulesOf (some client)) mints) (hat : TokenClass.accessToken ∈ mints)
    (hlives : AccessLives (p.E.authz.rulesOf (some client))) (hsame : found s2.w.st (.gra user client gid) = some (.grant g))
    (hcg : FlowGrant p.E m req user client asked t0 g) (hin : InTime p.E client m t0 s2.w.now) {code : String}
    (hiss : CameWith p.E t0 sid g .authorizationCode (some code)) {treq : TokenReq} (hgo : GoesWith p req code treq) (kw : Option Bool)
    (db : UserDb) {s3 : PState} (hs3 : s3 = provHistory p now (ops ++ [.token client treq, .redeem s2.w.pool.length kw])) :
    ∃ ref' r' a info, s3.w.log = s2.w.log ++ [.token ref' client false code { treq with clientId := some client } r'] ∧
      r'.accessToken = some a ∧ r'.scope = asked ∧
      (r'.refreshToken.isSome = true ↔ RefreshAsked p.E.cfg.flavor kw asked ∧ TokenClass.refreshToken ∈ mints ∧
        GrantTypeOpen p.E.cfg client "refresh_token") ∧
      (r'.idToken.isSome = true ↔ p.E.cfg.flavor = .oidc ∧ "openid" ∈ asked ∧ TokenClass.idToken ∈ mints) ∧
      userinfoProcess p.E (some db) s3.w a = .ok (.claims info client) ∧
      info.get? "sub" = some (.str (p.E.subOf user req)) ∧ Reachable p.E s3.w ∧ s3.w.now = s2.w.now ∧
      (∀ v, r'.refreshToken = some v → ∃ n g' t2, v = p.E.mkVal n .refreshToken sid ∧ t2 ∈ g'.issuedToken ∧ t2.cls = .refreshToken ∧
        t2.value = v ∧ t2.used = 0 ∧ t2.revoked = false ∧ t2.notBefore = 0 ∧
        t2.expiresAt = endOf s2.w.now (g.rulesFor .refreshToken) ∧
        t2.rules = setDefaults .refreshToken ((g.rulesFor .refreshToken).getD {}) ∧
        (asked ≠ [] → t2.scope = asked ∧ EffScope g' t2.basedOn asked) ∧
        g'.usageRules = g.usageRules ∧ g'.claims = g.claims ∧ g'.authnEvent = g.authnEvent ∧ g'.sub = g.sub ∧ g'.revoked = g.revoked ∧
        g'.notBefore = g.notBefore ∧ g'.maxUsage = g.maxUsage ∧ g'.expiresAt = g.expiresAt ∧
        (p.E.info v s2.w.now = .ok (some sid) → sessionByToken p.E s3.w v = .ok ⟨sid, user, client, gid, ref', g'⟩)) := by
  obtain ⟨k, t, hcode, htm, hroot, hts⟩ := hiss
  cases hcode
  have hinv2 := pinv_history hn (passing_vetted p (names_ne hn)) now ops hf
  have hf3 : ∀ treq kw, ∀ op ∈ ops ++ [.token client treq, .redeem s2.w.pool.length kw], FairP p U op := by
    intro treq kw op ho
    rcases List.mem_append.1 ho with h | h
    · exact hf op h
    · simp at h; rcases h with rfl | rfl <;> trivial
  rw [← h2] at hinv2
  obtain ⟨hcu, hcc, hgi⟩ := hgood.2
  have hdec : p.E.decrypt sid = .ok [user, client, gid] := by rw [hsid]; exact p.E.decrypt_enc _ _ _ _ hcu hcc hgi
  obtain ⟨ref', hsess⟩ := sessionOf_found hdec hsame
  have hne : sid ≠ "" := by rw [hsid]; exact hh.named _ _ _ _
  have hplain : ';' ∉ sid.toList := by rw [hsid]; exact p.E.encSid_clean _ _ _ _ hcu hcc hgi
  have hown : sid ≠ user := by
    intro he
    have := hn.sids n0 user client gid hgood
    rw [← hsid, he] at this
    exact this hu
  have hbytok : sessionByToken p.E s2.w (p.E.mkVal k .authorizationCode sid) = .ok ⟨sid, user, client, gid, ref', g⟩ := by
    unfold sessionByToken
    rw [hh.code]
    simp only [truthyStr, if_neg hne]
    unfold compatibleSid
    rw [unpackSessionKey_clean hplain]
    exact hsess
  obtain ⟨i, hlive⟩ := flowGrant_live (s := ⟨sid, user, client, gid, ref', g⟩) (w := s2.w) hcg hin htm hroot hm hat
  have hwork : HandlersWork p.E s2.w ⟨sid, user, client, gid, ref', g⟩ :=
    ⟨fun k c _ hk => hh.make k c hk, fun k _ => hh.access k sid, hne, hplain, hown⟩
  obtain ⟨hparse, r', gs, new, t1, rest, hproc, hra, hrs, hrr, hri, hnew, k1, k2, k3, k4, k5, k6, k7, hgs, hrf⟩ :=
    code_run p.E s2.w hinv2.world.reach kw treq _ ⟨sid, user, client, gid, ref', g⟩ i t mints req asked hgo.grantType hopen hgo.code hbytok
      hlive hroot.value hroot.cls hcg.authzReq hasked (.inr hgo.redirect) hwork
  have hpool : tokenEndpointParse p s2.w client treq =
      { s2.w with pool := s2.w.pool ++ [{ treq with clientId := some client }] } := by
    unfold tokenEndpointParse
    cases hp : p.pkce with
    | none =>
      simp only []
      unfold step
      simp only [hparse]
    | some HP =>
      obtain ⟨H, P⟩ := HP
      simp only []
      unfold pstep
      simp only []
      unfold tokenParseP
      simp only [hparse]
      have := (C28_token_request p.E H s2.w { treq with clientId := some client } _ ⟨sid, user, client, gid, ref', g⟩ req
        (by show treq.grantType ≠ _; rw [hgo.grantType]; decide) hgo.code hbytok hcg.authzReq _).2 ⟨rfl, hgo.pkce H P hp⟩
      rw [this]
  have hs3w : s3.w = { ({ s2.w with pool := s2.w.pool ++ [{ treq with clientId := some client }] } : World).commit
        ⟨sid, user, client, gid, ref', g⟩ gs with
      log := s2.w.log ++ [.token ref' client false (p.E.mkVal k .authorizationCode sid) { treq with clientId := some client } r'] } := by
    rw [hs3, show ops ++ [.token client treq, .redeem s2.w.pool.length kw] =
      (ops ++ [.token client treq]) ++ [.redeem s2.w.pool.length kw] by simp,
      codeHistory_snoc, codeHistory_snoc, ← h2]
    simp only [provStep]
    rw [hpool, hproc]
  have hsess3 : sessionByToken p.E s3.w (p.E.mkVal s2.w.n .accessToken sid) = .ok ⟨sid, user, client, gid, ref', gs.g⟩ := by
    rw [hs3w]
    have := commit_session (w := { s2.w with pool := s2.w.pool ++ [{ treq with clientId := some client }] })
      (s := ⟨sid, user, client, gid, ref', g⟩) hbytok ⟨hwork.make, hwork.read, hwork.named, hwork.plain, hwork.own⟩ gs
      (hh.access s2.w.n sid)
    exact this
  have hmem : t1 ∈ gs.g.issuedToken := by
    rw [hgs, hnew]
    show t1 ∈ modifyFirst _ Token.registerUsage (g.issuedToken ++ t1 :: rest)
    rw [modifyFirst_append ⟨t, List.mem_of_getElem? hlive.held, hroot.value⟩]
    simp
  have hreach : Reachable p.E s3.w := by
    have := pinv_history hn (passing_vetted p (names_ne hn)) now _ (hf3 treq kw)
    rw [← hs3] at this
    exact this.world.reach
  have hnow3 : s3.w.now = s2.w.now := by rw [hs3w]; rfl
  have hgs' : gs.g.claims = g.claims ∧ gs.g.authnEvent = g.authnEvent ∧ gs.g.sub = g.sub := by rw [hgs]; exact ⟨rfl, rfl, rfl⟩
  obtain ⟨csid, cg, hcl2⟩ := hcg.claims
  obtain ⟨info, hinfo, -⟩ := C45_live_token_answered p.E db s3.w hreach (p.E.mkVal s2.w.n .accessToken sid)
    ⟨sid, user, client, gid, ref', gs.g⟩ hsess3 t1 hmem k2 k1
    (by rw [hnow3]; exact access_active (g := g) (by rw [hcg.rules]; exact hlives) k3 k4 k5 k6 k7)
    (loginEvent m t0 user) (by show gs.g.authnEvent = _; rw [hgs'.2.1]; exact hcg.event)
    (by
      rw [hnow3]
      unfold loginEvent
      cases he : m.expiresIn with
      | none => exact hin.login 3600 (.inl ⟨.inl he, rfl⟩)
      | some x =>
        simp only []
        by_cases hx : x = 0
        · subst hx; exact hin.login 3600 (.inl ⟨.inr he, rfl⟩)
        · rw [if_neg hx]; exact hin.login x (.inr ⟨he, hx⟩))
    (by
      intro restr kk spec hr hk
      rw [show (Sess.mk sid user client gid ref' gs.g).grant.claims = g.claims from hgs'.1] at hr
      exact (hcl.proper _ _ _ _ _ hcl2 hr).2 kk spec hk)
    (by
      intro restr hr
      rw [show (Sess.mk sid user client gid ref' gs.g).grant.claims = g.claims from hgs'.1] at hr
      exact (hcl.proper _ _ _ _ _ hcl2 hr).1)
  refine ⟨ref', r', _, info, by rw [hs3w], hra, by rw [hrs]; exact hcg.scope, ?_, hri, hinfo, ?_, hreach, hnow3, ?_⟩
  · rw [hrr, hrs]
    show RefreshAsked _ _ g.scope ∧ _ ↔ _
    rw [hcg.scope]
  · obtain ⟨s', -, ev, hs', -, -, -, hev, -, hi', -⟩ := userinfo_session hinfo
    rw [hsess3] at hs'
    cases hs'
    obtain ⟨-, -, hsub, -⟩ := userinfoClaims_spec hev hi'
    rw [hsub, show (Sess.mk sid user client gid ref' gs.g).grant.sub = g.sub from hgs'.2.2, hcg.sub]
  · intro v hv
    obtain ⟨t2, q0, q1, q2, q3, q4, q5, q6, q7, q8, q9, q10⟩ := hrf v hv
    have hits : gs.g.issuedToken = modifyFirst (p.E.mkVal k .authorizationCode sid) Token.registerUsage g.issuedToken ++ new := by
      rw [hgs]
      show modifyFirst _ Token.registerUsage (g.issuedToken ++ new) = _
      rw [modifyFirst_append ⟨t, List.mem_of_getElem? hlive.held, hroot.value⟩]
    refine ⟨s2.w.n + 1, gs.g, t2, q3, by rw [hits]; simp [q0], q1, q2, q6, q7, q8, q9, q10, ?_, by rw [hgs]; rfl, by rw [hgs]; rfl,
      by rw [hgs]; rfl, by rw [hgs]; rfl, by rw [hgs]; rfl, by rw [hgs]; rfl, by rw [hgs]; rfl, by rw [hgs]; rfl, ?_⟩
    · intro hne
      have hcs : t.scope = asked := by rw [hts (by decide)]; exact hcg.scope
      refine ⟨by rw [q5 (by rw [hcs]; exact hne), hcs], ?_⟩
      obtain ⟨t', ht', hor⟩ := modifyFirst_keeps (v := p.E.mkVal k .authorizationCode sid) (f := Token.registerUsage) htm
      have hv' : t'.value = t.value ∧ t'.scope = t.scope := by rcases hor with rfl | rfl <;> exact ⟨rfl, rfl⟩
      rw [q4, ← hroot.value, ← hv'.1]
      have : t'.scope = asked := hv'.2.trans hcs
      rw [← this]
      exact .own (by rw [hits]; simp [ht']) (by rw [this]; exact hne)
    · intro hi
      rw [hs3w]
      exact commit_session (w := { s2.w with pool := s2.w.pool ++ [{ treq with clientId := some client }] })
        (s := ⟨sid, user, client, gid, ref', g⟩) hbytok ⟨hwork.make, hwork.read, hwork.named, hwork.plain, hwork.own⟩ gs hi

theorem flow_exchange {p : Prov} {U : String → Prop} (hn : Names p U) {now : Int} {ops : List POp} (hf : ∀ op ∈ ops, FairP p U op)
    {user client gid sid : String} {n0 : Nat} (hu : U user) (hgood : (SKey.gra user client gid).Good U)
    (hsid : sid = p.E.encSid n0 [user, client, gid]) {s2 : PState} (h2 : s2 = provHistory p now ops)
    {req : AuthzReq} {m : AuthnMethod} {asked : List String} {t0 : Int} {g : Grant} (hasked : req.scope = some asked)
    (hcl : ClaimsWork p.E) (hh : HandlersDo p.E s2.w.now) (hopen : NotExcluded p.E.cfg client "authorization_code")
    {mints : List TokenClass} (hm : ExchangedFor (p.E.authz.rulesOf (some client)) mints) (hat : TokenClass.accessToken ∈ mints)
    (hlives : AccessLives (p.E.authz.rulesOf (some client))) (hsame : found s2.w.st (.gra user client gid) = some (.grant g))
    (hcg : FlowGrant p.E m req user client asked t0 g) (hin : InTime p.E client m t0 s2.w.now) {code : String}
    (hiss : CameWith p.E t0 sid g .authorizationCode (some code)) {treq : TokenReq} (hgo : GoesWith p req code treq) (kw : Option Bool)
    (db : UserDb) {s3 : PState} (hs3 : s3 = provHistory p now (ops ++ [.token client treq, .redeem s2.w.pool.length kw])) :
    ∃ ref' r' a info, s3.w.log = s2.w.log ++ [.token ref' client false code { treq with clientId := some client } r'] ∧
      r'.accessToken = some a ∧ r'.scope = asked ∧
      (r'.refreshToken.isSome = true ↔ RefreshAsked p.E.cfg.flavor kw asked ∧ TokenClass.refreshToken ∈ mints ∧
        GrantTypeOpen p.E.cfg client "refresh_token") ∧
      (r'.idToken.isSome = true ↔ p.E.cfg.flavor = .oidc ∧ "openid" ∈ asked ∧ TokenClass.idToken ∈ mints) ∧
      userinfoProcess p.E (some db) s3.w a = .ok (.claims info client) ∧
      info.get? "sub" = some (.str (p.E.subOf user req)) := by
  obtain ⟨ref', r', a, info, h1, h2', h3, h4, h5, h6, h7, -⟩ := flow_exchange' hn hf hu hgood hsid h2 hasked hcl hh hopen hm hat hlives hsame hcg hin hiss
    hgo kw db hs3
  exact ⟨ref', r', a, info, h1, h2', h3, h4, h5, h6, h7⟩

/-- The access token of the response: the user info endpoint has claims for it. -/
theorem flow_access {p : Prov} {U : String → Prop} (hn : Names p U) {now : Int} {ops : List POp} (hf : ∀ op ∈ ops, FairP p U op)
    {user client gid sid : String} {n0 : Nat} (hgood : (SKey.gra user client gid).Good U)
    (hsid : sid = p.E.encSid n0 [user, client, gid]) {s2 : PState} (h2 : s2 = provHistory p now ops)
    {req : AuthzReq} {m : AuthnMethod} {asked : List String} {t0 : Int} {g : Grant}
    (hcl : ClaimsWork p.E) (hh : HandlersDo p.E s2.w.now) (hsame : found s2.w.st (.gra user client gid) = some (.grant g))
    (hcg : FlowGrant p.E m req user client asked t0 g) (hin : AccessInTime p.E client m t0 s2.w.now) {a : String}
    (hiss : CameWith p.E t0 sid g .accessToken (some a)) (db : UserDb) :
    ∃ info, userinfoProcess p.E (some db) s2.w a = .ok (.claims info client) ∧
      info.get? "sub" = some (.str (p.E.subOf user req)) := by
  obtain ⟨k, t, hcode, htm, hroot, hts⟩ := hiss
  cases hcode
  have hinv2 := pinv_history hn (passing_vetted p (names_ne hn)) now ops hf
  rw [← h2] at hinv2
  obtain ⟨hcu, hcc, hgi⟩ := hgood.2
  have hdec : p.E.decrypt sid = .ok [user, client, gid] := by rw [hsid]; exact p.E.decrypt_enc _ _ _ _ hcu hcc hgi
  obtain ⟨ref', hsess⟩ := sessionOf_found hdec hsame
  have hne : sid ≠ "" := by rw [hsid]; exact hh.named _ _ _ _
  have hplain : ';' ∉ sid.toList := by rw [hsid]; exact p.E.encSid_clean _ _ _ _ hcu hcc hgi
  have hbytok : sessionByToken p.E s2.w (p.E.mkVal k .accessToken sid) = .ok ⟨sid, user, client, gid, ref', g⟩ := by
    unfold sessionByToken
    rw [hh.access]
    simp only [truthyStr, if_neg hne]
    unfold compatibleSid
    rw [unpackSessionKey_clean hplain]
    exact hsess
  obtain ⟨csid, cg, hcl2⟩ := hcg.claims
  have hact : ItemActive t.item s2.w.now := by
    refine ⟨hroot.revoked, ?_, fun h => absurd hroot.notBefore h, ?_⟩
    · intro k hk
      have hk' : t.rules.maxUsage = some k := hk
      show (t.used : Int) < k
      rw [hroot.used]
      rw [hroot.rules, hcg.rules] at hk'
      cases hx : (p.E.authz.rulesOf (some client)).lookup .accessToken with
      | none => rw [hx] at hk'; cases hk'
      | some r =>
        rw [hx] at hk'
        exact hin.uses r k hx hk'
    · intro h
      have he : t.item.expiresAt = _ := hroot.ends
      rw [he, hcg.rules] at h
      rw [he, hcg.rules]
      cases hx : (p.E.authz.rulesOf (some client)).lookup .accessToken with
      | none => rw [hx] at h; exact absurd rfl h
      | some r =>
        rw [hx] at h
        simp only [Option.getD_some] at h ⊢
        cases hy : r.expiresIn with
        | none => rw [hy] at h; exact absurd rfl h
        | some x =>
          rw [hy] at h
          simp only [] at h ⊢
          by_cases h0 : x = 0
          · rw [if_pos h0] at h; exact absurd rfl h
          · rw [if_neg h0]; exact hin.token x ⟨r, hx, hy⟩ h0
  obtain ⟨info, hinfo, -⟩ := C45_live_token_answered p.E db s2.w hinv2.world.reach (p.E.mkVal k .accessToken sid)
    ⟨sid, user, client, gid, ref', g⟩ hbytok t htm hroot.value hroot.cls hact (loginEvent m t0 user) hcg.event
    (by
      unfold loginEvent
      cases he : m.expiresIn with
      | none => exact hin.login 3600 (.inl ⟨.inl he, rfl⟩)
      | some x =>
        simp only []
        by_cases hx : x = 0
        · subst hx; exact hin.login 3600 (.inl ⟨.inr he, rfl⟩)
        · rw [if_neg hx]; exact hin.login x (.inr ⟨he, hx⟩))
    (fun restr kk spec hr hk => (hcl.proper _ _ _ _ _ hcl2 hr).2 kk spec hk)
    (fun restr hr => (hcl.proper _ _ _ _ _ hcl2 hr).1)
  refine ⟨info, hinfo, ?_⟩
  obtain ⟨s', -, ev, hs', -, -, -, hev, -, hi', -⟩ := userinfo_session hinfo
  rw [hbytok] at hs'
  cases hs'
  obtain ⟨-, -, hsub, -⟩ := userinfoClaims_spec hev hi'
  rw [hsub]
  show some (Json.str g.sub) = _
  rw [hcg.sub]

end OidcOp
