/-
What histories of the provider do to the world, and that sessions which have ended stay so.
-/
import Verif.Lemmas.Provider

namespace OidcOp
open Spec

/-! ### Grant ids are not used again -/

/-- A grant that is found under a key has the id in the key, and the provider has made that id up. -/
def IdInv (E : Env) (U : String → Prop) (w : World) : Prop :=
  ∀ u c g r gr, view U w.st (.gra u c g) = some (r, .grant gr) → gr.id = g ∧ ∃ m, m < w.n ∧ g = E.uuid m

theorem login_n (E : Env) (w : World) (u c : String) (req : AuthzReq) (ev : AuthnEvent) : w.n < (step E w (.login u c req ev)).n := by
  show w.n < (authzCreateSession E w u c req ev).n
  simp [authzCreateSession]

theorem again_n (E : Env) (w : World) (u c : String) (req : AuthzReq) (ev : AuthnEvent) : w.n < (step E w (.again u c req ev)).n := by
  show w.n < (authzCreateGrant E w u c req ev).n
  simp [authzCreateGrant]

/-- An operation leaves the grants under their keys, except for new ones, whose ids are new. -/
theorem id_step {E : Env} {U : String → Prop} {w : World}
    (hU : ∀ n u c g, (SKey.gra u c g).Good U → ¬ U (E.encSid n [u, c, g])) (hw : WInv E (SidFor E U) w)
    (hi : HInv U (fun _ => false = true) w.st) (hid : IdInv E U w) {op : WOp} (hf : FairW E U false op) :
    IdInv E U (step E w op) ∧ w.n ≤ (step E w op).n ∧
    ∀ u c g r gr', view U (step E w op).st (.gra u c g) = some (r, .grant gr') →
      (∃ gr, view U w.st (.gra u c g) = some (r, .grant gr) ∧ GrantLe gr gr') ∨ ∃ m, w.n ≤ m ∧ g = E.uuid m := by
  have hauth : ∀ sid req, op = .authorize sid req → SidFor E U sid := by
    rintro sid req rfl; exact hf
  have hcl := sidFor_closed E U
  have href := step_refines hw hi hU hf
  have hn := (mono_chain (step_spec hw hcl op hauth).1).1
  have key : ∀ u c g r gr', view U (step E w op).st (.gra u c g) = some (r, .grant gr') →
      (∃ gr, view U w.st (.gra u c g) = some (r, .grant gr) ∧ GrantLe gr gr') ∨
      (gr'.id = g ∧ g = E.uuid w.n ∧ w.n < (step E w op).n) := by
    intro u c g r gr' hv
    have hgr : (step E w op).st.grantAt r = some gr' := grantAt_iff.2 (view_some_obj hv)
    rcases origins_step hw hcl op hauth hgr with ⟨g0, hg0, hle⟩ | ⟨g0, hcr, he⟩
    · rcases href.gra hi hv with ⟨o, ho⟩ | hlen
      · have : o = .grant g0 := by
          have h1 := view_some_obj ho
          have h2 := grantAt_iff.1 hg0
          have h3 : w.st.obj r = w.st.heap[r]? := rfl
          rw [h3, h2] at h1
          cases h1; rfl
        subst this
        exact .inl ⟨g0, ho, hle⟩
      · have := (List.getElem?_eq_some_iff.1 (grantAt_iff.1 hg0)).1
        exact absurd hlen (Nat.not_le.2 this)
    · have hop : ∃ u' c', (SKey.cli u' c').Good U ∧
          ((∃ req ev, op = .login u' c' req ev ∧
              g0 = newGrant E w u' { req with clientId := some c' } ev (E.authz.rulesOf (some c'))) ∨
           (∃ req ev, op = .again u' c' req ev ∧ g0 = newGrant E w u' { req with clientId := some c' } ev [])) := by
        rcases hcr with ⟨u', c', req, ev, rfl, rfl⟩ | ⟨u', c', req, ev, rfl, rfl⟩ | ⟨u', c', g1, rfl, _⟩
        · exact ⟨u', c', hf, .inl ⟨req, ev, rfl, rfl⟩⟩
        · exact ⟨u', c', hf, .inr ⟨req, ev, rfl, rfl⟩⟩
        · exact absurd hf.2 (by decide)
      obtain ⟨u', c', hgood, hop⟩ := hop
      have hid0 : g0.id = E.uuid w.n := by rcases hop with ⟨_, _, _, rfl⟩ | ⟨_, _, _, rfl⟩ <;> rfl
      have hkey : (SKey.gra u' c' g0.id).Good U := by
        rw [hid0]
        exact ⟨hgood.1, hgood.2.1, hgood.2.2, E.uuid_clean _⟩
      have hplace : (∃ r0, view U (step E w op).st (.gra u' c' g0.id) = some (r0, .grant g0)) ∧
          (∀ k : SKey, k ≠ .usr u' → k ≠ .cli u' c' → k ≠ .gra u' c' g0.id → view U (step E w op).st k = view U w.st k) ∧
          w.n < (step E w op).n := by
        rcases hop with ⟨req, ev, rfl, rfl⟩ | ⟨req, ev, rfl, rfl⟩
        · obtain ⟨s', r0, he0, _, _, ho, hn, _⟩ := createSession_spec hi.inv hkey
          have : (step E w (.login u' c' req ev)).st = s' := by
            show (createSession u' c' (newGrant E w u' { req with clientId := some c' } ev (E.authz.rulesOf (some c'))) w.st).2 = s'
            rw [he0]
          rw [this]
          exact ⟨⟨r0, hn⟩, ho.other, login_n ..⟩
        · obtain ⟨s', he0, _, _, ho, hn⟩ := createGrant_outside hi.inv hkey
          have : (step E w (.again u' c' req ev)).st = s' := by
            show (createGrant u' c' (newGrant E w u' { req with clientId := some c' } ev []) w.st).2 = s'
            rw [he0]
          rw [this]
          exact ⟨⟨_, hn⟩, ho.other, again_n ..⟩
      obtain ⟨⟨r0, hn0⟩, hother, hlt⟩ := hplace
      by_cases e : SKey.gra u c g = .gra u' c' g0.id
      · rw [e, hn0] at hv
        cases hv
        cases e
        exact .inr ⟨rfl, hid0, hlt⟩
      · rw [hother _ (by simp) (by simp) e] at hv
        exact .inl ⟨gr', hv, GrantLe.refl _⟩
  refine ⟨?_, hn, ?_⟩
  · intro u c g r gr' hv
    rcases key u c g r gr' hv with ⟨gr, h1, h2⟩ | ⟨h1, h2, h3⟩
    · obtain ⟨k1, m, k2, k3⟩ := hid _ _ _ _ _ h1
      exact ⟨by rw [h2.id, k1], m, Nat.lt_of_lt_of_le k2 hn, k3⟩
    · exact ⟨h1, _, h3, h2⟩
  · intro u c g r gr' hv
    rcases key u c g r gr' hv with h | ⟨_, h2, _⟩
    · exact .inl h
    · exact .inr ⟨_, Nat.le_refl _, h2⟩

theorem id_run {E : Env} {U : String → Prop}
    (hU : ∀ n u c g, (SKey.gra u c g).Good U → ¬ U (E.encSid n [u, c, g])) (ops : List WOp)
    (hf : ∀ op ∈ ops, FairW E U false op) {w : World} (hw : WInv E (SidFor E U) w)
    (hi : HInv U (fun _ => false = true) w.st) (hid : IdInv E U w) :
    IdInv E U (run E w ops) ∧ w.n ≤ (run E w ops).n ∧
    ∀ u c g r gr', view U (run E w ops).st (.gra u c g) = some (r, .grant gr') →
      (∃ gr, view U w.st (.gra u c g) = some (r, .grant gr) ∧ GrantLe gr gr') ∨ ∃ m, w.n ≤ m ∧ g = E.uuid m := by
  induction ops generalizing w with
  | nil => exact ⟨hid, Nat.le_refl _, fun _ _ _ _ gr' hv => .inl ⟨gr', hv, GrantLe.refl _⟩⟩
  | cons op l ih =>
    have hop := hf op (by simp)
    obtain ⟨a1, a2, a3⟩ := id_step hU hw hi hid hop
    have hfr := fair_run hU [op] (by simpa using hop) hw hi
    obtain ⟨b1, b2, b3⟩ := ih (fun o ho => hf o (by simp [ho])) hfr.1 hfr.2 a1
    refine ⟨b1, Nat.le_trans a2 b2, ?_⟩
    intro u c g r gr' hv
    rcases b3 u c g r gr' hv with ⟨gr, h1, h2⟩ | ⟨m, h1, h2⟩
    · rcases a3 u c g r gr h1 with ⟨gr0, h3, h4⟩ | h3
      · exact .inl ⟨gr0, h3, h4.trans h2⟩
      · exact .inr h3
    · exact .inr ⟨m, Nat.le_trans a2 h1, h2⟩

/-! ### Histories of the provider are histories of the world -/

/-- The world can come from another by operations on it. -/
def Runs (E : Env) (U : String → Prop) (w w' : World) : Prop :=
  ∃ ops, (∀ op ∈ ops, FairW E U false op) ∧ w' = run E w ops

theorem Runs.refl (E : Env) (U : String → Prop) (w : World) : Runs E U w w := ⟨[], by simp, rfl⟩

theorem Runs.one {E : Env} {U : String → Prop} {w : World} {op : WOp} (h : FairW E U false op) : Runs E U w (step E w op) :=
  ⟨[op], by simpa using h, rfl⟩

theorem Runs.trans {E : Env} {U : String → Prop} {w w' w'' : World} (h : Runs E U w w') (h' : Runs E U w' w'') : Runs E U w w'' := by
  obtain ⟨ops, h1, rfl⟩ := h
  obtain ⟨ops', h2, rfl⟩ := h'
  refine ⟨ops ++ ops', ?_, ?_⟩
  · intro op hop
    rcases List.mem_append.1 hop with h | h
    · exact h1 op h
    · exact h2 op h
  · simp [run, List.foldl_append]

/-- What is kept about the cookies that were given out. -/
def CookInv (E : Env) (U : String → Prop) (l : List LoginRec) (n : Nat) (cookies : List SessionCookie) : Prop :=
  ∀ k ∈ cookies, ∃ i u c m, (SKey.gra u c (E.uuid m)).Good U ∧ m < n ∧ k.sid = E.encSid i [u, c, E.uuid m] ∧
    ∃ ev, LoggedIn l u c ev

/-- The session id is one of a user who has logged in for the client. -/
def SidLogged (E : Env) (U : String → Prop) (l : List LoginRec) (sid : String) : Prop :=
  ∃ n u c g, (SKey.gra u c g).Good U ∧ sid = E.encSid n [u, c, g] ∧ ∃ ev, LoggedIn l u c ev

theorem sidLogged_of {E : Env} {U : String → Prop} {Q : String → AuthzReq → Prop} {l : List LoginRec} {w : World} {sid : String}
    (h : GInv E U Q (LoggedIn l) w) (hsid : SidFor E U sid) {s : Sess} (hs : sessionOf E w.st sid = .ok s) : SidLogged E U l sid := by
  obtain ⟨n, u, c, g, hgood, rfl⟩ := hsid
  obtain ⟨ev, _, _, h3, _⟩ := (session_good h hgood hs).event
  exact ⟨n, u, c, g, hgood, rfl, ev, h3⟩

/-- A session that is found is found under its key. -/
theorem session_view {E : Env} {U : String → Prop} {w : World} (hi : HInv U (fun _ => false = true) w.st) {n : Nat} {u c g : String}
    (hk : (SKey.gra u c g).Good U) {s : Sess} (hs : sessionOf E w.st (E.encSid n [u, c, g]) = .ok s) :
    view U w.st (.gra u c g) = some (s.ref, .grant s.grant) := by
  obtain ⟨h1, _, h3, h4⟩ := sessionOf_spec hs
  rw [E.decrypt_enc n u c g hk.2.1 hk.2.2.1 hk.2.2.2] at h3
  simp only [Except.ok.injEq, List.cons.injEq, and_true] at h3
  obtain ⟨rfl, rfl, rfl⟩ := h3
  obtain ⟨o, ho⟩ := (dbGet_iff hi.inv (k := .gra s.user s.client s.gid) hk s.ref).1 h4
  have h5 := view_some_obj ho
  rw [show w.st.obj s.ref = w.st.heap[s.ref]? from rfl, grantAt_iff.1 h1] at h5
  cases h5
  exact ho

theorem cookieOf_session {E : Env} {w : World} {sid : String} {req : AuthzReq} {k : SessionCookie} (h : cookieOf E w sid req = some k) :
    ∃ s, sessionOf E w.st sid = .ok s := by
  unfold cookieOf at h
  cases hs : sessionOf E w.st sid with
  | ok s => exact ⟨s, rfl⟩
  | error e =>
    unfold postAuthentication at h
    rw [hs] at h
    cases h

theorem setup_runs {E : Env} {U : String → Prop} {w w' : World} (hplain : ∀ u, U u → PlainName u)
    {loads : List Nat → Except Exc Identity} {m : AuthnMethod} {req : AuthzReq}
    {cookies : List SessionCookie} {ru : Option (Option String)} {res : Except Exc SetupRes}
    (hk : ∀ k ∈ cookies, SidFor E U k.sid) (hs : setupAuth E loads m w req cookies ru = (res, w')) : Runs E U w w' := by
  unfold setupAuth at hs
  have triv : ∀ {r : Except Exc SetupRes}, (r, w) = (res, w') → Runs E U w w' := by
    intro r he
    simp only [Prod.mk.injEq] at he
    rw [← he.2]
    exact Runs.refl ..
  split at hs
  · exact triv hs
  · split at hs
    · exact triv hs
    · exact triv hs
  · rename_i i hi
    obtain ⟨k, hkm, u, c, g, rest, hd, hcl, rfl, _, _⟩ := findIdentity_spec (plainCookies_of hplain hk) hi
    obtain ⟨n, u', c'', g', hgood, hke⟩ := hk k hkm
    rw [hke, E.decrypt_enc n u' c'' g' hgood.2.1 hgood.2.2.1 hgood.2.2.2] at hd
    cases hd
    split at hs
    · exact triv hs
    · split at hs
      · exact triv hs
      · simp only [] at hs
        split at hs
        · exact triv hs
        · have hagain : ∀ ev, Runs E U w (step E w (.again u c req ev)) := fun ev =>
            Runs.one ⟨hgood.1, hgood.2.1, hgood.2.2.1⟩
          have hfin : ∀ {x : World} {a b : String}, finishSetup E x a b = (res, w') → w' = x := by
            intro x a b hx
            unfold finishSetup at hx
            split at hx
            · simp only [Prod.mk.injEq] at hx; exact hx.2.symm
            · split at hx <;> (simp only [Prod.mk.injEq] at hx; exact hx.2.symm)
          unfold reuseSession at hs
          rw [hke, E.decrypt_enc n u c g hgood.2.1 hgood.2.2.1 hgood.2.2.2] at hs
          simp only [] at hs
          split at hs
          · exact triv hs
          · split at hs
            · exact triv hs
            · split at hs
              · exact triv hs
              · split at hs
                · split at hs
                  · exact triv hs
                  · rename_i ev hev
                    split at hs
                    · exact triv hs
                    · split at hs
                      · simp only [Prod.mk.injEq] at hs
                        rw [← hs.2]; exact hagain ev
                      · rw [hfin hs]; exact hagain ev
                · rw [hfin hs]; exact Runs.refl ..

theorem start_runs {E : Env} {U : String → Prop} {w w' : World} {m : AuthnMethod} {req : AuthzReq} {user : String}
    {res : Except Exc String} {c : String} (hc : req.clientId = some c) (hgood : (SKey.cli user c).Good U)
    (hs : startSession E w m req user = (res, w')) : Runs E U w w' := by
  unfold startSession at hs
  rw [hc] at hs
  simp only [] at hs
  split at hs
  all_goals
    simp only [Prod.mk.injEq] at hs
    rw [← hs.2]
    exact Runs.one (op := .login user c req (loginEvent m w.now user)) hgood

theorem token_runs (p : Prov) (U : String → Prop) (w : World) (client : String) (req : TokenReq) :
    Runs p.E U w (tokenEndpointParse p w client req) := by
  have hstep := Runs.one (E := p.E) (U := U) (w := w) (op := .parse client req) trivial
  unfold tokenEndpointParse
  split
  · exact hstep
  · rename_i H P hp
    have hst : step p.E w (.parse client req) = (match tokenParse p.E w client { req with clientId := some client } with
      | (.ok (.req r), w') => { w' with pool := w'.pool ++ [r] }
      | (_, w') => w') := rfl
    rw [hst] at hstep
    simp only [pstep, tokenParseP]
    cases hx : tokenParse p.E w client { req with clientId := some client } with
    | mk res w' =>
      rw [hx] at hstep
      cases res with
      | error e => exact hstep
      | ok pr =>
        cases pr with
        | err e => exact hstep
        | req r =>
          have hww := tokenParse_accepted hx
          subst hww
          simp only [] at hstep ⊢
          split
          · rename_i r' w' he
            simp only [Prod.mk.injEq] at he
            obtain ⟨he1, rfl⟩ := he
            have : r' = r := by
              unfold pkceTokenParse at he1
              repeat' split at he1
              all_goals first
                | (cases he1; done)
                | (cases he1; rfl)
            subst this
            exact hstep
          · rename_i x w' _ he
            simp only [Prod.mk.injEq] at he
            obtain ⟨_, rfl⟩ := he
            exact Runs.refl ..

/-- What something that happens does to the world and to the cookies. -/
structure After (p : Prov) (U : String → Prop) (s s' : PState) : Prop where
  runs : Runs p.E U s.w s'.w
  logins : ∀ x ∈ s.logins, x ∈ s'.logins
  cookies : ∃ l, s'.cookies = s.cookies ++ l ∧ ∀ k ∈ l, ∃ w1 req, Runs p.E U s.w w1 ∧ Runs p.E U w1 s'.w ∧
    SidLogged p.E U s'.logins k.sid ∧ cookieOf p.E w1 k.sid req = some k

theorem After.refl (p : Prov) (U : String → Prop) (s : PState) : After p U s s :=
  ⟨Runs.refl .., fun _ h => h, [], by simp, by simp⟩

theorem after_world {p : Prov} {U : String → Prop} {s s' : PState} (h : Runs p.E U s.w s'.w) (hc : s'.cookies = s.cookies)
    (hl : s'.logins = s.logins) : After p U s s' := ⟨h, by rw [hl]; exact fun _ h => h, [], by simp [hc], by simp⟩

theorem settle_after {p : Prov} {U : String → Prop} {s : PState} {req : AuthzReq} {x : Except Exc ProcRes × World}
    (hr : Runs p.E U s.w x.2)
    (hk : ∀ sid user k, x.1 = .ok (.part2 sid user (some k)) → ∃ w1, Runs p.E U s.w w1 ∧ Runs p.E U w1 x.2 ∧
      SidLogged p.E U s.logins k.sid ∧ cookieOf p.E w1 k.sid req = some k) : After p U s (settle s req x) := by
  unfold settle
  split
  · exact after_world hr rfl rfl
  · rename_i k w
    refine ⟨hr, fun _ h => h, [k], rfl, ?_⟩
    intro y hy
    rw [List.mem_singleton] at hy
    subst hy
    obtain ⟨w1, h⟩ := hk _ _ _ rfl
    exact ⟨w1, req, h⟩
  · exact after_world hr rfl rfl

theorem process_after {p : Prov} {U : String → Prop} {Q : String → AuthzReq → Prop} {s : PState} (hn : Names p U)
    (h : ProvInv p U Q s) {req : AuthzReq} {hint : List String} {cookies : List SessionCookie}
    {ru : Option (Option String)} {c : String} (hreq : req.clientId = some c)
    (hq : p.L.scopes.cdb.has c = true → checkUnknownScopes p.L.scopes c req.scope = .ok () → Q c req)
    (hk : ∀ k ∈ cookies, SidFor p.E U k.sid) (ht : ∀ x ∈ s.logins, x.time ≤ s.w.now) :
    After p U s (settle s req (processAuthz p.L p.E s.w req hint cookies ru)) := by
  have hplain : ∀ u, U u → PlainName u := fun u hu => (hn.users u hu).2
  have hstay : ∀ e : Exc, After p U s (settle s req (.error e, s.w)) := fun e =>
    settle_after (Runs.refl ..) (by simp)
  unfold processAuthz
  rw [hreq]
  simp only []
  split
  · exact hstay _
  · rename_i hhas
    split
    · exact hstay _
    · rename_i hsc
      have hQ : Q c req := hq (by simpa using hhas) (by rw [hsc])
      split
      · exact hstay _
      · rename_i m hm
        split
        · rename_i e w' he
          exact settle_after (setup_runs hplain hk he) (by simp)
        · rename_i w' he
          exact settle_after (setup_runs hplain hk he) (by simp)
        · rename_i w' he
          exact settle_after (setup_runs hplain hk he) (by simp)
        · rename_i sid user w' he
          obtain ⟨g1, g2⟩ := setup_world hn.sids hplain h.world hreq hQ hk (loggedIn_time ht) he
          obtain ⟨g3, g4⟩ := g2 sid user rfl
          have h1 := setup_runs hplain hk he
          have h2 : Runs p.E U w' (step p.E w' (.authorize sid req)) := Runs.one (op := .authorize sid req) g3
          refine settle_after (h1.trans h2) ?_
          intro sid' user' k hk'
          simp only [Except.ok.injEq, ProcRes.part2.injEq] at hk'
          obtain ⟨_, _, hk3⟩ := hk'
          have e := cookieOf_sid hk3
          obtain ⟨ss, hss⟩ := cookieOf_session hk3
          exact ⟨w', h1, h2, by rw [e]; exact sidLogged_of g1 g3 hss, by rw [e]; exact hk3⟩

theorem after_of_eq {p : Prov} {U : String → Prop} {s s1 s' : PState} (h : After p U s1 s') (h1 : s1.w = s.w) (h2 : s1.cookies = s.cookies)
    (h3 : ∀ x ∈ s.logins, x ∈ s1.logins) : After p U s s' := by
  obtain ⟨a, b, d⟩ := h
  rw [h1] at a d
  rw [h2] at d
  exact ⟨a, fun x hx => b x (h3 x hx), d⟩

theorem provStep_after {p : Prov} {U : String → Prop} {Q : String → AuthzReq → Prop} (hn : Names p U) (hQ : Passing p Q)
    {s : PState} (h : ProvInv p U Q s) (ht : ∀ x ∈ s.logins, x.time ≤ s.w.now) {op : POp} (hf : FairP p U op) :
    After p U s (provStep p s op) := by
  have plain : ∀ wop : WOp, FairW p.E U false wop → After p U s { s with w := step p.E s.w wop } :=
    fun wop hg => after_world (Runs.one hg) rfl rfl
  have hpar : ∀ client (a b : PState), (a.w = s.w ∧ a.cookies = s.cookies ∧ a.logins = s.logins) →
      ParStep client a b → b.w = s.w ∧ b.cookies = s.cookies ∧ b.logins = s.logins := by
    intro client a b ha hab
    obtain ⟨e1, _, e3, e4⟩ := parStep_fields hab
    exact ⟨e1.trans ha.1, e3.trans ha.2.1, e4.trans ha.2.2⟩
  cases op with
  | tick d => exact plain (.tick d) trivial
  | push client req =>
    have h1 := parsePush_par (I := fun a => a.w = s.w ∧ a.cookies = s.cookies ∧ a.logins = s.logins) (hpar client) p req ⟨rfl, rfl, rfl⟩
    simp only [provStep]
    split
    · rename_i r s' he
      rw [he] at h1
      exact after_world (by rw [show (processPush p client r s').w = s'.w from rfl, h1.1]; exact Runs.refl ..) h1.2.1 h1.2.2
    · rename_i x s' _ he
      rw [he] at h1
      exact after_world (by rw [h1.1]; exact Runs.refl ..) h1.2.1 h1.2.2
  | request client req cookies hint ru =>
    have h0 := parseAuthz_par (I := fun a => a.w = s.w ∧ a.cookies = s.cookies ∧ a.logins = s.logins) (hpar client) p req ⟨rfl, rfl, rfl⟩
    have h1 := parseAuthz_par (I := ProvInv p U Q) (client := client) pinv_par p req h
    simp only [provStep]
    split
    · rename_i r s' he
      have h2 := parseAuthz_par (I := fun s' => ∀ x ∈ s'.logins, x.time ≤ s'.w.now) (client := client)
        (fun a b ha hab => by obtain ⟨e1, _, _, e4⟩ := parStep_fields hab; rw [e1, e4]; exact ha) p req ht
      rw [he] at h0 h1 h2
      obtain ⟨_, c, uri, k1, k2, k3⟩ := parseAuthz_spec he
      refine after_of_eq (process_after hn h1 k1 (fun a b => hQ _ _ _ _ _ _ he k1 a b) ?_ h2) h0.1 h0.2.1 (by rw [h0.2.2]; exact fun _ h => h)
      intro k hk
      unfold pickCookies at hk
      rw [List.mem_filterMap] at hk
      obtain ⟨i, _, hi⟩ := hk
      exact h.cookies k (List.mem_of_getElem? hi)
    · rename_i x s' _ he
      rw [he] at h0
      exact after_world (by rw [h0.1]; exact Runs.refl ..) h0.2.1 h0.2.2
  | loggedIn i user =>
    simp only [provStep]
    split
    · exact After.refl ..
    · rename_i req m hi
      obtain ⟨c, k1, k2, k3⟩ := h.pending _ (List.mem_of_getElem? hi)
      have hgood : (SKey.cli user c).Good U := ⟨hf, (hn.users user hf).1, (hn.clients c k2).1⟩
      have h0 : ProvInv p U Q { s with logins := s.logins ++ [⟨user, req, m, s.w.now⟩] } :=
        ⟨h.world.mono (by rintro u c ev ⟨r, hr, he⟩; exact ⟨r, List.mem_append_left _ hr, he⟩), h.pending, h.cookies⟩
      have hlg : LoggedIn (s.logins ++ [⟨user, req, m, s.w.now⟩]) user c (loginEvent m s.w.now user) :=
        ⟨_, List.mem_append_right _ (List.mem_singleton.2 rfl), rfl, k1, rfl⟩
      unfold finishLogin
      split
      · rename_i e w' he
        exact after_of_eq (s1 := { s with logins := s.logins ++ [⟨user, req, m, s.w.now⟩] })
          (after_world (start_runs k1 hgood he) rfl rfl) rfl rfl (fun x hx => List.mem_append_left _ hx)
      · rename_i sid w' he
        have h1 := start_runs k1 hgood he
        obtain ⟨g1, g2⟩ := start_world hn.sids h0.world k1 k3 hgood hlg he
        obtain ⟨g3, g4⟩ := g2 sid rfl
        have h2 : Runs p.E U w' (step p.E w' (.authorize sid req)) := Runs.one (op := .authorize sid req) g3
        refine after_of_eq (settle_after (p := p) (U := U) (s := { s with logins := s.logins ++ [⟨user, req, m, s.w.now⟩] }) (h1.trans h2) ?_) rfl rfl
          (fun x hx => List.mem_append_left _ hx)
        intro sid' user' k hk'
        simp only [Except.ok.injEq, ProcRes.part2.injEq] at hk'
        obtain ⟨_, _, hk3⟩ := hk'
        have e := cookieOf_sid hk3
        obtain ⟨ss, hss⟩ := cookieOf_session hk3
        exact ⟨w', h1, h2, by rw [e]; exact sidLogged_of g1 g3 hss, by rw [e]; exact hk3⟩
  | token client req => exact after_world (token_runs p U s.w client req) rfl rfl
  | redeem i kw => exact plain (.process i kw) trivial
  | revokeToken sid v rec => exact plain (.revokeToken sid v rec) hf
  | revokeGrant sid => exact plain (.revokeGrant sid) hf
  | revokeClientSession sid => exact plain (.revokeClientSession sid) hf
  | removeSession sid => exact plain (.removeSession sid) ⟨rfl, hf⟩

/-- The invariant, with ids and cookies. -/
structure EndInv (p : Prov) (U : String → Prop) (Q : String → AuthzReq → Prop) (s : PState) : Prop where
  inv : ProvInv p U Q s
  times : ∀ x ∈ s.logins, x.time ≤ s.w.now
  ids : IdInv p.E U s.w
  cooks : CookInv p.E U s.logins s.w.n s.cookies

/-- What a history does to the grants under their keys and to the cookies. -/
structure Later (p : Prov) (U : String → Prop) (s s' : PState) : Prop where
  n : s.w.n ≤ s'.w.n
  cookies : ∃ l, s'.cookies = s.cookies ++ l
  grants : ∀ u c g r gr', view U s'.w.st (.gra u c g) = some (r, .grant gr') →
    (∃ gr, view U s.w.st (.gra u c g) = some (r, .grant gr) ∧ GrantLe gr gr') ∨ ∃ m, s.w.n ≤ m ∧ g = p.E.uuid m

theorem endInv_provStep {p : Prov} {U : String → Prop} {Q : String → AuthzReq → Prop} (hn : Names p U) (hQ : Passing p Q)
    {s : PState} (h : EndInv p U Q s) {op : POp} (hf : FairP p U op) :
    EndInv p U Q (provStep p s op) ∧ Later p U s (provStep p s op) := by
  obtain ⟨hruns, hlog, l, hl, hk⟩ := provStep_after hn hQ h.inv h.times hf
  have hrun : ∀ {w : World}, Runs p.E U s.w w → WInv p.E (SidFor p.E U) w ∧ HInv U (fun _ => false = true) w.st ∧
      IdInv p.E U w ∧ s.w.n ≤ w.n := by
    rintro w ⟨ops, h1, rfl⟩
    obtain ⟨a1, a2, _⟩ := id_run hn.sids ops h1 h.inv.world.winv h.inv.world.hinv h.ids
    obtain ⟨b1, b2⟩ := fair_run hn.sids ops h1 h.inv.world.winv h.inv.world.hinv
    exact ⟨b1, b2, a1, a2⟩
  obtain ⟨c1, c2, c3, c4⟩ := hrun hruns
  refine ⟨⟨pinv_provStep hn hQ h.inv h.times hf, times_provStep h.inv.world.reach h.times op, c3, ?_⟩, c4, ⟨l, hl⟩, ?_⟩
  · intro k hkm
    rw [hl] at hkm
    rcases List.mem_append.1 hkm with hkm | hkm
    · obtain ⟨i, u, c, m, g1, g2, g3, ev, x, hx, he⟩ := h.cooks k hkm
      exact ⟨i, u, c, m, g1, Nat.lt_of_lt_of_le g2 c4, g3, ev, x, hlog x hx, he⟩
    · obtain ⟨w1, req, r1, ⟨ops, hops, r2⟩, hsid, hco⟩ := hk k hkm
      obtain ⟨d1, d2, d3, d4⟩ := hrun r1
      obtain ⟨i, u, c, g, hgood, he, hev⟩ := hsid
      obtain ⟨ss, hss⟩ := cookieOf_session hco
      rw [he] at hss
      obtain ⟨_, m, m1, m2⟩ := d3 _ _ _ _ _ (session_view d2 hgood hss)
      obtain ⟨_, e2, _⟩ := id_run hn.sids ops hops d1 d2 d3
      subst m2
      exact ⟨i, u, c, m, hgood, by rw [r2]; exact Nat.lt_of_lt_of_le m1 e2, he, hev⟩
  · obtain ⟨ops, h1, h2⟩ := hruns
    obtain ⟨_, _, a3⟩ := id_run hn.sids ops h1 h.inv.world.winv h.inv.world.hinv h.ids
    rw [h2]
    exact a3

theorem endInv_run {p : Prov} {U : String → Prop} {Q : String → AuthzReq → Prop} (hn : Names p U) (hQ : Passing p Q)
    (ops : List POp) (hf : ∀ op ∈ ops, FairP p U op) {s : PState} (h : EndInv p U Q s) :
    EndInv p U Q (provRun p s ops) ∧ Later p U s (provRun p s ops) ∧ Runs p.E U s.w (provRun p s ops).w := by
  induction ops generalizing s with
  | nil => exact ⟨h, ⟨Nat.le_refl _, ⟨[], (List.append_nil _).symm⟩, fun _ _ _ _ gr' hv => .inl ⟨gr', hv, GrantLe.refl _⟩⟩, Runs.refl ..⟩
  | cons op l ih =>
    have hop := hf op (by simp)
    obtain ⟨a1, a2⟩ := endInv_provStep hn hQ h hop
    have a3 := (provStep_after hn hQ h.inv h.times hop).runs
    obtain ⟨b1, b2, b3⟩ := ih (fun o ho => hf o (by simp [ho])) a1
    refine ⟨b1, ⟨Nat.le_trans a2.n b2.n, ?_, ?_⟩, a3.trans b3⟩
    · obtain ⟨l1, h1⟩ := a2.cookies
      obtain ⟨l2, h2⟩ := b2.cookies
      exact ⟨l1 ++ l2, by rw [← List.append_assoc, ← h1]; exact h2⟩
    · intro u c g r gr' hv
      rcases b2.grants u c g r gr' hv with ⟨gr, h1, h2⟩ | ⟨m, h1, h2⟩
      · rcases a2.grants u c g r gr h1 with ⟨gr0, h3, h4⟩ | h3
        · exact .inl ⟨gr0, h3, h4.trans h2⟩
        · exact .inr h3
      · exact .inr ⟨m, Nat.le_trans a2.n h1, h2⟩

theorem endInv_history {p : Prov} {U : String → Prop} {Q : String → AuthzReq → Prop} (hn : Names p U) (hQ : Passing p Q)
    (now : Int) (ops : List POp) (hf : ∀ op ∈ ops, FairP p U op) :
    EndInv p U Q (provHistory p now ops) ∧ Runs p.E U { now := now } (provHistory p now ops).w := by
  have h0 : EndInv p U Q { w := { now := now } } := by
    refine ⟨⟨ginv_init _ _ _ _ _, by simp, by simp⟩, by simp, ?_, by intro k hk; cases hk⟩
    intro u c g r gr hv
    cases view_some_obj hv
  obtain ⟨h1, _, h3⟩ := endInv_run hn hQ ops hf h0
  exact ⟨h1, h3⟩

end OidcOp
