/-
Property theorems about histories of the provider: C11, C14, C16, C18, C19, C20, C21, C22, C24, C26, C27.
The concrete histories that meet the hypotheses, and the counterexamples, are in Props/WorldExamples.lean.
-/
import Verif.Lemmas.Events
import Verif.Props.Token

namespace OidcOp
open Spec

/-! ## C11 -/

/-- C11. A token that is revoked, used up or past its expiry in some reachable state is still there, and inactive,
after every further history, at that instant and at every later one. -/
theorem C11_inactive_forever (E : Env) (w : World) (hw : Reachable E w) (r i : Nat) (t : Token)
    (ht : TokenAt w r i t) (hs : Spent t w.now) (ops : List WOp) :
    ∃ t', TokenAt (run E w ops) r i t' ∧ t'.value = t.value ∧ t'.cls = t.cls ∧
      ∀ at', (run E w ops).now ≤ at' → ¬ ItemActive t'.item at' := by
  obtain ⟨g, hg, hi⟩ := ht
  have hc := chain_run hw ops
  obtain ⟨g', t', h1, h2, h3⟩ := tokenAt_later hc (grantAt_spec.1 hg) hi
  have hf := static_fields h3.static
  refine ⟨t', ⟨g', grantAt_spec.2 h1, h2⟩, hf.2.1, hf.1, fun at' hle => ?_⟩
  exact not_active_of_spent (spent_mono h3 (mono_chain hc).2 hs) hle

/-- C11, at the token endpoint. No history ever gives a token response for a code or refresh token that was
revoked, used up or expired. -/
theorem C11_inactive_gives_no_response (E : Env) (w : World) (hw : Reachable E w) (r i : Nat) (t : Token)
    (ht : TokenAt w r i t) (hs : Spent t w.now) (ops : List WOp) :
    ∃ l, (run E w ops).log = w.log ++ l ∧
      ∀ ref client rf req resp, Event.token ref client rf t.value req resp ∉ l := by
  obtain ⟨g, hg, hi⟩ := ht
  let P : Core → Prop := fun c => ∃ g' t', c.st.grantAt r = some g' ∧ g'.issuedToken[i]? = some t' ∧
    t'.value = t.value ∧ Spent t' c.now
  let Q : Event → Prop := fun e => ∀ ref client rf req resp, e ≠ .token ref client rf t.value req resp
  obtain ⟨l, h1, h2⟩ := log_prefix_P (winv_reachable hw) P
    (by
      rintro c c' hc ⟨g', t', h1, h2, h3, h4⟩
      obtain ⟨g'', t'', h5, h6, h7⟩ := tokenAt_later hc h1 h2
      exact ⟨g'', t'', h5, h6, (static_fields h7.static).2.1.trans h3, spent_mono h7 (mono_chain hc).2 h4⟩)
    Q
    (by
      rintro w op e hw hw' hc ⟨g', t', h1, h2, h3, h4⟩ hne ref client rf req resp rfl
      rcases hne with ⟨_, _, _, _, h, _⟩ | ⟨s, rf', v, req', r', a, he, hp, ha, hout⟩
      · cases h
      · cases he
        have hf := tokFacts hw (sidClosed_true E) hc hp ha hout
        obtain ⟨j, b, b', g2, x1, x2, _, x4, _⟩ := hf.base
        obtain ⟨e1, e2⟩ := hw.core.uniq _ _ _ _ _ _ _ _ h1 hf.before h2 x1 (h3.trans x2.symm)
        subst e1 e2
        have := hf.before
        rw [h1] at this
        cases this
        rw [h2] at x1
        cases x1
        exact not_active_of_spent h4 (Int.le_refl _) x4)
    ⟨g, t, grantAt_spec.1 hg, hi, rfl, hs⟩ ops
  exact ⟨l, h1, fun ref client rf req resp hm => h2 _ hm _ _ _ _ _ rfl⟩

/-! ## C14 -/

/-- C14. In every history, whatever the interleaving of parsing and processing of token requests and whatever
minting fails, at most one successful token response is given for one authorization code. -/
theorem C14_at_most_one_response_per_code (E : Env) (now : Int) (ops : List WOp) (v : String) :
    (run E { now := now } ops).log.countP (isCodeResponse v) ≤ 1 := by
  -- a code with a response has been used
  let P : Core → Prop := fun c => ∃ r g i t, c.st.grantAt r = some g ∧ g.issuedToken[(i : Nat)]? = some t ∧ t.value = v ∧
    t.cls = .authorizationCode ∧ 1 ≤ t.used
  have main : ∀ (ops : List WOp) (w : World), WInv E (fun _ => True) w →
      w.log.countP (isCodeResponse v) ≤ 1 → (1 ≤ w.log.countP (isCodeResponse v) → P w.core) →
      (run E w ops).log.countP (isCodeResponse v) ≤ 1 := by
    intro ops
    induction ops with
    | nil => intro w _ h _; exact h
    | cons op rest ih =>
      intro w hw hle hP
      obtain ⟨hc, hw', h3⟩ := step_spec hw (sidClosed_true E) op (fun _ _ _ => trivial)
      have mono : P w.core → P (step E w op).core := by
        rintro ⟨r, g, i, t, h1, h2, h3, h4, h5⟩
        obtain ⟨g'', t'', h6, h7, h8⟩ := tokenAt_later hc h1 h2
        have hf := static_fields h8.static
        exact ⟨r, g'', i, t'', h6, h7, hf.2.1.trans h3, hf.1.trans h4, Nat.le_trans h5 h8.used⟩
      apply ih (step E w op) hw'
      · rcases h3 with h3 | ⟨e, h3, hne⟩
        · rw [h3]; exact hle
        · rw [h3, List.countP_append, List.countP_singleton]
          split
          · rename_i he
            rcases hne with ⟨_, _, _, _, h, _⟩ | ⟨s, rf, v', req, r', a, he', hp, ha, hout⟩
            · subst h; cases he
            · subst he'
              cases rf with
              | true => cases he
              | false =>
                simp only [isCodeResponse, decide_eq_true_eq] at he
                subst he
                by_cases h0 : w.log.countP (isCodeResponse v') = 0
                · omega
                · exfalso
                  obtain ⟨r, g, i, t, x1, x2, x3, x4, x5⟩ := hP (by omega)
                  have hf := tokFacts hw (sidClosed_true E) hc hp ha hout
                  obtain ⟨j, b, b', g2, y1, y2, y3, y4, _⟩ := hf.base
                  obtain ⟨e1, e2⟩ := hw.core.uniq _ _ _ _ _ _ _ _ x1 hf.before x2 y1 (x3.trans y2.symm)
                  subst e1 e2
                  have := hf.before
                  rw [x1] at this
                  cases this
                  rw [x2] at y1
                  cases y1
                  have hm := hw.core.once _ _ _ _ x1 x2 x4
                  have := y4.2.1 1 hm
                  simp [Token.item] at this
                  omega
          · simpa using hle
      · intro hge
        rcases h3 with h3 | ⟨e, h3, hne⟩
        · rw [h3] at hge; exact mono (hP hge)
        · rw [h3, List.countP_append, List.countP_singleton] at hge
          by_cases he : isCodeResponse v e = true
          · rcases hne with ⟨_, _, _, _, h, _⟩ | ⟨s, rf, v', req, r', a, he', hp, ha, hout⟩
            · subst h; cases he
            · subst he'
              cases rf with
              | true => cases he
              | false =>
                simp only [isCodeResponse, decide_eq_true_eq] at he
                subst he
                have hf := tokFacts hw (sidClosed_true E) hc hp ha hout
                obtain ⟨j, b, b', g2, y1, y2, y3, y4, y5, y6, y7, y8, _⟩ := hf.base
                have hs := static_fields y7.static
                exact ⟨_, g2, j, b', y5, y6, hs.2.1.trans y2, hs.1.trans (by simpa using y3), by omega⟩
          · simp only [he] at hge
            exact mono (hP (by simpa using hge))
  exact main ops _ (winv_init E _ now) (by simp) (by simp)

/-! ## C16 -/

/-- The ancestry of the tokens of every reachable grant is in order. -/
theorem ancestry_reachable {E : Env} {S : String → Prop} {c : Core} (h : CInv E S c) {r : Nat} {g : Grant}
    (hg : c.st.grantAt r = some g) : Ancestry g.issuedToken := by
  refine ⟨fun t ht => ?_, h.distinct hg, fun i t v ht hb => ?_⟩
  · obtain ⟨i, hi⟩ := List.getElem?_of_mem ht
    obtain ⟨k, sid, _, hk, _⟩ := h.prov r g i t hg hi
    exact hk.ne
  · obtain ⟨j, p, h1, h2, h3, _⟩ := h.based r g i t v hg ht hb
    exact ⟨j, p, h1, h2, h3⟩

/-- C16. When a used code of a grant is presented again at the OIDC token endpoint, the answer is invalid_grant;
exactly the tokens derived from the code are revoked in addition, and no other object changes; the derived tokens
are revoked in every later state. -/
theorem C16_replay_revokes_descendants (E : Env) (w : World) (hw : Reachable E w) (hfl : E.cfg.flavor = .oidc)
    (client : String) (cl : TClient) (hcl : E.cfg.cdb.get? client = some cl)
    (hallow : ∀ l, cl.grantTypes = some l → "authorization_code" ∈ l)
    (req : TokenReq) (hgt : req.grantType = some "authorization_code") (code : String) (hcode : req.code = some code)
    (s : Sess) (hs : sessionByToken E w code = .ok s) (i : Nat) (t : Token) (hi : s.grant.issuedToken[i]? = some t)
    (hv : t.value = code) (hcls : t.cls = .authorizationCode) (hused : t.used ≠ 0) :
    (tokenParse E w client { req with clientId := some client }).1 = .ok (.err "invalid_grant") ∧
    (∃ g', GrantAt (step E w (.parse client req)) s.ref g' ∧
      RevokedExactly (DerivedFrom s.grant.issuedToken code) s.grant.issuedToken g'.issuedToken ∧
      g' = { s.grant with issuedToken := g'.issuedToken }) ∧
    (∀ r, r ≠ s.ref → (step E w (.parse client req)).st.heap[r]? = w.st.heap[r]?) ∧
    ∀ ops j, DerivedFrom s.grant.issuedToken code j →
      ∃ t', TokenAt (run E (step E w (.parse client req)) ops) s.ref j t' ∧ t'.revoked = true := by
  have hwi := winv_reachable hw
  have hg := sessionByToken_grantAt hs
  have hanc := ancestry_reachable hwi.core (r := s.ref) hg
  have hne : code ≠ "" := by
    rw [← hv]; exact hanc.nonempty t (List.mem_of_getElem? hi)
  obtain ⟨ts, h1, h2⟩ := C17_revoke_descendants s.grant hanc code hne
  have hget : s.grant.getToken code = some t := by
    have := hwi.core.getToken (r := s.ref) hg hi
    rw [hv] at this; exact this
  have hparse : tokenParse E w client { req with clientId := some client } =
      (.ok (.err "invalid_grant"), w.commit s ⟨{ s.grant with issuedToken := ts }, w.n⟩) := by
    have hr : grantTypeRefused cl "authorization_code" = false := by
      unfold grantTypeRefused
      split
      · rename_i l hl; simpa using hallow l hl
      · rfl
    have hcp : codeParse E.cfg w.now { req with clientId := some client } code s.grant =
        (.ok (.err "invalid_grant"), { s.grant with issuedToken := ts }) := by
      unfold codeParse
      rw [hget]
      simp only [hcls, ne_eq, not_true_eq_false, if_false, hfl, hused, not_false_eq_true, and_self, if_true, h1]
    unfold tokenParse
    simp only [hgt, hcl, hr, Bool.false_eq_true, if_false, if_true]
    unfold codeParseW
    simp only [hgt, hcode] at hcp
    simp only [hcode, hs, hcp]
  have hstep : step E w (.parse client req) = w.commit s ⟨{ s.grant with issuedToken := ts }, w.n⟩ := by
    have hst : step E w (.parse client req) = (match tokenParse E w client { req with clientId := some client } with
      | (.ok (.req r), w') => { w' with pool := w'.pool ++ [r] }
      | (_, w') => w') := rfl
    rw [hst, hparse]
  have hst : (w.commit s ⟨{ s.grant with issuedToken := ts }, w.n⟩).st =
      w.st.put s.ref (.grant { s.grant with issuedToken := ts }) := by
    unfold World.commit
    simp only [h2.1, if_true]
  have hat : GrantAt (step E w (.parse client req)) s.ref { s.grant with issuedToken := ts } := by
    rw [hstep]
    unfold GrantAt
    rw [hst]
    exact grantAt_iff.1 (grantAt_put_self hg _)
  refine ⟨by rw [hparse], ⟨_, hat, h2, rfl⟩, ?_, ?_⟩
  · intro r hr
    rw [hstep, hst]
    exact List.getElem?_set_ne (Ne.symm hr)
  · intro ops j hj
    have hlt := derivedFrom_lt hj
    obtain ⟨r, h3, h4⟩ := h2.2 j _ (List.getElem?_eq_getElem hlt)
    have hr : r = true := h4.2 (.inr hj)
    have hw2 : Reachable E (step E w (.parse client req)) := reachable_run hw [.parse client req]
    obtain ⟨g', t', h5, h6, h7⟩ := tokenAt_later (chain_run hw2 ops) (grantAt_spec.1 hat) h3
    exact ⟨t', ⟨g', grantAt_spec.2 h5, h6⟩, h7.revoked hr⟩

/-! ## C18 -/

/-- C18. In every reachable state: the tokens of each grant have non-empty, pairwise distinct values and are based on
nothing or on an earlier token of the same grant; two tokens anywhere with the same value are the same token; and
looking up the scope of a token, or of its parent, ends with a result. -/
theorem C18_ancestry (E : Env) (w : World) (hw : Reachable E w) :
    (∀ r g, GrantAt w r g → Ancestry g.issuedToken) ∧
    (∀ r i t r' i' t', TokenAt w r i t → TokenAt w r' i' t' → t.value = t'.value → r = r' ∧ i = i') ∧
    (∀ r g t, GrantAt w r g → t ∈ g.issuedToken →
      (∃ sc, g.findScopeTok t = .ok sc) ∧ (∃ sc, g.findScope t.basedOn = .ok sc)) := by
  have hi := (winv_reachable hw).core
  refine ⟨fun r g hg => ancestry_reachable hi (grantAt_spec.1 hg), ?_, ?_⟩
  · rintro r i t r' i' t' ⟨g, hg, ht⟩ ⟨g', hg', ht'⟩ he
    exact hi.uniq r r' g g' i i' t t' (grantAt_spec.1 hg) (grantAt_spec.1 hg') ht ht' he
  · intro r g t hg ht
    obtain ⟨i, hi'⟩ := List.getElem?_of_mem ht
    have key : ∀ (j : Nat) (u : Token), g.issuedToken[j]? = some u → ∃ sc, g.findScopeTok u = .ok sc := by
      intro j u hu
      have hlt := (List.getElem?_eq_some_iff.1 hu).1
      exact hi.findScope_total (grantAt_spec.1 hg) _ j u hu (by omega)
    refine ⟨key i t hi', ?_⟩
    unfold Grant.findScope
    cases hb : t.basedOn with
    | none => exact ⟨_, rfl⟩
    | some v =>
      simp only []
      cases hget : g.getToken v with
      | none => exact ⟨_, rfl⟩
      | some u =>
        obtain ⟨j, hj⟩ := List.getElem?_of_mem (getToken_mem hget).1
        exact key j u hj

/-! ## C19 -/

/-- C19. In every reachable state the scope of every authorization code, access token and refresh token is contained
in the scope of its grant. -/
theorem C19_scope_bounded (E : Env) (w : World) (hw : Reachable E w) (r : Nat) (g : Grant) (hg : GrantAt w r g)
    (t : Token) (ht : t ∈ g.issuedToken)
    (hc : t.cls = .authorizationCode ∨ t.cls = .accessToken ∨ t.cls = .refreshToken) :
    ∀ x ∈ t.scope, x ∈ g.scope := by
  obtain ⟨i, hi⟩ := List.getElem?_of_mem ht
  refine (winv_reachable hw).core.scope r g i t (grantAt_spec.1 hg) hi ?_
  rcases hc with h | h | h <;> rw [h] <;> simp

/-! ## C20 -/

/-- C20 (partial).  What does hold of refresh: the scope in every refresh response is contained in the scope that the
*parent* of the presented token carries.  Missing: the presented token's own, narrowed scope is not looked at, so it
is no bound; see `C20_widening_refuted`. -/
theorem C20_refresh_scope_partial (E : Env) (now : Int) (ops : List WOp) (ref : Nat) (client v : String) (req : TokenReq)
    (resp : TokenResp) (h : Event.token ref client true v req resp ∈ (run E { now := now } ops).log) :
    ∃ g t sc, GrantAt (run E { now := now } ops) ref g ∧ t ∈ g.issuedToken ∧ t.value = v ∧
      EffScope g t.basedOn sc ∧ ∀ x ∈ resp.scope, x ∈ sc := by
  let P : Core → Event → Prop := fun c e => ∀ ref client v req resp, e = .token ref client true v req resp →
    ∃ g t sc, c.st.grantAt ref = some g ∧ t ∈ g.issuedToken ∧ t.value = v ∧
      EffScope g t.basedOn sc ∧ ∀ x ∈ resp.scope, x ∈ sc
  have := log_invariant (E := E) (S := fun _ => True) (sidClosed_true E) P
    (by
      rintro c c' e hc h ref client v req resp rfl
      obtain ⟨g, t, sc, h1, h2, h3, h4, h5⟩ := h _ _ _ _ _ rfl
      obtain ⟨i, hi⟩ := List.getElem?_of_mem h2
      obtain ⟨g', h6, h7⟩ := grantLe_chain hc h1
      obtain ⟨t', h8, h9⟩ := h7.tokens i t hi
      obtain ⟨sc', h10, h11⟩ := h4.mono h7
      have hf := static_fields h9.static
      exact ⟨g', t', sc', h6, List.mem_of_getElem? h8, hf.2.1.trans h3, by rw [hf.2.2.1]; exact h10,
        fun x hx => h11 x (h5 x hx)⟩)
    (by
      rintro w op e hw hw' hc hne ref client v req resp rfl
      rcases hne with ⟨_, _, _, _, h, _⟩ | ⟨s, rf', v', req', r', a, he, hp, ha, hout⟩
      · cases h
      · cases he
        have hf := tokFacts hw (sidClosed_true E) hc hp ha hout
        obtain ⟨j, b, b', g2, x1, x2, x3, x4, x5, x6, x7, x8, x9, x10, x11, x12⟩ := hf.base
        obtain ⟨sc, hsc, hsub⟩ := x12 rfl
        obtain ⟨g', h6, h7⟩ := grantLe_chain hc hf.before
        rw [x5] at h6
        cases h6
        obtain ⟨sc', h10, h11⟩ := hsc.mono h7
        have hs := static_fields x7.static
        exact ⟨g2, b', sc', x5, List.mem_of_getElem? x6, hs.2.1.trans x2, by rw [hs.2.2.1]; exact h10,
          fun x hx => h11 x (hsub x hx)⟩)
    ops (fun _ _ _ => trivial) { now := now } (winv_init E _ now) (by simp)
  obtain ⟨g, t, sc, h1, h2⟩ := this _ h _ _ _ _ _ rfl
  exact ⟨g, t, sc, grantAt_spec.2 h1, h2⟩

/-! ## C21 -/

/-- C21. In every reachable state, `parse_request` accepts a refresh request exactly when the client is known and
allowed the grant type, the presented value resolves to a session whose grant holds it as an active refresh token,
and the requested scope, if any, is contained in the scope that the parent of that token carries.  The accepted
request is the one presented. -/
theorem C21_refresh_accepted_iff (E : Env) (w : World) (hw : Reachable E w) (client : String) (req req' : TokenReq)
    (hgt : req.grantType = some "refresh_token") :
    (tokenParse E w client req).1 = .ok (.req req') ↔
      req' = req ∧
      (∃ cl, E.cfg.cdb.get? client = some cl ∧ ∀ l, cl.grantTypes = some l → "refresh_token" ∈ l) ∧
      ∃ v s i t, req.refreshToken = some v ∧ sessionByToken E w v = .ok s ∧ GrantAt w s.ref s.grant ∧
        s.grant.issuedToken[(i : Nat)]? = some t ∧ t.value = v ∧ t.cls = .refreshToken ∧ ItemActive t.item w.now ∧
        ∀ sc, req.scope = some sc → ∃ found, EffScope s.grant t.basedOn found ∧ ∀ x ∈ sc, x ∈ found := by
  have hwi := (winv_reachable hw).core
  constructor
  · intro h
    have hp := (tokenParse_spec E (fun _ => True) w client req).2.2.2 req' h
    have hgt' : req'.grantType = some "refresh_token" := by rw [hp.same]; exact hgt
    obtain ⟨v, s, t, h1, h2, h3, h4, h5, h6⟩ := hp.refresh hgt'
    obtain ⟨hm, hval⟩ := getToken_mem h3
    obtain ⟨i, hi⟩ := List.getElem?_of_mem hm
    have hg := sessionByToken_grantAt h2
    unfold tokenParse at h
    rw [hgt] at h
    simp only [] at h
    split at h
    · cases h
    · rename_i cl hcl
      split at h
      · cases h
      · rename_i hr
        have hsame : req' = req := by
          rw [if_neg (by decide), if_pos trivial] at h
          simp only [] at h
          unfold refreshParseW at h
          split at h
          · cases h
          · split at h
            · split at h <;> cases h
            · exact (refreshParse_req h).1
        subst hsame
        refine ⟨rfl, ⟨cl, hcl, fun l hl => ?_⟩, v, s, i, t, h1, h2, grantAt_iff.1 hg, hi, hval, h4,
          (isActive_clock_iff _ _).1 h5, fun sc hsc => ?_⟩
        · unfold grantTypeRefused at hr
          rw [hl] at hr
          simpa using hr
        · obtain ⟨found, hf, hsub⟩ := h6 sc hsc
          exact ⟨found, hwi.effScope (r := s.ref) hg hi hf, hsub⟩
  · rintro ⟨rfl, ⟨cl, hcl, hal⟩, v, s, i, t, h1, h2, h3, h4, h5, h6, h7, h8⟩
    have hr : grantTypeRefused cl "refresh_token" = false := by
      unfold grantTypeRefused
      split
      · rename_i l hl; simpa using hal l hl
      · rfl
    have hg := sessionByToken_grantAt h2
    have hget : s.grant.getToken v = some t := by
      have := hwi.getToken (r := s.ref) hg h4
      rw [h5] at this; exact this
    unfold tokenParse
    simp only [hgt, hcl, hr, Bool.false_eq_true, if_false, if_neg (show ¬ ("refresh_token" = "authorization_code") by decide),
      if_true]
    unfold refreshParseW
    simp only [h1, h2]
    unfold refreshParse
    have hact : t.isActive w.now = true := (isActive_clock_iff _ _).2 h7
    simp only [hget, h6, ne_eq, not_true_eq_false, if_false, hact, Bool.true_eq_false]
    cases hsc : req'.scope with
    | none => rfl
    | some sc =>
      obtain ⟨found, hf, hsub⟩ := h8 sc hsc
      obtain ⟨sc', hfs⟩ := ((C18_ancestry E w hw).2.2 s.ref s.grant t h3 (List.mem_of_getElem? h4)).2
      have he := hwi.effScope (r := s.ref) hg h4 hfs
      have : sc' = found := effScope_unique (hwi.distinct (r := s.ref) hg) he hf
      subst this
      simp only [hfs]
      rw [if_pos (by simpa [subsetB] using hsub)]

/-! ## C22 -/

theorem rotation_iff (cfg : TokenCfg) (client : String) :
    revokeRefreshFor cfg (some client) = true ↔ RotationInForce cfg client := by
  unfold revokeRefreshFor RotationInForce
  simp only []
  split
  · rename_i h; simp [h]
  · rename_i cl h
    simp only [h, Option.some.injEq, exists_eq_left', forall_eq']
    cases cl.revokeRefresh with
    | none => simp
    | some b => cases b <;> simp

/-- C22. When rotation is in force for the client, a refresh token that has just produced a response is revoked, and no
later history contains another response for it. -/
theorem C22_rotation (E : Env) (w : World) (hw : Reachable E w) (op : WOp) (ref : Nat) (client v : String)
    (req : TokenReq) (resp : TokenResp)
    (hresp : (step E w op).log = w.log ++ [.token ref client true v req resp])
    (hrot : RotationInForce E.cfg client) :
    (∃ i t, TokenAt (step E w op) ref i t ∧ t.value = v ∧ t.cls = .refreshToken ∧ t.revoked = true) ∧
    ∀ ops, ∃ l, (run E (step E w op) ops).log = (step E w op).log ++ l ∧
      ∀ ref' client' rf' req' resp', Event.token ref' client' rf' v req' resp' ∉ l := by
  have hwi := winv_reachable hw
  obtain ⟨hc, hw', h3⟩ := step_spec hwi (sidClosed_true E) op (fun _ _ _ => trivial)
  rcases h3 with h3 | ⟨e, h3, hne⟩
  · rw [hresp] at h3
    have := congrArg List.length h3
    simp at this
  · rw [hresp] at h3
    have he : e = .token ref client true v req resp := by simpa using h3.symm
    subst he
    rcases hne with ⟨_, _, _, _, h, _⟩ | ⟨s, rf', v', req', r', a, he, hp, ha, hout⟩
    · cases h
    · cases he
      have hf := tokFacts hwi (sidClosed_true E) hc hp ha hout
      obtain ⟨j, b, b', g2, x1, x2, x3, x4, x5, x6, x7, x8, x9, _⟩ := hf.base
      have hs := static_fields x7.static
      have hrev : b'.revoked = true := x9 rfl (by rw [hf.client]; exact (rotation_iff _ _).2 hrot)
      have hat : TokenAt (step E w op) s.ref j b' := ⟨g2, grantAt_spec.2 x5, x6⟩
      have hval : b'.value = v := hs.2.1.trans x2
      refine ⟨⟨j, b', hat, hval, hs.1.trans (by simpa using x3), hrev⟩, fun ops => ?_⟩
      have := C11_inactive_gives_no_response E (step E w op) (reachable_run hw [op]) s.ref j b' hat (.inl hrev) ops
      rw [hval] at this
      exact this

/-! ## C24 -/

/-- The grant an answer comes from. -/
def Event.ref : Event → Nat
  | .authz r _ _ => r
  | .token r _ _ _ _ _ => r

/-- C24. Once a grant is revoked it stays revoked and no later operation adds a token to it, and neither the
authorization endpoint nor the token endpoint ever answers from it again. -/
theorem C24_revoked_grant_is_dead (E : Env) (w : World) (hw : Reachable E w) (r : Nat) (g : Grant)
    (hg : GrantAt w r g) (hr : g.revoked = true) (ops : List WOp) :
    (∃ g', GrantAt (run E w ops) r g' ∧ g'.revoked = true ∧
      g'.issuedToken.map Token.value = g.issuedToken.map Token.value) ∧
    ∃ l, (run E w ops).log = w.log ++ l ∧ ∀ e ∈ l, e.ref ≠ r := by
  constructor
  · obtain ⟨g', h1, h2⟩ := grantLe_chain (chain_run hw ops) (grantAt_spec.1 hg)
    obtain ⟨h3, h4⟩ := h2.revoked hr
    refine ⟨g', grantAt_spec.2 h1, h3, ?_⟩
    apply List.ext_getElem?
    intro i
    simp only [List.getElem?_map]
    cases hi : g.issuedToken[i]? with
    | none =>
      have : g'.issuedToken[i]? = none := by
        rw [List.getElem?_eq_none_iff] at *; omega
      simp [this]
    | some t =>
      obtain ⟨t', h5, h6⟩ := h2.tokens i t hi
      simp [h5, (static_fields h6.static).2.1]
  · exact log_prefix_P (winv_reachable hw) (fun c => ∃ g, c.st.grantAt r = some g ∧ g.revoked = true)
      (by
        rintro c c' hc ⟨g, h1, h2⟩
        obtain ⟨g', h3, h4⟩ := grantLe_chain hc h1
        exact ⟨g', h3, (h4.revoked h2).1⟩)
      (fun e => e.ref ≠ r)
      (by
        rintro w op e hw hw' hc ⟨g, h1, h2⟩ hne he
        rcases hne with ⟨sid, ref, client, x, rfl, _, hout⟩ | ⟨s, rf', v', req', r', a, rfl, hp, ha, hout⟩
        · obtain ⟨s, h3, h4, h5, h6⟩ := hout.sess
          have h7 := (sessionOf_spec h3).1
          have : ref = r := he
          subst this
          rw [h4, show w.st = w.core.st from rfl, h1] at h7
          cases h7
          rw [h2] at h6; cases h6
        · have : s.ref = r := he
          subst this
          have hf := tokFacts hw (sidClosed_true E) hc hp ha hout
          have hb := hf.before
          rw [h1] at hb
          cases hb
          obtain ⟨j, b, b', g2, x1, x2, x3, x4, x5, x6, x7, x8, x9, ⟨a', t, _, y2, y3, y4, y5, k, hk, hmk⟩, _⟩ := hf.base
          obtain ⟨g3, h4, h5⟩ := grantLe_chain hc h1
          rw [x5] at h4
          cases h4
          obtain ⟨i, hi⟩ := List.getElem?_of_mem y2
          have hlen := (h5.revoked h2).2
          have hlt := (List.getElem?_eq_some_iff.1 hi).1
          obtain ⟨t', h6, h7⟩ := h5.tokens i _ (List.getElem?_eq_getElem (show i < s.grant.issuedToken.length by omega))
          rw [hi] at h6
          cases h6
          obtain ⟨k', sid', hk', hv', _⟩ := hw.core.prov _ _ i _ h1
            (List.getElem?_eq_getElem (show i < s.grant.issuedToken.length by omega))
          rw [← (static_fields h7.static).2.1, y3] at hv'
          have := (hmk.inj hv').1
          have hk'' : k' < w.n := hk'
          omega)
      ⟨g, grantAt_spec.1 hg, hr⟩ ops

/-! ## C26 -/

theorem genuine_closed (E : Env) : SidClosed E (GenuineSid E) := by
  rintro n sid ⟨k, u, c, g, hu, hc, hg, rfl⟩
  have hclean := E.encSid_clean k u c g hu hc hg
  have : compatibleSid E n (E.encSid k [u, c, g]) = E.encSid k [u, c, g] := by
    unfold compatibleSid
    rw [unpackSessionKey_clean hclean]
  rw [this]
  exact ⟨k, u, c, g, hu, hc, hg, rfl⟩

/-- Where a value that was handed out belongs. -/
def BoundTo (E : Env) (c : Core) (ref : Nat) (client v : String) : Prop :=
  ∃ g i t k cls sid u gid, c.st.grantAt ref = some g ∧ g.issuedToken[(i : Nat)]? = some t ∧ t.value = v ∧
    E.Made k cls sid v ∧ E.decrypt sid = .ok [u, client, gid]

theorem BoundTo.mono {E : Env} {S : String → Prop} {c c' : Core} (hc : Chain E S c c') {ref : Nat} {client v : String}
    (h : BoundTo E c ref client v) : BoundTo E c' ref client v := by
  obtain ⟨g, i, t, k, cls, sid, u, gid, h1, h2, h3, h4⟩ := h
  obtain ⟨g', t', h5, h6, h7⟩ := tokenAt_later hc h1 h2
  exact ⟨g', i, t', k, cls, sid, u, gid, h5, h6, (static_fields h7.static).2.1.trans h3, h4⟩

theorem BoundTo.unique {E : Env} {S : String → Prop} {c : Core} (hi : CInv E S c) {ref ref' : Nat} {client client' v : String}
    (h : BoundTo E c ref client v) (h' : BoundTo E c ref' client' v) : ref = ref' ∧ client = client' := by
  obtain ⟨g, i, t, k, cls, sid, u, gid, h1, h2, h3, h4, h5⟩ := h
  obtain ⟨g', i', t', k', cls', sid', u', gid', h1', h2', h3', h4', h5'⟩ := h'
  refine ⟨(hi.uniq _ _ _ _ _ _ _ _ h1 h1' h2 h2' (h3.trans h3'.symm)).1, ?_⟩
  obtain ⟨_, _, rfl⟩ := h4.inj h4'
  rw [h5] at h5'
  cases h5'
  rfl

/-- What is known of every answer in the log of a history with genuine session ids. -/
def EventBound (E : Env) (c : Core) : Event → Prop
  | .authz ref client x => ∀ v, x.code = some v → BoundTo E c ref client v
  | .token ref client _ v req r => req.clientId = some client ∧ BoundTo E c ref client v ∧
      ∀ x, r.refreshToken = some x → BoundTo E c ref client x

theorem log_bound (E : Env) (now : Int) (ops : List WOp) (hgen : GenuineHistory E ops) :
    ∀ e ∈ (run E { now := now } ops).log, EventBound E (run E { now := now } ops).core e := by
  refine log_invariant (E := E) (S := GenuineSid E) (genuine_closed E) (EventBound E) ?_ ?_ ops hgen _
    (winv_init E _ now) (by simp)
  · intro c c' e hc h
    cases e with
    | authz ref client x => exact fun v hv => (h v hv).mono hc
    | token ref client rf v req r => exact ⟨h.1, h.2.1.mono hc, fun x hx => (h.2.2 x hx).mono hc⟩
  · rintro w op e hw hw' hc (⟨sid, ref, client, x, rfl, _, hout⟩ | ⟨s, rf', v', req', r', a, rfl, hp, ha, hout⟩)
    · intro v hv
      obtain ⟨s, h3, rfl, rfl, h6⟩ := hout.sess
      obtain ⟨_, _, hdec, _⟩ := sessionOf_spec h3
      obtain ⟨gs, hgs, _, hcode, _⟩ := hout.minted
      obtain ⟨⟨k, _, hk⟩, t, ht, hv', _⟩ := hcode v hv
      obtain ⟨i, hi⟩ := List.getElem?_of_mem ht
      exact ⟨gs.g, i, t, k, .authorizationCode, sid, s.user, s.gid, hgs, hi, hv', minter_ok hk, hdec⟩
    · have hf := tokFacts hw (genuine_closed E) hc hp ha hout
      obtain ⟨sid0, hi0, hs0⟩ := sessionByToken_spec hf.sess
      obtain ⟨_, hsid, hdec, _⟩ := sessionOf_spec hs0
      obtain ⟨j, b, b', g2, x1, x2, x3, x4, x5, x6, x7, x8, x9, x10, x11, _⟩ := hf.base
      obtain ⟨k, sid, _, hk, hgsid⟩ := hw.core.prov _ _ _ _ hf.before x1
      have hs := static_fields x7.static
      rw [← hsid] at hdec
      refine ⟨hf.client, ?_, ?_⟩
      · rw [← x2] at hi0
        have hsid0 := hk.seal hi0
        have hsid0 : sid0 = sid := by simpa using hsid0
        subst hsid0
        have hsame : s.sid = sid0 := by
          rw [hsid]
          obtain ⟨k', u, c, g, hu, hcc, hg, rfl⟩ := hgsid
          unfold compatibleSid
          rw [unpackSessionKey_clean (E.encSid_clean k' u c g hu hcc hg)]
        rw [hsame] at hdec
        exact ⟨g2, j, b', k, b.cls, sid0, s.user, s.gid, x5, x6, hs.2.1.trans x2, by rw [← x2]; exact hk, hdec⟩
      · intro x hx
        obtain ⟨t, ht, hv, _, _, k', _, hk'⟩ := x11 x hx
        obtain ⟨i, hi⟩ := List.getElem?_of_mem ht
        exact ⟨g2, i, t, k', .refreshToken, s.sid, s.user, s.gid, x5, hi, hv, hk', hdec⟩

/-- C26. In every history in which authorization uses session ids that the provider made: a code that was delivered to
a client in an authorization response, and a refresh token that was delivered in a token response, is answered at the
token endpoint only for that same client and under the same grant, and that client is the one in the request. -/
theorem C26_client_binding (E : Env) (now : Int) (ops : List WOp) (hgen : GenuineHistory E ops)
    (ref : Nat) (client : String) (rf : Bool) (v : String) (req : TokenReq) (resp : TokenResp)
    (h : Event.token ref client rf v req resp ∈ (run E { now := now } ops).log) :
    req.clientId = some client ∧
    (∀ ref' client' x, Event.authz ref' client' x ∈ (run E { now := now } ops).log → x.code = some v →
      client' = client ∧ ref' = ref) ∧
    (∀ ref' client' rf' v' req' resp', Event.token ref' client' rf' v' req' resp' ∈ (run E { now := now } ops).log →
      resp'.refreshToken = some v → client' = client ∧ ref' = ref) := by
  have hb := log_bound E now ops hgen
  have hi := (winv_reachable ⟨now, ops, rfl⟩ : WInv E _ (run E { now := now } ops)).core
  obtain ⟨h1, h2, _⟩ := hb _ h
  refine ⟨h1, ?_, ?_⟩
  · intro ref' client' x hx hv
    obtain ⟨e1, e2⟩ := BoundTo.unique hi (hb _ hx v hv) h2
    exact ⟨e2, e1⟩
  · intro ref' client' rf' v' req' resp' hx hv
    obtain ⟨e1, e2⟩ := BoundTo.unique hi ((hb _ hx).2.2 v hv) h2
    exact ⟨e2, e1⟩

/-- C26. The client in a processed request is the one that authenticated when the request was parsed. -/
theorem C26_request_of_authenticated_client (E : Env) (now : Int) (ops : List WOp) (req : TokenReq)
    (h : req ∈ (run E { now := now } ops).pool) :
    ∃ client req0, WOp.parse client req0 ∈ ops ∧ req = { req0 with clientId := some client } := by
  have main : ∀ (ops : List WOp) (w : World), WInv E (fun _ => True) w → ∀ req ∈ (run E w ops).pool, req ∈ w.pool ∨
      ∃ client req0, WOp.parse client req0 ∈ ops ∧ req = { req0 with clientId := some client } := by
    intro ops
    induction ops with
    | nil => intro w _ req h; exact .inl h
    | cons op rest ih =>
      intro w hw req h
      obtain ⟨_, hw', _⟩ := step_spec hw (sidClosed_true E) op (fun _ _ _ => trivial)
      rcases ih (step E w op) hw' req h with h1 | ⟨c, r, h1, h2⟩
      · rcases pool_step hw op req h1 with h2 | ⟨c, r, rfl, h2⟩
        · exact .inl h2
        · exact .inr ⟨c, r, by simp, h2⟩
      · exact .inr ⟨c, r, by simp [h1], h2⟩
  rcases main ops _ (winv_init E _ now) req h with h | h
  · simp at h
  · exact h

/-! ## C27 -/

/-- C27. In every history, a token response for a code was given only to a request that carries the very redirect_uri
of the authorization request of the grant the code belongs to, if that one carried any. -/
theorem C27_redirect_uri_binding (E : Env) (now : Int) (ops : List WOp) (ref : Nat) (client v : String) (req : TokenReq)
    (resp : TokenResp) (h : Event.token ref client false v req resp ∈ (run E { now := now } ops).log) :
    ∃ g t ar, GrantAt (run E { now := now } ops) ref g ∧ t ∈ g.issuedToken ∧ t.value = v ∧
      g.authzReq = some ar ∧ ∀ u, ar.redirectUri = some u → req.redirectUri = some u := by
  let P : Core → Event → Prop := fun c e => ∀ ref client v req resp, e = .token ref client false v req resp →
    ∃ g t ar, c.st.grantAt ref = some g ∧ t ∈ g.issuedToken ∧ t.value = v ∧
      g.authzReq = some ar ∧ ∀ u, ar.redirectUri = some u → req.redirectUri = some u
  have := log_invariant (E := E) (S := fun _ => True) (sidClosed_true E) P
    (by
      rintro c c' e hc h ref client v req resp rfl
      obtain ⟨g, t, ar, h1, h2, h3, h4, h5⟩ := h _ _ _ _ _ rfl
      obtain ⟨i, hi⟩ := List.getElem?_of_mem h2
      obtain ⟨g', h6, h7⟩ := grantLe_chain hc h1
      obtain ⟨t', h8, h9⟩ := h7.tokens i t hi
      exact ⟨g', t', ar, h6, List.mem_of_getElem? h8, (static_fields h9.static).2.1.trans h3, by rw [h7.authzReq]; exact h4, h5⟩)
    (by
      rintro w op e hw hw' hc hne ref client v req resp rfl
      rcases hne with ⟨_, _, _, _, h, _⟩ | ⟨s, rf', v', req', r', a, he, hp, ha, hout⟩
      · cases h
      · cases he
        have hf := tokFacts hw (sidClosed_true E) hc hp ha hout
        obtain ⟨j, b, b', g2, x1, x2, x3, x4, x5, x6, x7, _⟩ := hf.base
        obtain ⟨ar, har, hu⟩ := hf.redirect rfl
        obtain ⟨g', h6, h7⟩ := grantLe_chain hc hf.before
        rw [x5] at h6
        cases h6
        exact ⟨g2, b', ar, x5, List.mem_of_getElem? x6, (static_fields x7.static).2.1.trans x2,
          by rw [h7.authzReq]; exact har, hu⟩)
    ops (fun _ _ _ => trivial) { now := now } (winv_init E _ now) (by simp)
  obtain ⟨g, t, ar, h1, h2⟩ := this _ h _ _ _ _ _ rfl
  exact ⟨g, t, ar, grantAt_spec.2 h1, h2⟩

end OidcOp
