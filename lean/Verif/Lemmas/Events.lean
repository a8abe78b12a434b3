/-
What the answers recorded in the log tell, and invariants of the log.
-/
import Verif.Lemmas.Steps
import Verif.Spec.World
import Verif.Lemmas.Encoding

namespace OidcOp
open Spec

theorem grantAt_spec {w : World} {r : Nat} {g : Grant} : GrantAt w r g ↔ w.core.st.grantAt r = some g :=
  grantAt_iff.symm

/-- What a recorded token response tells. -/
structure TokFacts (E : Env) (S : String → Prop) (w w' : World) (s : Sess) (rf : Bool) (v : String) (req : TokenReq)
    (r : TokenResp) : Prop where
  sess : sessionByToken E w v = .ok s
  sid : S s.sid
  client : req.clientId = some s.client
  before : w.core.st.grantAt s.ref = some s.grant
  base : ∃ (i : Nat) (b b' : Token) (g' : Grant), s.grant.issuedToken[i]? = some b ∧ b.value = v ∧
    b.cls = (if rf then .refreshToken else .authorizationCode) ∧ ItemActive b.item w.now ∧
    w'.core.st.grantAt s.ref = some g' ∧ g'.issuedToken[i]? = some b' ∧ TokenLe b b' ∧ b'.used = b.used + 1 ∧
    (rf = true → revokeRefreshFor E.cfg req.clientId = true → b'.revoked = true) ∧
    (∃ a t, r.accessToken = some a ∧ t ∈ g'.issuedToken ∧ t.value = a ∧ t.cls = .accessToken ∧ t.basedOn = some v ∧
      ∃ k, w.n ≤ k ∧ E.Made k .accessToken s.sid a) ∧
    (∀ x, r.refreshToken = some x → ∃ t, t ∈ g'.issuedToken ∧ t.value = x ∧ t.cls = .refreshToken ∧
      t.basedOn = some v ∧ ∃ k, w.n ≤ k ∧ E.Made k .refreshToken s.sid x) ∧
    (rf = true → ∃ sc, EffScope s.grant b.basedOn sc ∧ ∀ x ∈ r.scope, x ∈ sc)
  redirect : rf = false → ∃ ar, s.grant.authzReq = some ar ∧ ∀ u, ar.redirectUri = some u → req.redirectUri = some u

theorem tokFacts {E : Env} {S : String → Prop} {w w' : World} (hw : WInv E S w) (hcl : SidClosed E S)
    (hc : Chain E S w.core w'.core) {s : Sess} {rf : Bool} {v : String} {req : TokenReq} {r : TokenResp} {a : String}
    (hp : req ∈ w.pool) (ha : r.accessToken = some a) (h : HelperOut E w w' req r s rf v) :
    TokFacts E S w w' s rf v req r := by
  have hok := hw.pool req hp
  obtain ⟨gs, hgs, hf, ht⟩ := h.out
  have hg := sessionByToken_grantAt h.sess
  have hw' := cinv_chain hw.core hc
  -- locating the presented token
  have loc : ∀ (c : TokenClass) (b : Token), s.grant.getToken v = some b →
      (∃ (r : Nat) (g : Grant) (i : Nat) (t : Token), w.core.st.grantAt r = some g ∧ g.issuedToken[i]? = some t ∧
        t.value = v ∧ t.cls = c) →
      S s.sid ∧ ∃ i : Nat, s.grant.issuedToken[i]? = some b ∧ b.value = v ∧ b.cls = c := by
    rintro c b hb ⟨r0, g0, i, t, h1, h2, h3, h4⟩
    refine ⟨sessionByToken_sid hw.core hcl h.sess h1 h2 h3, ?_⟩
    obtain ⟨hm, hval⟩ := getToken_mem hb
    obtain ⟨j, hj⟩ := List.getElem?_of_mem hm
    obtain ⟨e1, e2⟩ := hw.core.uniq _ _ _ _ _ _ _ _ h1 hg h2 hj (h3.trans hval.symm)
    subst e1 e2
    rw [show w.core.st = w.st from rfl, hg] at h1
    cases h1
    rw [h2] at hj
    cases hj
    exact ⟨i, h2, h3, h4⟩
  have after : ∀ (b b' : Token) (i : Nat), s.grant.issuedToken[i]? = some b → b.value = v → gs.g.getToken v = some b' →
      gs.g.issuedToken[i]? = some b' ∧ TokenLe b b' := by
    intro b b' i h1 h2 h3
    obtain ⟨g', h4, h5⟩ := grantLe_chain hc (r := s.ref) (g := s.grant) hg
    rw [show w'.core.st = w'.st from rfl, hgs] at h4
    cases h4
    obtain ⟨b'', h6, h7⟩ := h5.tokens i b h1
    have h8 := hw'.getToken (r := s.ref) hgs h6
    rw [(static_fields h7.static).2.1, h2, h3] at h8
    cases h8
    exact ⟨h6, h7⟩
  cases rf with
  | false =>
    obtain ⟨hgt, hcode, hout⟩ := hf rfl
    obtain ⟨b, b', h1, h2, h3, h4, h5, _⟩ := hout.base
    obtain ⟨hsid, i, h6, h7, h8⟩ := loc _ b h1 (by
      obtain ⟨r0, g0, i, t, x1, x2, x3, x4⟩ := hok.code v hgt hcode
      exact ⟨r0, g0, i, t, x1, x2, x3, x4⟩)
    obtain ⟨h9, h10⟩ := after b b' i h6 h7 h2
    obtain ⟨⟨⟨k, hk, hmk⟩, t, ht1, ht2, ht3, ht4, _⟩, hact, _⟩ := h4 a ha
    refine ⟨h.sess, hsid, hout.client, hg, ⟨i, b, b', gs.g, h6, h7, by simpa using h8, hact, hgs, h9, h10, h3, by simp,
      ⟨a, t, ha, ht1, ht2, ht3, by rw [ht4, h7], k, hk, minter_ok hmk⟩, ?_, by simp⟩, fun _ => ?_⟩
    · intro x hx
      obtain ⟨⟨⟨k, hk, hmk⟩, t, ht1, ht2, ht3, ht4, _⟩, _⟩ := h5 x hx
      exact ⟨t, ht1, ht2, ht3, by rw [ht4, h7], k, hk, minter_ok hmk⟩
    · obtain ⟨ar, har, hred⟩ := hout.redirect
      refine ⟨ar, har, fun u hu => ?_⟩
      unfold redirectCheck at hred
      rw [hu] at hred
      simp only [] at hred
      split at hred
      · cases hred
      · rename_i u' hu'; simp at hred; rw [hu', hred]
  | true =>
    obtain ⟨hgt, hcode, hout⟩ := ht rfl
    obtain ⟨b, b', found, a', h1, h2, h3, h3', hfound, hrsc, ha', h4, h5, _⟩ := hout.base
    rw [ha] at ha'; cases ha'
    obtain ⟨r0, g0, i0, t0, x1, x2, x3, x4, _, x6⟩ := hok.refresh v hgt hcode
    obtain ⟨hsid, i, h6, h7, h8⟩ := loc _ b h1 ⟨r0, g0, i0, t0, x1, x2, x3, x4⟩
    obtain ⟨h9, h10⟩ := after b b' i h6 h7 h2
    obtain ⟨⟨⟨k, hk, hmk⟩, t, ht1, ht2, ht3, ht4, _⟩, hact, _⟩ := h4
    refine ⟨h.sess, hsid, hout.client, hg, ⟨i, b, b', gs.g, h6, h7, by simpa using h8, hact, hgs, h9, h10, h3, fun _ => h3',
      ⟨a, t, ha, ht1, ht2, ht3, by rw [ht4, h7], k, hk, minter_ok hmk⟩, ?_, fun _ => ?_⟩, by simp⟩
    · intro x hx
      obtain ⟨⟨⟨k, hk, hmk⟩, t, ht1, ht2, ht3, ht4, _⟩, _⟩ := h5 x hx
      exact ⟨t, ht1, ht2, ht3, by rw [ht4, h7], k, hk, minter_ok hmk⟩
    · rw [hrsc]
      cases hq : req.scope with
      | none => exact ⟨found, hw.core.effScope hg h6 hfound, fun x hx => hx⟩
      | some sc =>
        obtain ⟨e1, e2⟩ := hw.core.uniq _ _ _ _ _ _ _ _ x1 hg x2 h6 (x3.trans h7.symm)
        subst e1 e2
        rw [show w.core.st = w.st from rfl, hg] at x1
        cases x1
        rw [x2] at h6
        cases h6
        obtain ⟨f, hf1, hf2⟩ := x6 sc hq
        exact ⟨f, hf1, hf2⟩

/-- A property of log entries that is established when the entry is written and survives atomic steps holds of
the whole log. -/
theorem log_invariant {E : Env} {S : String → Prop} (hcl : SidClosed E S) (P : Core → Event → Prop)
    (mono : ∀ c c' e, Chain E S c c' → P c e → P c' e)
    (new : ∀ w op e, WInv E S w → WInv E S (step E w op) → Chain E S w.core (step E w op).core →
      NewEvent E w op (step E w op) e → P (step E w op).core e)
    (ops : List WOp) (hop : ∀ sid req, .authorize sid req ∈ ops → S sid) (w : World) (hw : WInv E S w)
    (h : ∀ e ∈ w.log, P w.core e) : ∀ e ∈ (run E w ops).log, P (run E w ops).core e := by
  induction ops generalizing w with
  | nil => exact h
  | cons op r ih =>
    obtain ⟨h1, h2, h3⟩ := step_spec hw hcl op (fun sid req h => hop sid req (by simp [h]))
    refine ih (fun sid req h => hop sid req (by simp [h])) (step E w op) h2 ?_
    intro e he
    rcases h3 with h3 | ⟨e', h3, h4⟩
    · rw [h3] at he; exact mono _ _ _ h1 (h e he)
    · rw [h3] at he
      rcases List.mem_append.1 he with h5 | h5
      · exact mono _ _ _ h1 (h e h5)
      · simp at h5; subst h5; exact new w op e hw h2 h1 h4

theorem winv_reachable {E : Env} {w : World} (h : Reachable E w) : WInv E (fun _ => True) w := by
  obtain ⟨now, ops, rfl⟩ := h
  exact (run_spec (winv_init E _ now) (sidClosed_true E) ops (fun _ _ _ => trivial)).2

theorem chain_run {E : Env} {w : World} (h : Reachable E w) (ops : List WOp) :
    Chain E (fun _ => True) w.core (run E w ops).core :=
  (run_spec (winv_reachable h) (sidClosed_true E) ops (fun _ _ _ => trivial)).1

theorem reachable_run {E : Env} {w : World} (h : Reachable E w) (ops : List WOp) : Reachable E (run E w ops) := by
  obtain ⟨now, ops', rfl⟩ := h
  exact ⟨now, ops' ++ ops, by rw [run_append]⟩

theorem reachable_init (E : Env) (now : Int) : Reachable E { now := now } := ⟨now, [], rfl⟩

theorem log_prefix {E : Env} {w : World} (hw : WInv E (fun _ => True) w) (ops : List WOp) :
    ∃ l, (run E w ops).log = w.log ++ l := by
  induction ops generalizing w with
  | nil => exact ⟨[], by simp [run]⟩
  | cons op r ih =>
    obtain ⟨_, h2, h3⟩ := step_spec hw (sidClosed_true E) op (fun _ _ _ => trivial)
    obtain ⟨l, hl⟩ := ih h2
    have hr : run E w (op :: r) = run E (step E w op) r := rfl
    rcases h3 with h3 | ⟨e, h3, _⟩
    · exact ⟨l, by rw [hr, hl, h3]⟩
    · exact ⟨e :: l, by rw [hr, hl, h3]; simp⟩

theorem log_prefix_P {E : Env} {w : World} (hw : WInv E (fun _ => True) w) (P : Core → Prop)
    (mono : ∀ c c', Chain E (fun _ => True) c c' → P c → P c') (Q : Event → Prop)
    (new : ∀ w op e, WInv E (fun _ => True) w → WInv E (fun _ => True) (step E w op) →
      Chain E (fun _ => True) w.core (step E w op).core → P w.core → NewEvent E w op (step E w op) e → Q e)
    (hP : P w.core) (ops : List WOp) :
    ∃ l, (run E w ops).log = w.log ++ l ∧ ∀ e ∈ l, Q e := by
  induction ops generalizing w with
  | nil => exact ⟨[], by simp [run]⟩
  | cons op r ih =>
    obtain ⟨h1, h2, h3⟩ := step_spec hw (sidClosed_true E) op (fun _ _ _ => trivial)
    obtain ⟨l, hl, hQ⟩ := ih h2 (mono _ _ h1 hP)
    have hr : run E w (op :: r) = run E (step E w op) r := rfl
    rcases h3 with h3 | ⟨e, h3, h4⟩
    · exact ⟨l, by rw [hr, hl, h3], hQ⟩
    · refine ⟨e :: l, by rw [hr, hl, h3]; simp, ?_⟩
      intro e' he'
      rcases List.mem_cons.1 he' with rfl | he'
      · exact new w op e' hw h2 h1 hP h4
      · exact hQ e' he'

/-- Parsing does not change the client id of a request that has one. -/
theorem tokenParse_client {E : Env} {w : World} {client c : String} {req req' : TokenReq}
    (h : (tokenParse E w client { req with clientId := some c }).1 = .ok (.req req')) :
    req' = { req with clientId := some c } := by
  unfold tokenParse at h
  simp only [] at h
  split at h
  · cases h
  · split at h
    · cases h
    · split at h
      · cases h
      · split at h
        · unfold codeParseW at h
          simp only [] at h
          split at h
          · cases h
          · split at h
            · split at h <;> cases h
            · simp only [] at h
              obtain ⟨_, t, _, _, _, _, h5, _, h7⟩ := codeParse_req (Prod.ext h rfl)
              rw [h5, h7 c rfl]
        · split at h
          · unfold refreshParseW at h
            simp only [] at h
            split at h
            · cases h
            · split at h
              · split at h <;> cases h
              · exact (refreshParse_req h).1
          · cases h

/-- Without the separator character a text is no session key. -/
theorem unpackSessionKey_clean {sid : String} (h : ';' ∉ sid.toList) : unpackSessionKey sid.toList = [sid.toList] := by
  have hd : ¬ ContainsDivider sid.toList := by
    rintro ⟨x, y, he⟩
    exact h (by rw [he]; simp)
  unfold unpackSessionKey pySplit
  rw [splitGo_last _ hd]
  simp

theorem effScope_unique {g : Grant} (hd : (g.issuedToken.map Token.value).Nodup) {o : Option String} {a b : List String}
    (h : EffScope g o a) (h' : EffScope g o b) : a = b := by
  induction h generalizing b with
  | root => cases h'; rfl
  | own ht hs =>
    rename_i t
    generalize ho : some t.value = o at h'
    cases h' with
    | root => cases ho
    | own ht' hs' => rw [nodup_value_inj hd ht ht' (by simpa using ho)]
    | up ht' hs' _ =>
      have := nodup_value_inj hd ht ht' (by simpa using ho)
      subst this
      exact absurd hs' hs
  | up ht hs _ ih =>
    rename_i t _ _
    generalize ho : some t.value = o at h'
    cases h' with
    | root => cases ho
    | own ht' hs' =>
      have := nodup_value_inj hd ht ht' (by simpa using ho)
      subst this
      exact absurd hs hs'
    | up ht' hs' h'' =>
      have := nodup_value_inj hd ht ht' (by simpa using ho)
      subst this
      exact ih h''

theorem pool_step {E : Env} {w : World} (hw : WInv E (fun _ => True) w) (op : WOp) :
    ∀ req ∈ (step E w op).pool, req ∈ w.pool ∨
      ∃ client req0, op = .parse client req0 ∧ req = { req0 with clientId := some client } := by
  intro req h
  cases op with
  | tick d => exact .inl h
  | login u c rq ev => exact .inl h
  | again u c rq ev => exact .inl h
  | addGrant u c g => exact .inl h
  | authorize sid rq => exact .inl ((authzPart2_spec E (fun _ => True) w sid trivial rq).2.1 ▸ h)
  | parse client rq =>
    obtain ⟨_, h2, _, h4⟩ := tokenParse_spec E (fun _ => True) w client { rq with clientId := some client }
    have hst : step E w (.parse client rq) = (match tokenParse E w client { rq with clientId := some client } with
      | (.ok (.req r), w') => { w' with pool := w'.pool ++ [r] }
      | (_, w') => w') := rfl
    rw [hst] at h
    split at h
    · rename_i r w' hp
      rw [hp] at h2
      simp only [] at h2 h
      rcases List.mem_append.1 h with h5 | h5
      · rw [h2] at h5; exact .inl h5
      · simp at h5
        subst h5
        exact .inr ⟨client, rq, rfl, tokenParse_client (by rw [hp])⟩
    · rename_i r w' _ hp
      rw [hp] at h2
      simp only [] at h2 h
      rw [h2] at h; exact .inl h
  | process i kw =>
    have hst : step E w (.process i kw) = (match w.pool[i]? with
      | none => w
      | some req => (tokenProcess E w kw req).2) := rfl
    rw [hst] at h
    cases hi : w.pool[i]? with
    | none => rw [hi] at h; exact .inl h
    | some rq =>
      rw [hi] at h
      simp only [] at h
      rw [(tokenProcess_spec hw (sidClosed_true E) kw (List.mem_of_getElem? hi)).2.1] at h
      exact .inl h
  | revokeToken sid v rec => exact .inl ((revokeTokenW_chain E (fun _ => True) w sid v rec).2.1 ▸ h)
  | revokeGrant sid =>
    left
    have hst : step E w (.revokeGrant sid) = revokeGrantW E w sid := rfl
    rw [hst] at h
    unfold revokeGrantW at h
    split at h
    · exact h
    · split at h <;> exact h
  | revokeClientSession sid =>
    left
    have hst : step E w (.revokeClientSession sid) = revokeClientSessionW E w sid := rfl
    rw [hst] at h
    unfold revokeClientSessionW at h
    split at h <;> exact h
  | removeSession sid =>
    left
    have hst : step E w (.removeSession sid) = removeSessionW E w sid := rfl
    rw [hst] at h
    unfold removeSessionW at h
    split at h <;> exact h

/-- Token positions are found again later. -/
theorem tokenAt_later {E : Env} {S : String → Prop} {c c' : Core} (h : Chain E S c c') {r i : Nat} {g : Grant} {t : Token}
    (hg : c.st.grantAt r = some g) (ht : g.issuedToken[i]? = some t) :
    ∃ g' t', c'.st.grantAt r = some g' ∧ g'.issuedToken[i]? = some t' ∧ TokenLe t t' := by
  obtain ⟨g', h1, h2⟩ := grantLe_chain h hg
  obtain ⟨t', h3, h4⟩ := h2.tokens i t ht
  exact ⟨g', t', h1, h3, h4⟩

theorem not_active_of_spent {t : Token} {now at' : Int} (h : Spent t now) (hle : now ≤ at') : ¬ ItemActive t.item at' := by
  rintro ⟨h1, h2, _, h4⟩
  rcases h with h | ⟨m, hm, hu⟩ | ⟨h, he⟩
  · simp [Token.item, h] at h1
  · have := h2 m hm
    simp [Token.item] at this
    omega
  · have := h4 h
    simp [Token.item] at this
    omega

theorem spent_mono {t t' : Token} (h : TokenLe t t') {now now' : Int} (hle : now ≤ now') (hs : Spent t now) :
    Spent t' now' := by
  have hf := static_fields h.static
  rcases hs with h1 | ⟨m, hm, hu⟩ | ⟨h1, h2⟩
  · exact .inl (h.revoked h1)
  · exact .inr (.inl ⟨m, by rw [hf.2.2.2.1]; exact hm, by have := h.used; omega⟩)
  · exact .inr (.inr ⟨by rw [hf.2.2.2.2.2.2.1]; exact h1, by rw [hf.2.2.2.2.2.2.1]; omega⟩)

end OidcOp
