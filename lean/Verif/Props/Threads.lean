/-
C15: the at-most-one guarantee when the two parts of a code exchange of different threads interleave.
-/
import Verif.Model.Threads
import Verif.Props.WorldExamples

namespace OidcOp
open Spec

/-- The suspended thread is about to answer for the code `v`. -/
def Pending.aboutTo (v : String) (p : Pending) : Bool := p.code == v && p.resp.accessToken.isSome

/-- Some code token with value `v` has been used. -/
def CodeUsed (v : String) (c : Core) : Prop :=
  ∃ r g i t, c.st.grantAt r = some g ∧ g.issuedToken[(i : Nat)]? = some t ∧ t.value = v ∧ t.cls = .authorizationCode ∧
    1 ≤ t.used

theorem CodeUsed.mono {E : Env} {S : String → Prop} {v : String} {c c' : Core} (hc : Chain E S c c') (h : CodeUsed v c) :
    CodeUsed v c' := by
  obtain ⟨r, g, i, t, h1, h2, h3, h4, h5⟩ := h
  obtain ⟨g'', t'', h6, h7, h8⟩ := tokenAt_later hc h1 h2
  have hf := static_fields h8.static
  exact ⟨r, g'', i, t'', h6, h7, hf.2.1.trans h3, hf.1.trans h4, Nat.le_trans h5 h8.used⟩

/-- A used code is not active. -/
theorem CodeUsed.inactive {E : Env} {S : String → Prop} {c : Core} (hi : CInv E S c) {v : String} (h : CodeUsed v c)
    {r : Nat} {g : Grant} {i : Nat} {b : Token} {now : Int} (hg : c.st.grantAt r = some g)
    (hb : g.issuedToken[i]? = some b) (hv : b.value = v) : ¬ ItemActive b.item now := by
  intro ha
  obtain ⟨r', g', i', t, h1, h2, h3, h4, h5⟩ := h
  obtain ⟨e1, e2⟩ := hi.uniq _ _ _ _ _ _ _ _ h1 hg h2 hb (h3.trans hv.symm)
  subst e1 e2
  rw [h1] at hg
  cases hg
  rw [h2] at hb
  cases hb
  have hm := hi.once _ _ _ _ h1 h2 h4
  have := ha.2.1 1 hm
  simp [Token.item] at this
  omega

/-- Invariant of the provider with threads. -/
structure TInv (E : Env) (t : TWorld) : Prop where
  w : WInv E (fun _ => True) t.w
  pend : ∀ p ∈ t.pending, ∃ g i b, t.w.core.st.grantAt p.sess.ref = some g ∧ g.issuedToken[(i : Nat)]? = some b ∧
    b.value = p.code ∧ b.cls = .authorizationCode
  used : ∀ v, 1 ≤ t.w.log.countP (isCodeResponse v) → CodeUsed v t.w.core

theorem winv_chain {E : Env} {S : String → Prop} {w w' : World} (hw : WInv E S w) (hc : Chain E S w.core w'.core)
    (hp : w'.pool = w.pool) : WInv E S w' :=
  ⟨cinv_chain hw.core hc, fun req hr => (hw.pool req (hp ▸ hr)).chain hc⟩

theorem pend_chain {E : Env} {S : String → Prop} {c c' : Core} (hc : Chain E S c c') {p : Pending}
    (h : ∃ g i b, c.st.grantAt p.sess.ref = some g ∧ g.issuedToken[(i : Nat)]? = some b ∧ b.value = p.code ∧
      b.cls = .authorizationCode) :
    ∃ g i b, c'.st.grantAt p.sess.ref = some g ∧ g.issuedToken[(i : Nat)]? = some b ∧ b.value = p.code ∧
      b.cls = .authorizationCode := by
  obtain ⟨g, i, b, h1, h2, h3, h4⟩ := h
  obtain ⟨g', b', h5, h6, h7⟩ := tokenAt_later hc h1 h2
  have hf := static_fields h7.static
  exact ⟨g', i, b', h5, h6, hf.2.1.trans h3, hf.1.trans h4⟩

/-- What a step with threads does: the invariant is kept, and once a code has been answered the number of answers
plus the number of threads about to answer does not grow. -/
theorem tstep_spec {E : Env} {t : TWorld} (h : TInv E t) (op : TOp) :
    TInv E (tstep E t op) ∧
    (∀ v, CodeUsed v t.w.core → CodeUsed v (tstep E t op).w.core) ∧
    ∀ v, CodeUsed v t.w.core →
      (tstep E t op).w.log.countP (isCodeResponse v) + (tstep E t op).pending.countP (Pending.aboutTo v) ≤
      t.w.log.countP (isCodeResponse v) + t.pending.countP (Pending.aboutTo v) := by
  cases op with
  | whole op =>
    obtain ⟨hc, hw', h3⟩ := step_spec h.w (sidClosed_true E) op (fun _ _ _ => trivial)
    have hn : tstep E t (.whole op) = { t with w := step E t.w op } := rfl
    rw [hn]
    have key : ∀ v, (step E t.w op).log.countP (isCodeResponse v) = t.w.log.countP (isCodeResponse v) ∨
        (¬ CodeUsed v t.w.core ∧ CodeUsed v (step E t.w op).core) := by
      intro v
      rcases h3 with h3 | ⟨e, h3, hne⟩
      · exact .inl (by rw [h3])
      · by_cases he : isCodeResponse v e = true
        · right
          rcases hne with ⟨_, _, _, _, h', _⟩ | ⟨s, rf, v', req, r', a, he', hp, ha, hout⟩
          · subst h'; cases he
          · subst he'
            cases rf with
            | true => cases he
            | false =>
              simp only [isCodeResponse, decide_eq_true_eq] at he
              subst he
              have hf := tokFacts h.w (sidClosed_true E) hc hp ha hout
              obtain ⟨j, b, b', g2, y1, y2, y3, y4, y5, y6, y7, y8, _⟩ := hf.base
              have hs := static_fields y7.static
              exact ⟨fun hu => hu.inactive h.w.core hf.before y1 y2 y4,
                _, g2, j, b', y5, y6, hs.2.1.trans y2, hs.1.trans (by simpa using y3), by omega⟩
        · left
          rw [h3, List.countP_append, List.countP_singleton, if_neg he]; rfl
    refine ⟨⟨hw', fun p hp => pend_chain hc (h.pend p hp), fun v hv => ?_⟩, fun v hv => hv.mono hc, fun v hv => ?_⟩
    · rcases key v with h4 | ⟨_, h4⟩
      · simp only [] at hv
        rw [h4] at hv; exact (h.used v hv).mono hc
      · exact h4
    · rcases key v with h4 | ⟨h4, _⟩
      · simp only [h4]; omega
      · exact absurd hv h4
  | start i kw =>
    have hst : tstep E t (.start i kw) = (match t.w.pool[i]? with
      | some req => if req.grantType = some "authorization_code" then threadStart E t kw req else t
      | none => t) := rfl
    rw [hst]
    split
    · rename_i req hi
      split
      · rename_i hgt
        have hok := h.w.pool req (List.mem_of_getElem? hi)
        unfold threadStart
        split
        · exact ⟨h, fun _ h => h, fun _ _ => Nat.le_refl _⟩
        · rename_i code hcode
          obtain ⟨r, g, i0, tk, h1, h2, h3, h4⟩ := hok.code code hgt hcode
          have hplus : spaceToPlus code = code := by
            obtain ⟨k, sid, _, hk, _⟩ := h.w.core.prov r g i0 tk h1 h2
            rw [← h3]; exact hk.plus
          simp only [hplus]
          split
          · exact ⟨h, fun _ h => h, fun _ _ => Nat.le_refl _⟩
          · rename_i s hs
            have hg := sessionByToken_grantAt hs
            have loc : ∀ b, s.grant.getToken code = some b → s.grant.issuedToken[i0]? = some b ∧ b.value = code ∧
                b.cls = .authorizationCode := by
              intro b hb
              obtain ⟨hm, hval⟩ := getToken_mem hb
              obtain ⟨j, hj⟩ := List.getElem?_of_mem hm
              obtain ⟨e1, e2⟩ := h.w.core.uniq _ _ _ _ _ _ _ _ h1 hg h2 hj (h3.trans hval.symm)
              subst e1 e2
              rw [show t.w.core.st = t.w.st from rfl, hg] at h1
              cases h1
              rw [h2] at hj
              cases hj
              exact ⟨h2, h3, h4⟩
            have htri := codeMint_tri (mk := minter E s.sid) (clock := t.w.now) E.cfg kw s.client req code
              ⟨s.grant, t.w.n⟩ (fun b hb => .inl (loc b hb).2.2)
            obtain ⟨hm1, hm2⟩ := htri _ rfl
            cases hcp : codeMint E.cfg (minter E s.sid) t.w.now kw s.client req code ⟨s.grant, t.w.n⟩ with
            | mk res gs =>
              rw [hcp] at hm1 hm2
              obtain ⟨hch, hat⟩ := commit_chain (S := fun _ => True) hg hm1 (.inl trivial)
              have hother : TInv E { t with w := t.w.commit s gs } :=
                ⟨winv_chain h.w hch rfl, fun p hp => pend_chain hch (h.pend p hp), fun v hv => (h.used v hv).mono hch⟩
              cases res with
              | error e => exact ⟨hother, fun v hv => hv.mono hch, fun _ _ => Nat.le_refl _⟩
              | ok m =>
                cases m with
                | err c => exact ⟨hother, fun v hv => hv.mono hch, fun _ _ => Nat.le_refl _⟩
                | ready r' =>
                  obtain ⟨b, h5, h6, h7, _⟩ := (hm2 (.ready r') rfl r' rfl).base
                  obtain ⟨l1, l2, l3⟩ := loc b h5
                  refine ⟨⟨hother.w, fun p hp => ?_, hother.used⟩, fun v hv => hv.mono hch, fun v hv => ?_⟩
                  · rcases List.mem_append.1 hp with hp | hp
                    · exact hother.pend p hp
                    · simp at hp
                      subst hp
                      exact pend_chain hch ⟨s.grant, i0, b, hg, l1, l2, l3⟩
                  · simp only [List.countP_append, List.countP_singleton]
                    rw [if_neg]
                    · exact Nat.le_refl _
                    · intro hab
                      simp only [Pending.aboutTo, Bool.and_eq_true, beq_iff_eq, Option.isSome_iff_exists] at hab
                      obtain ⟨e1, a, ha⟩ := hab
                      exact hv.inactive h.w.core (r := s.ref) hg l1 (l2.trans e1) (h7 a ha).2.1
      · exact ⟨h, fun _ h => h, fun _ _ => Nat.le_refl _⟩
    · exact ⟨h, fun _ h => h, fun _ _ => Nat.le_refl _⟩
  | finish j =>
    have hst : tstep E t (.finish j) = (match t.pending[j]? with
      | none => t
      | some p => { w := threadFinish E t p, pending := t.pending.eraseIdx j }) := rfl
    rw [hst]
    cases hj : t.pending[j]? with
    | none => exact ⟨h, fun _ h => h, fun _ _ => Nat.le_refl _⟩
    | some p =>
      have hm := List.mem_of_getElem? hj
      obtain ⟨g, i, b, h1, h2, h3, h4⟩ := h.pend p hm
      have hobj : t.w.st.obj p.sess.ref = some (.grant g) := grantAt_iff.1 h1
      let w' : World := { t.w with st := t.w.st.put p.sess.ref (.grant (g.updateToken p.code Token.registerUsage)) }
      have hc : Chain E (fun _ => True) t.w.core w'.core :=
        .one (.micro t.w.core p.sess.ref "" g ⟨g.updateToken p.code Token.registerUsage, t.w.n⟩ h1 (.inl trivial)
          (.use ⟨g, t.w.n⟩ p.code))
      have hw' : WInv E (fun _ => True) w' := winv_chain h.w hc rfl
      have hused : CodeUsed p.code w'.core := by
        obtain ⟨g', b', h5, h6, h7⟩ := tokenAt_later hc h1 h2
        have hf := static_fields h7.static
        refine ⟨_, g', i, b', h5, h6, hf.2.1.trans h3, hf.1.trans h4, ?_⟩
        have hat := grantAt_put_self (s := t.w.st) (r := p.sess.ref) h1 (g.updateToken p.code Token.registerUsage)
        rw [show w'.core.st = t.w.st.put p.sess.ref (.grant (g.updateToken p.code Token.registerUsage)) from rfl, hat] at h5
        cases h5
        have hget : (g.updateToken p.code Token.registerUsage).getToken p.code = some b' := by
          have := hw'.core.getToken (r := p.sess.ref) hat h6
          rwa [hf.2.1, h3] at this
        rw [getToken_updateToken _ _ Token.registerUsage (fun _ => rfl)] at hget
        have hb : g.getToken p.code = some b := by
          have := h.w.core.getToken (r := p.sess.ref) h1 h2
          rwa [h3] at this
        rw [hb] at hget
        simp at hget
        rw [← hget]
        simp [Token.registerUsage]
      have herase : ∀ v, (t.pending.eraseIdx j).countP (Pending.aboutTo v) + (if p.aboutTo v then 1 else 0) =
          t.pending.countP (Pending.aboutTo v) := by
        intro v
        have hlt := (List.getElem?_eq_some_iff.1 hj)
        have : t.pending = t.pending.take j ++ p :: t.pending.drop (j + 1) := by
          rw [← hlt.2, List.getElem_cons_drop, List.take_append_drop]
        rw [List.eraseIdx_eq_take_drop_succ]
        conv => rhs; rw [this]
        simp only [List.countP_append, List.countP_cons]
        omega
      have hsub : ∀ q, q ∈ t.pending.eraseIdx j → q ∈ t.pending := fun q hq => (List.eraseIdx_sublist _ _).subset hq
      have silent : TInv E { w := w', pending := t.pending.eraseIdx j } ∧
          (∀ v, CodeUsed v t.w.core → CodeUsed v w'.core) ∧
          ∀ v, CodeUsed v t.w.core →
            w'.log.countP (isCodeResponse v) + (t.pending.eraseIdx j).countP (Pending.aboutTo v) ≤
            t.w.log.countP (isCodeResponse v) + t.pending.countP (Pending.aboutTo v) := by
        refine ⟨⟨hw', fun q hq => pend_chain hc (h.pend q (hsub q hq)), fun v hv => (h.used v hv).mono hc⟩,
          fun v hv => hv.mono hc, fun v hv => ?_⟩
        have := herase v
        show t.w.log.countP _ + _ ≤ _
        omega
      simp only []
      unfold threadFinish
      rw [hobj]
      simp only []
      split
      · exact silent
      · rename_i a ha
        split
        · exact silent
        · refine ⟨⟨⟨hw'.core, hw'.pool⟩, silent.1.pend, fun v hv => ?_⟩, fun v hv => hv.mono hc, fun v hv => ?_⟩
          · simp only [List.countP_append, List.countP_singleton] at hv
            by_cases he : isCodeResponse v (.token p.sess.ref p.sess.client false p.code p.req p.resp) = true
            · simp only [isCodeResponse, decide_eq_true_eq] at he
              subst he
              exact hused
            · rw [if_neg he] at hv
              exact (h.used v (by simpa using hv)).mono hc
          · have h5 := herase v
            simp only [List.countP_append, List.countP_singleton]
            by_cases he : p.code = v
            · have : p.aboutTo v = true := by simp [Pending.aboutTo, he, ha]
              rw [if_pos this] at h5
              rw [if_pos (by simp [isCodeResponse, he])]
              omega
            · rw [if_neg (by simp [isCodeResponse, he])]
              omega

theorem tinv_run {E : Env} {t : TWorld} (h : TInv E t) (ops : List TOp) : TInv E (trun E t ops) := by
  induction ops generalizing t with
  | nil => exact h
  | cons op rest ih => exact ih (tstep_spec h op).1

theorem tinv_init (E : Env) (now : Int) : TInv E { w := { now := now } } :=
  ⟨winv_init E _ now, by simp, by simp⟩

/-- C15 (partial).  What holds with threads: once a code has been answered, further answers for it can only come from
threads that were already past minting at that moment; a thread that starts afterwards never answers.  Missing: the
threads that were past minting do answer, so the bound is not one; see `C15_threads_refuted`. -/
theorem C15_threads_partial (E : Env) (now : Int) (ops ops' : List TOp) (v : String)
    (h : 1 ≤ (trun E { w := { now := now } } ops).w.log.countP (isCodeResponse v)) :
    (trun E (trun E { w := { now := now } } ops) ops').w.log.countP (isCodeResponse v) ≤
      (trun E { w := { now := now } } ops).w.log.countP (isCodeResponse v) +
      (trun E { w := { now := now } } ops).pending.countP
        (fun p => p.code == v && p.resp.accessToken.isSome) := by
  have hi := tinv_run (tinv_init E now) ops
  have hu := hi.used v h
  generalize trun E { w := { now := now } } ops = t at hi hu
  have main : ∀ (ops' : List TOp) (t : TWorld), TInv E t → CodeUsed v t.w.core →
      (trun E t ops').w.log.countP (isCodeResponse v) + (trun E t ops').pending.countP (Pending.aboutTo v) ≤
      t.w.log.countP (isCodeResponse v) + t.pending.countP (Pending.aboutTo v) := by
    intro ops'
    induction ops' with
    | nil => intro t _ _; exact Nat.le_refl _
    | cons op rest ih =>
      intro t hi hu
      obtain ⟨h1, h2, h3⟩ := tstep_spec hi op
      exact Nat.le_trans (ih _ h1 (h2 v hu)) (h3 v hu)
  exact Nat.le_trans (Nat.le_add_right _ _) (main ops' t hi hu)

/-- When the two parts of an exchange are not separated, the system with threads does what `process` does. -/
theorem C15_uninterrupted (E : Env) (w : World) (kw : Option Bool) (i : Nat) (req : TokenReq)
    (hi : w.pool[i]? = some req) (hgt : req.grantType = some "authorization_code") :
    trun E { w := w } [.start i kw, .finish 0] = { w := step E w (.process i kw) } := by
  have h1 : step E w (.process i kw) = (tokenProcess E w kw req).2 := by
    have hst : step E w (.process i kw) = (match w.pool[i]? with
      | none => w
      | some req => (tokenProcess E w kw req).2) := rfl
    rw [hst, hi]
  have h2 : tstep E { w := w } (.start i kw) = threadStart E { w := w } kw req := by
    have hst : tstep E { w := w } (.start i kw) = (match w.pool[i]? with
      | some req => if req.grantType = some "authorization_code" then threadStart E { w := w } kw req else { w := w }
      | none => { w := w }) := rfl
    rw [hst, hi]
    simp only [hgt, if_true]
  have h3 : trun E { w := w } [.start i kw, .finish 0] = tstep E (threadStart E { w := w } kw req) (.finish 0) := by
    unfold trun
    simp only [List.foldl_cons, List.foldl_nil, h2]
  rw [h3, h1]
  unfold tokenProcess tokenHelper threadStart
  simp only [hgt, if_true]
  cases hcode : req.code with
  | none => rfl
  | some code =>
    simp only []
    cases hs : sessionByToken E w (spaceToPlus code) with
    | error e =>
      show ({ w := w } : TWorld) = { w := (if _ then _ else _ : Except Exc HRes × World).2 }
      split <;> rfl
    | ok s =>
      have hg := sessionByToken_grantAt hs
      simp only [codeProcess, SE.bind_apply]
      cases hm : codeMint E.cfg (minter E s.sid) w.now kw s.client req (spaceToPlus code) ⟨s.grant, w.n⟩ with
      | mk res gs =>
        cases res with
        | error e =>
          show ({ w := w.commit s gs } : TWorld) = { w := (if _ then _ else _ : Except Exc HRes × World).2 }
          split <;> rfl
        | ok m =>
          cases m with
          | err c => rfl
          | ready r =>
            simp only [codeFinish, List.nil_append, tstep]
            have hcom : ∀ gs' : GS, gs'.n = gs.n → gs'.g = gs.g.updateToken (spaceToPlus code) Token.registerUsage →
                { w.commit s gs with st := (w.commit s gs).st.put s.ref (.grant gs'.g) } = w.commit s gs' := by
              intro gs' e1 e2
              have hl : gs'.g.issuedToken.length = gs.g.issuedToken.length := by
                rw [e2]; exact modifyFirst_length _ _ _
              unfold World.commit
              simp only [e1, hl]
              congr 1
              split
              · exact put_put _ _ _ _
              · simp [aliasSid, dbSet, setUser, truthyId, Store.put, Store.bind]
            have hat : (w.commit s gs).st.obj s.ref = some (.grant gs.g) := by
              have h2 := grantAt_put_self hg gs.g
              refine grantAt_iff.1 ?_
              unfold World.commit
              simp only []
              split
              · exact h2
              · exact h2
            unfold threadFinish
            simp only [List.getElem?_cons_zero, hat, List.eraseIdx_cons_zero]
            rw [hcom ⟨gs.g.updateToken (spaceToPlus code) Token.registerUsage, gs.n⟩ rfl rfl]
            split <;> rename_i ha
            · simp only [ha]
            · simp only [ha]
              split <;> rename_i hb
              · simp only [hb]
              · simp only [hb]
                rw [← hcom ⟨gs.g.updateToken (spaceToPlus code) Token.registerUsage, gs.n⟩ rfl rfl]

namespace Ex

/-- Two threads mint for the same code before either registers its use. -/
def race : List TOp :=
  [.whole (.login "d" "c1" (authzReq "c1") event), .whole (.authorize (sid "c1" 0) (authzReq "c1")),
   .whole (.parse "c1" (codeReq (E.mkVal 1 .authorizationCode (sid "c1" 0)))),
   .whole (.parse "c1" (codeReq (E.mkVal 1 .authorizationCode (sid "c1" 0)))),
   .start 0 none, .start 1 none, .finish 0, .finish 0]

/-- C15 is false of the code: two responses are given for one code when two threads mint before either registers the
use of the code (oauth2/token.py:150-187). -/
theorem C15_threads_refuted :
    ¬ (∀ (E : Env) (now : Int) (ops : List TOp) (v : String),
      (trun E { w := { now := now } } ops).w.log.countP (isCodeResponse v) ≤ 1) := by
  intro h
  have := h E 1000 race (E.mkVal 1 .authorizationCode (sid "c1" 0))
  exact absurd this (by decide +kernel)

/-- The hypothesis of `C15_threads_partial` is met with one thread still pending. -/
example : (trun E { w := init } (race.take 7)).w.log.countP (isCodeResponse (E.mkVal 1 .authorizationCode (sid "c1" 0))) = 1 ∧
    (trun E { w := init } (race.take 7)).pending.length = 1 := by
  decide +kernel

end Ex

end OidcOp
