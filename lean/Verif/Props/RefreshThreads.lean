/-
C130: refresh token rotation when the two parts of refreshes of different threads interleave.
-/
import Verif.Model.RefreshThreads
import Verif.Spec.RefreshThreads
import Verif.Props.Threads

namespace OidcOp
open Spec

theorem refreshMint_tri {mk : Minter} {clock : Int} (cfg : TokenCfg) (kw : Option Bool) (client : String) (req : TokenReq)
    (v : String) (s0 : GS) (hbase : ∀ b, s0.g.getToken v = some b → IsBase b)
    (hsc : ∀ b found, s0.g.getToken v = some b → s0.g.findScope b.basedOn = .ok found →
      ∀ x ∈ req.scope.getD found, x ∈ s0.g.scope) :
    Tri mk clock (fun s => s = s0) (refreshMint cfg mk clock kw client req v)
      (fun r _ => ∀ x, r = .ready x → req.clientId = some client ∧
        ∃ b, s0.g.getToken v = some b ∧ ItemActive b.item clock) := by
  unfold refreshMint
  split
  · exact Tri.raise _
  · rename_i reqClient hreq
    split
    · exact Tri.pure _ (by simp)
    · rename_i hcl
      have hcl : client = reqClient := by simpa using hcl
      subst hcl
      refine Tri.bind (Q := fun _ s => ∃ j, s = ⟨{ s0.g with dpopJkt := j }, s0.n⟩)
        (dpop_tri s0 _ req) (fun ttype => ?_)
      refine Tri.bind Tri.get (fun s1 => ?_)
      intro s ⟨⟨j, hs⟩, he⟩
      subst he
      obtain rfl : s1 = ⟨{ s0.g with dpopJkt := j }, s0.n⟩ := hs
      generalize hs1 : (⟨{ s0.g with dpopJkt := j }, s0.n⟩ : GS) = s1 at *
      have hget : s1.g.getToken v = s0.g.getToken v := by subst hs1; rfl
      have hscope : s1.g.scope = s0.g.scope := by subst hs1; rfl
      have hfs : ∀ x, s1.g.findScope x = s0.g.findScope x := by
        intro x
        subst hs1
        unfold Grant.findScope Grant.findScopeTok
        have : ∀ n t, Grant.findScopeFuel { s0.g with dpopJkt := j } n t = s0.g.findScopeFuel n t := by
          intro n
          induction n with
          | zero => intro t; rfl
          | succ n ih => intro t; simp only [Grant.findScopeFuel, ih]; rfl
        simp only [this]; rfl
      suffices h : Tri mk clock (fun s => s = s1) _ (fun r _ => ∀ x, r = MRes.ready x → req.clientId = some client ∧
          ∃ b, s0.g.getToken v = some b ∧ ItemActive b.item clock) from h s1 rfl
      cases hb : s1.g.getToken v with
      | none => exact Tri.raise _
      | some b =>
        simp only []
        have hb0 : s0.g.getToken v = some b := by rw [← hget]; exact hb
        have hbm := (getToken_mem hb).1
        have hbc := hbase b hb0
        refine Tri.bind (Tri.ofExcept _) (fun found => ?_)
        intro s hs
        obtain ⟨rfl, hfound⟩ := hs
        have hfound0 := hfound
        rw [hfs] at hfound0
        have hsub : ∀ x ∈ req.scope.getD found, x ∈ s.g.scope := by
          rw [hscope]; exact hsc b found hb0 hfound0
        generalize hscp : req.scope.getD found = scp at *
        suffices h : Tri mk clock (fun s' => Grown s s' ∧ True) _ (fun r _ => ∀ x, r = MRes.ready x → req.clientId = some client ∧
          ∃ b, s0.g.getToken v = some b ∧ ItemActive b.item clock) from h s ⟨Grown.refl s, trivial⟩
        have stP : ∀ P : Prop, Stable (fun _ => P) := fun P => ⟨fun _ _ _ h => h, fun _ _ _ _ _ h => h⟩
        refine Tri.bind (Q := fun _ s' => Grown s s' ∧ ItemActive b.item clock) ?_ (fun at' => ?_)
        · exact (mintEP_tri stable_true s b hbm hbc _ (some scp) _
            (by rintro _ ⟨⟩ _ x hx; exact hsub x hx)).weaken (fun _ h => h) (fun _ _ h => ⟨h.1, h.2.2.2.1.1⟩)
        split
        · exact Tri.raise _
        · refine Tri.bind (Q := fun _ s' => Grown s s' ∧ ItemActive b.item clock) ?_ (fun rt => ?_)
          · exact (mintRefresh_tri (stP _) s b hbm hbc scp _ hsub).weaken (fun _ h => h) (fun _ _ h => ⟨h.1, h.2.1⟩)
          refine Tri.bind (Q := fun _ s' => Grown s s' ∧ ItemActive b.item clock) ?_ (fun idt => ?_)
          · exact (mintIdToken_tri (stP _) s b hbm hbc (some scp) _).weaken (fun _ h => h) (fun _ _ h => ⟨h.1, h.2.1⟩)
          cases idt with
          | none => exact Tri.pure _ (by simp)
          | some idv => exact Tri.pure _ (fun s' hs' x _ => ⟨hreq, b, hb0, hs'.2⟩)

/-- The refresh token `v` has been revoked. -/
def Gone (v : String) (c : Core) : Prop :=
  ∃ r g i t, c.st.grantAt r = some g ∧ g.issuedToken[(i : Nat)]? = some t ∧ t.value = v ∧ t.revoked = true

theorem Gone.mono {E : Env} {S : String → Prop} {v : String} {c c' : Core} (hc : Chain E S c c') (h : Gone v c) :
    Gone v c' := by
  obtain ⟨r, g, i, t, h1, h2, h3, h4⟩ := h
  obtain ⟨g'', t'', h6, h7, h8⟩ := tokenAt_later hc h1 h2
  exact ⟨r, g'', i, t'', h6, h7, (static_fields h8.static).2.1.trans h3, h8.revoked h4⟩

theorem Gone.inactive {E : Env} {S : String → Prop} {c : Core} (hi : CInv E S c) {v : String} (h : Gone v c)
    {r : Nat} {g : Grant} {i : Nat} {b : Token} {now : Int} (hg : c.st.grantAt r = some g)
    (hb : g.issuedToken[i]? = some b) (hv : b.value = v) : ¬ ItemActive b.item now := by
  intro ha
  obtain ⟨r', g', i', t, h1, h2, h3, h4⟩ := h
  obtain ⟨e1, e2⟩ := hi.uniq _ _ _ _ _ _ _ _ h1 hg h2 hb (h3.trans hv.symm)
  subst e1 e2
  rw [h1] at hg
  cases hg
  rw [h2] at hb
  cases hb
  have := ha.1
  simp [Token.item, h4] at this

/-- Invariant of the provider with threads that refresh. -/
structure FInv (E : Env) (t : FWorld) : Prop where
  w : WInv E (fun _ => True) t.w
  pend : ∀ p ∈ t.pending, p.req.clientId = some p.sess.client ∧
    ∃ g i b, t.w.core.st.grantAt p.sess.ref = some g ∧ g.issuedToken[(i : Nat)]? = some b ∧ b.value = p.code
  gone : ∀ v, Rotated E.cfg t.w.log v → Gone v t.w.core

theorem fpend_chain {E : Env} {S : String → Prop} {c c' : Core} (hc : Chain E S c c') {p : Pending}
    (h : p.req.clientId = some p.sess.client ∧
      ∃ g i b, c.st.grantAt p.sess.ref = some g ∧ g.issuedToken[(i : Nat)]? = some b ∧ b.value = p.code) :
    p.req.clientId = some p.sess.client ∧
      ∃ g i b, c'.st.grantAt p.sess.ref = some g ∧ g.issuedToken[(i : Nat)]? = some b ∧ b.value = p.code := by
  obtain ⟨h0, g, i, b, h1, h2, h3⟩ := h
  obtain ⟨g', b', h5, h6, h7⟩ := tokenAt_later hc h1 h2
  exact ⟨h0, g', i, b', h5, h6, (static_fields h7.static).2.1.trans h3⟩

theorem rotated_append {cfg : TokenCfg} {log : List Event} {e : Event} {v : String} (h : Rotated cfg (log ++ [e]) v) :
    Rotated cfg log v ∨ ∃ ref client req resp, e = .token ref client true v req resp ∧ RotationInForce cfg client := by
  obtain ⟨ref, client, req, resp, h1, h2⟩ := h
  rcases List.mem_append.1 h1 with h1 | h1
  · exact .inl ⟨ref, client, req, resp, h1, h2⟩
  · exact .inr ⟨ref, client, req, resp, (List.mem_singleton.1 h1).symm, h2⟩

/-- What the end of a refresh does to a grant, in small steps. -/
theorem refreshEnd_micros (cfg : TokenCfg) (req : TokenReq) (v : String) (g : Grant) (n : Nat) {mk : Minter} {clock : Int} :
    Micros mk clock ⟨g, n⟩ ⟨refreshEnd cfg req v g, n⟩ := by
  unfold refreshEnd
  split
  · exact .snoc (.one (.use ⟨g, n⟩ v)) (.revoke ⟨g.updateToken v Token.registerUsage, n⟩ _ (revMono_modifyFirst _ _))
  · exact .one (.use ⟨g, n⟩ v)

/-- What a step with threads does: the invariant is kept, a token that is gone stays so, and then the number of answers
plus the number of threads about to answer does not grow. -/
theorem fstep_spec {E : Env} {t : FWorld} (h : FInv E t) (op : FOp) :
    FInv E (fstep E t op) ∧
    (∀ v, Gone v t.w.core → Gone v (fstep E t op).w.core) ∧
    ∀ v, Gone v t.w.core →
      (fstep E t op).w.log.countP (isRefreshResponse v) + (fstep E t op).pending.countP (fun p => p.code == v) ≤
      t.w.log.countP (isRefreshResponse v) + t.pending.countP (fun p => p.code == v) := by
  cases op with
  | whole op =>
    obtain ⟨hc, hw', h3⟩ := step_spec h.w (sidClosed_true E) op (fun _ _ _ => trivial)
    have hn : fstep E t (.whole op) = { t with w := step E t.w op } := rfl
    rw [hn]
    have key : ∀ e, (step E t.w op).log = t.w.log ++ [e] → ∀ ref client v req resp, e = .token ref client true v req resp →
        (∃ j b, ∃ g, t.w.core.st.grantAt ref = some g ∧ g.issuedToken[(j : Nat)]? = some b ∧ b.value = v ∧
          ItemActive b.item t.w.now) ∧ (RotationInForce E.cfg client → Gone v (step E t.w op).core) := by
      intro e he ref client v req resp hev
      rcases h3 with h3 | ⟨e', h3, hne⟩
      · rw [he] at h3
        have := congrArg List.length h3
        simp at this
      · rw [he] at h3
        have : e = e' := by simpa using h3
        subst this
        rcases hne with ⟨_, _, _, _, h', _⟩ | ⟨s, rf, v', req', r', a, he', hp, ha, hout⟩
        · rw [hev] at h'; cases h'
        · rw [hev] at he'
          cases he'
          have hf := tokFacts h.w (sidClosed_true E) hc hp ha hout
          obtain ⟨j, b, b', g2, x1, x2, x3, x4, x5, x6, x7, x8, x9, _⟩ := hf.base
          refine ⟨⟨j, b, s.grant, hf.before, x1, x2, x4⟩, fun hrot => ?_⟩
          exact ⟨_, g2, j, b', x5, x6, (static_fields x7.static).2.1.trans x2,
            x9 rfl (by rw [hf.client]; exact (rotation_iff _ _).2 hrot)⟩
    refine ⟨⟨hw', fun p hp => fpend_chain hc (h.pend p hp), fun v hv => ?_⟩, fun v hv => hv.mono hc, fun v hv => ?_⟩
    · rcases h3 with h4 | ⟨e, h4, _⟩
      · simp only [h4] at hv
        exact (h.gone v hv).mono hc
      · simp only [h4] at hv
        rcases rotated_append hv with hv | ⟨ref, client, req, resp, he, hrot⟩
        · exact (h.gone v hv).mono hc
        · exact (key e h4 _ _ _ _ _ he).2 hrot
    · rcases h3 with h4 | ⟨e, h4, _⟩
      · simp only [h4]; exact Nat.le_refl _
      · simp only [h4, List.countP_append, List.countP_singleton]
        rw [if_neg]
        · exact Nat.le_refl _
        · intro he
          unfold isRefreshResponse at he
          split at he
          · rename_i ref client v' req resp
            simp only [decide_eq_true_eq] at he
            subst he
            obtain ⟨⟨j, b, g, x1, x2, x3, x4⟩, _⟩ := key _ h4 _ _ _ _ _ rfl
            exact hv.inactive h.w.core x1 x2 x3 x4
          · cases he
  | start i kw =>
    have hst : fstep E t (.start i kw) = (match t.w.pool[i]? with
      | some req => if req.grantType = some "refresh_token" then refreshStart E t kw req else t
      | none => t) := rfl
    rw [hst]
    split
    · rename_i req hi
      split
      · rename_i hgt
        have hok := h.w.pool req (List.mem_of_getElem? hi)
        unfold refreshStart
        split
        · exact ⟨h, fun _ h => h, fun _ _ => Nat.le_refl _⟩
        · rename_i v hv
          obtain ⟨r, g, i0, tk, h1, h2, h3, h4, hsc, _⟩ := hok.refresh v hgt hv
          split
          · exact ⟨h, fun _ h => h, fun _ _ => Nat.le_refl _⟩
          · rename_i s hs
            have hg := sessionByToken_grantAt hs
            have hsame : ∀ b, s.grant.getToken v = some b → b = tk ∧ s.grant = g ∧ s.ref = r := by
              intro b hb
              obtain ⟨hm, hval⟩ := getToken_mem hb
              obtain ⟨j, hj⟩ := List.getElem?_of_mem hm
              obtain ⟨e1, e2⟩ := h.w.core.uniq _ _ _ _ _ _ _ _ h1 hg h2 hj (h3.trans hval.symm)
              subst e1 e2
              rw [show t.w.core.st = t.w.st from rfl, hg] at h1
              cases h1
              rw [h2] at hj
              cases hj
              exact ⟨rfl, rfl, rfl⟩
            have htri := refreshMint_tri (mk := minter E s.sid) (clock := t.w.now) E.cfg kw s.client req v
              ⟨s.grant, t.w.n⟩ (by
                intro b hb
                obtain ⟨rfl, _, _⟩ := hsame b hb
                exact .inr h4)
              (by
                intro b found hb hf x hx
                obtain ⟨rfl, rfl, rfl⟩ := hsame b hb
                cases hq : req.scope with
                | none => rw [hq] at hx; exact h.w.core.findScope hg h2 hf x hx
                | some sc => rw [hq] at hx; exact hsc sc hq x hx)
            obtain ⟨hm1, hm2⟩ := htri _ rfl
            cases hcp : refreshMint E.cfg (minter E s.sid) t.w.now kw s.client req v ⟨s.grant, t.w.n⟩ with
            | mk res gs =>
              rw [hcp] at hm1 hm2
              obtain ⟨hch, hat⟩ := commit_chain (S := fun _ => True) hg hm1 (.inl trivial)
              have hother : FInv E { t with w := t.w.commit s gs } :=
                ⟨winv_chain h.w hch rfl, fun p hp => fpend_chain hch (h.pend p hp), fun v hv => (h.gone v hv).mono hch⟩
              cases res with
              | error e => exact ⟨hother, fun v hv => hv.mono hch, fun _ _ => Nat.le_refl _⟩
              | ok m =>
                cases m with
                | err c => exact ⟨hother, fun v hv => hv.mono hch, fun _ _ => Nat.le_refl _⟩
                | ready r' =>
                  obtain ⟨hcid, b, h5, h6⟩ := hm2 (.ready r') rfl r' rfl
                  obtain ⟨rfl, hgg, hrr⟩ := hsame b h5
                  rw [← hgg] at h2
                  refine ⟨⟨hother.w, fun p hp => ?_, hother.gone⟩, fun v hv => hv.mono hch, fun v' hv' => ?_⟩
                  · rcases List.mem_append.1 hp with hp | hp
                    · exact hother.pend p hp
                    · simp at hp
                      subst hp
                      exact fpend_chain hch ⟨hcid, s.grant, i0, b, hg, h2, h3⟩
                  · simp only [List.countP_append, List.countP_singleton]
                    rw [if_neg]
                    · exact Nat.le_refl _
                    · intro hab
                      simp only [beq_iff_eq] at hab
                      exact hv'.inactive h.w.core (r := s.ref) hg h2 (h3.trans hab) h6
      · exact ⟨h, fun _ h => h, fun _ _ => Nat.le_refl _⟩
    · exact ⟨h, fun _ h => h, fun _ _ => Nat.le_refl _⟩
  | finish j =>
    have hst : fstep E t (.finish j) = (match t.pending[j]? with
      | none => t
      | some p => { w := refreshFinish E t p, pending := t.pending.eraseIdx j }) := rfl
    rw [hst]
    cases hj : t.pending[j]? with
    | none => exact ⟨h, fun _ h => h, fun _ _ => Nat.le_refl _⟩
    | some p =>
      have hm := List.mem_of_getElem? hj
      obtain ⟨hcid, g, i, b, h1, h2, h3⟩ := h.pend p hm
      have hobj : t.w.st.obj p.sess.ref = some (.grant g) := grantAt_iff.1 h1
      let w' : World := { t.w with st := t.w.st.put p.sess.ref (.grant (refreshEnd E.cfg p.req p.code g)) }
      have hc : Chain E (fun _ => True) t.w.core w'.core :=
        chain_micros (S := fun _ => True) (sid := "") (c := t.w.core) h1
          (refreshEnd_micros E.cfg p.req p.code g t.w.n) (.inl trivial)
      have hw' : WInv E (fun _ => True) w' := winv_chain h.w hc rfl
      have hgone : RotationInForce E.cfg p.sess.client → Gone p.code w'.core := by
        intro hrot
        have hr : revokeRefreshFor E.cfg p.req.clientId = true := by rw [hcid]; exact (rotation_iff _ _).2 hrot
        obtain ⟨g', b', h5, h6, h7⟩ := tokenAt_later hc h1 h2
        have hf := static_fields h7.static
        refine ⟨_, g', i, b', h5, h6, hf.2.1.trans h3, ?_⟩
        have hat := grantAt_put_self (s := t.w.st) (r := p.sess.ref) h1 (refreshEnd E.cfg p.req p.code g)
        rw [show w'.core.st = t.w.st.put p.sess.ref (.grant (refreshEnd E.cfg p.req p.code g)) from rfl, hat] at h5
        cases h5
        have hget : (refreshEnd E.cfg p.req p.code g).getToken p.code = some b' := by
          have := hw'.core.getToken (r := p.sess.ref) hat h6
          rwa [hf.2.1, h3] at this
        unfold refreshEnd at hget
        rw [if_pos hr, getToken_updateToken _ _ Token.revoke (fun _ => rfl)] at hget
        obtain ⟨x, _, hx⟩ := Option.map_eq_some_iff.1 hget
        rw [← hx]
        rfl
      have herase : ∀ v, (t.pending.eraseIdx j).countP (fun p => p.code == v) + (if p.code == v then 1 else 0) =
          t.pending.countP (fun p => p.code == v) := by
        intro v
        have hlt := (List.getElem?_eq_some_iff.1 hj)
        have : t.pending = t.pending.take j ++ p :: t.pending.drop (j + 1) := by
          rw [← hlt.2, List.getElem_cons_drop, List.take_append_drop]
        rw [List.eraseIdx_eq_take_drop_succ]
        conv => rhs; rw [this]
        simp only [List.countP_append, List.countP_cons]
        omega
      have hsub : ∀ q, q ∈ t.pending.eraseIdx j → q ∈ t.pending := fun q hq => (List.eraseIdx_sublist _ _).subset hq
      have silent : FInv E { w := w', pending := t.pending.eraseIdx j } ∧
          (∀ v, Gone v t.w.core → Gone v w'.core) ∧
          ∀ v, Gone v t.w.core →
            w'.log.countP (isRefreshResponse v) + (t.pending.eraseIdx j).countP (fun p => p.code == v) ≤
            t.w.log.countP (isRefreshResponse v) + t.pending.countP (fun p => p.code == v) := by
        refine ⟨⟨hw', fun q hq => fpend_chain hc (h.pend q (hsub q hq)), fun v hv => (h.gone v hv).mono hc⟩,
          fun v hv => hv.mono hc, fun v hv => ?_⟩
        have := herase v
        show t.w.log.countP _ + _ ≤ _
        omega
      simp only []
      unfold refreshFinish
      rw [hobj]
      simp only []
      split
      · exact silent
      · rename_i a ha
        split
        · exact silent
        · refine ⟨⟨⟨hw'.core, hw'.pool⟩, silent.1.pend, fun v hv => ?_⟩, fun v hv => hv.mono hc, fun v hv => ?_⟩
          · rcases rotated_append hv with hv | ⟨ref, client, req, resp, he, hrot⟩
            · exact (h.gone v hv).mono hc
            · cases he
              exact hgone hrot
          · have h5 := herase v
            simp only [List.countP_append, List.countP_singleton]
            by_cases he : p.code = v
            · rw [if_pos (by simp [he])] at h5
              rw [if_pos (by simp [isRefreshResponse, he])]
              omega
            · rw [if_neg (by simp [isRefreshResponse, he])]
              omega

theorem finv_run {E : Env} {t : FWorld} (h : FInv E t) (ops : List FOp) : FInv E (frun E t ops) := by
  induction ops generalizing t with
  | nil => exact h
  | cons op rest ih => exact ih (fstep_spec h op).1

theorem finv_init (E : Env) (now : Int) : FInv E { w := { now := now } } :=
  ⟨winv_init E _ now, by simp, by rintro v ⟨_, _, _, _, h, _⟩; simp at h⟩

/-- C130 (partial).  Once a client for which rotation is in force has got an answer for a refresh token, further answers
for it can only come from threads that were already past minting at that moment: a request that comes later gets none.
Missing: the threads that were past minting do answer; see `C130_refuted`. -/
theorem C130_later_partial (E : Env) (now : Int) (ops ops' : List FOp) (v : String)
    (h : Rotated E.cfg (frun E { w := { now := now } } ops).w.log v) :
    (frun E (frun E { w := { now := now } } ops) ops').w.log.countP (isRefreshResponse v) ≤
      (frun E { w := { now := now } } ops).w.log.countP (isRefreshResponse v) +
      (frun E { w := { now := now } } ops).pending.countP (fun p => p.code == v) := by
  have hi := finv_run (finv_init E now) ops
  have hu := hi.gone v h
  generalize frun E { w := { now := now } } ops = t at hi hu
  have main : ∀ (ops' : List FOp) (t : FWorld), FInv E t → Gone v t.w.core →
      (frun E t ops').w.log.countP (isRefreshResponse v) + (frun E t ops').pending.countP (fun p => p.code == v) ≤
      t.w.log.countP (isRefreshResponse v) + t.pending.countP (fun p => p.code == v) := by
    intro ops'
    induction ops' with
    | nil => intro t _ _; exact Nat.le_refl _
    | cons op rest ih =>
      intro t hi hu
      obtain ⟨h1, h2, h3⟩ := fstep_spec hi op
      exact Nat.le_trans (ih _ h1 (h2 v hu)) (h3 v hu)
  exact Nat.le_trans (Nat.le_add_right _ _) (main ops' t hi hu)

/-- C130. When a client for which rotation is in force has got an answer for a refresh token, the token is revoked, now and
in every later state, whatever other threads do. -/
theorem C130_revoked (E : Env) (now : Int) (ops ops' : List FOp) (v : String)
    (h : Rotated E.cfg (frun E { w := { now := now } } ops).w.log v) :
    ∃ r i t, TokenAt (frun E { w := { now := now } } (ops ++ ops')).w r i t ∧ t.value = v ∧ t.revoked = true := by
  have hi := finv_run (finv_init E now) ops
  have hu := hi.gone v h
  have main : ∀ (ops' : List FOp) (t : FWorld), FInv E t → Gone v t.w.core → Gone v (frun E t ops').w.core := by
    intro ops'
    induction ops' with
    | nil => intro t _ hg; exact hg
    | cons op rest ih =>
      intro t hi hu
      obtain ⟨h1, h2, _⟩ := fstep_spec hi op
      exact ih _ h1 (h2 v hu)
  obtain ⟨r, g, i, t, h1, h2, h3, h4⟩ := main ops' _ hi hu
  rw [show frun E { w := { now := now } } (ops ++ ops') = frun E (frun E { w := { now := now } } ops) ops' from
    List.foldl_append]
  exact ⟨r, i, t, ⟨g, grantAt_spec.2 h1, h2⟩, h3, h4⟩

/-- The two parts one after the other are the whole. -/
theorem refreshProcess_parts (cfg : TokenCfg) (mk : Minter) (clock : Int) (kw : Option Bool) (client : String) (req : TokenReq)
    (v : String) (s : GS) :
    refreshProcess cfg mk clock kw client req v s = (match refreshMint cfg mk clock kw client req v s with
      | (.ok (.ready r), gs) => (.ok (.resp r), ⟨refreshEnd cfg req v gs.g, gs.n⟩)
      | (.ok (.err c), gs) => (.ok (.err c), gs)
      | (.error e, gs) => (.error e, gs)) := by
  unfold refreshProcess refreshMint
  cases hrc : req.clientId with
  | none => rfl
  | some rc =>
    simp only []
    split
    · rfl
    · simp only [SE.bind_apply]
      cases hd : dpopStep cfg.dpopAdvertised req s with
      | mk res s1 =>
        cases res with
        | error e => rfl
        | ok ttype =>
          simp only [SE.get]
          cases hg : s1.g.getToken v with
          | none => rfl
          | some tok =>
            simp only [SE.bind_apply]
            cases hf : SE.ofExcept (s1.g.findScope tok.basedOn) s1 with
            | mk res s2 =>
              cases res with
              | error e => rfl
              | ok found =>
                simp only []
                cases hm : mintEP mk clock .accessToken (some tok) (some (req.scope.getD found)) ttype s2 with
                | mk res s3 =>
                  cases res with
                  | error e => rfl
                  | ok at' =>
                    simp only []
                    cases tok.rules.supportsMinting with
                    | none => rfl
                    | some mints =>
                      simp only [SE.bind_apply]
                      cases hr : mintRefresh mk clock tok (req.scope.getD found)
                        (decide (TokenClass.refreshToken ∈ mints) && issueRefresh cfg.flavor kw (req.scope.getD found)) s3 with
                      | mk res s4 =>
                        cases res with
                        | error e => rfl
                        | ok rt =>
                          simp only []
                          cases hid : mintIdToken mk clock tok (some (req.scope.getD found))
                            (decide (cfg.flavor = .oidc ∧ TokenClass.idToken ∈ mints ∧ "openid" ∈ req.scope.getD found)) s4 with
                          | mk res s5 =>
                            cases res with
                            | error e => rfl
                            | ok idt =>
                              cases idt with
                              | none => rfl
                              | some idv =>
                                simp only [SE.bind_apply, SE.modify, revokeIf, refreshEnd, hrc]
                                cases revokeRefreshFor cfg (some rc) <;> rfl

/-- When the two parts of a refresh are not separated, the system with threads does what `process` does. -/
theorem C130_uninterrupted (E : Env) (w : World) (kw : Option Bool) (i : Nat) (req : TokenReq)
    (hi : w.pool[i]? = some req) (hgt : req.grantType = some "refresh_token") :
    frun E { w := w } [.start i kw, .finish 0] = { w := step E w (.process i kw) } := by
  have h1 : step E w (.process i kw) = (tokenProcess E w kw req).2 := by
    have hst : step E w (.process i kw) = (match w.pool[i]? with
      | none => w
      | some req => (tokenProcess E w kw req).2) := rfl
    rw [hst, hi]
  have h2 : fstep E { w := w } (.start i kw) = refreshStart E { w := w } kw req := by
    have hst : fstep E { w := w } (.start i kw) = (match w.pool[i]? with
      | some req => if req.grantType = some "refresh_token" then refreshStart E { w := w } kw req else { w := w }
      | none => { w := w }) := rfl
    rw [hst, hi]
    simp only [hgt, if_true]
  have h3 : frun E { w := w } [.start i kw, .finish 0] = fstep E (refreshStart E { w := w } kw req) (.finish 0) := by
    unfold frun
    simp only [List.foldl_cons, List.foldl_nil, h2]
  rw [h3, h1]
  unfold tokenProcess tokenHelper refreshStart
  simp only [hgt, String.reduceEq, if_false, if_true]
  cases hv : req.refreshToken with
  | none => rfl
  | some v =>
    simp only []
    cases hs : sessionByToken E w v with
    | error e =>
      show ({ w := w } : FWorld) = { w := (if _ then _ else _ : Except Exc HRes × World).2 }
      split <;> rfl
    | ok s =>
      have hg := sessionByToken_grantAt hs
      simp only [refreshProcess_parts]
      cases hm : refreshMint E.cfg (minter E s.sid) w.now kw s.client req v ⟨s.grant, w.n⟩ with
      | mk res gs =>
        cases res with
        | error e =>
          show ({ w := w.commit s gs } : FWorld) = { w := (if _ then _ else _ : Except Exc HRes × World).2 }
          split <;> rfl
        | ok m =>
          cases m with
          | err c => rfl
          | ready r =>
            simp only [List.nil_append, fstep]
            have hlen : (refreshEnd E.cfg req v gs.g).issuedToken.length = gs.g.issuedToken.length := by
              unfold refreshEnd
              split
              · exact (modifyFirst_length _ _ _).trans (modifyFirst_length _ _ _)
              · exact modifyFirst_length _ _ _
            have hcom : { w.commit s gs with st := (w.commit s gs).st.put s.ref (.grant (refreshEnd E.cfg req v gs.g)) } =
                w.commit s ⟨refreshEnd E.cfg req v gs.g, gs.n⟩ := by
              unfold World.commit
              simp only [hlen]
              congr 1
              split
              · exact put_put _ _ _ _
              · simp [aliasSid, dbSet, setUser, truthyId, Store.put, Store.bind]
            have hat : (w.commit s gs).st.obj s.ref = some (.grant gs.g) := by
              have h2 := grantAt_put_self hg gs.g
              refine grantAt_iff.1 ?_
              unfold World.commit
              simp only []
              split
              · exact h2
              · exact h2
            unfold refreshFinish
            simp only [List.getElem?_cons_zero, hat, List.eraseIdx_cons_zero]
            rw [hcom]
            split <;> rename_i ha
            · simp only [ha]
            · simp only [ha]
              split <;> rename_i hb
              · simp only [hb]
              · simp only [hb]
                rw [← hcom]

namespace Ex

/-- Two threads mint for the same refresh token before either revokes it; rotation is in force for the client. -/
def refreshRace : List FOp :=
  (start "c2").map .whole ++
  [.whole (.parse "c2" (refreshReq (E.mkVal 3 .refreshToken (sid "c2" 0)) none)),
   .whole (.parse "c2" (refreshReq (E.mkVal 3 .refreshToken (sid "c2" 0)) none)),
   .start 1 none, .start 2 none, .finish 0, .finish 0,
   .whole (.parse "c2" (refreshReq (E.mkVal 3 .refreshToken (sid "c2" 0)) none))]

/-- C130 is false of the code: with rotation in force two responses are given for one refresh token when two threads mint
before either revokes it (oauth2/token.py:264-308, oidc/token.py:240-302). -/
theorem C130_refuted :
    ¬ (∀ (E : Env) (now : Int) (ops : List FOp) (v : String), Rotated E.cfg (frun E { w := { now := now } } ops).w.log v →
      (frun E { w := { now := now } } ops).w.log.countP (isRefreshResponse v) ≤ 1) := by
  intro h
  have := h E 1000 refreshRace (E.mkVal 3 .refreshToken (sid "c2" 0))
    ⟨_, "c2", _, _, List.mem_of_getElem? (i := 2) (by rfl), .inl ⟨{ revokeRefresh := some true }, by decide +kernel, rfl⟩⟩
  exact absurd this (by decide +kernel)

/-- Both responses have a refresh token of their own, and both of these are live; the one that was presented is revoked, and
the request that comes later is refused. -/
example : ((((frun E { w := init } refreshRace).w.st.grantAt 2).getD {}).issuedToken.filter
      (fun t => t.cls = .refreshToken)).map (fun t => (t.revoked, t.used)) = [(true, 2), (false, 0), (false, 0)] ∧
    (frun E { w := init } refreshRace).w.pool.length = 3 := by
  decide +kernel

/-- The hypothesis of `C130_later_partial` and `C130_revoked` is met with one thread still pending. -/
example : Rotated E.cfg (frun E { w := init } (refreshRace.take 10)).w.log (E.mkVal 3 .refreshToken (sid "c2" 0)) ∧
    (frun E { w := init } (refreshRace.take 10)).pending.length = 1 :=
  ⟨⟨_, "c2", _, _, List.mem_of_getElem? (i := 2) (by rfl), .inl ⟨{ revokeRefresh := some true }, by decide +kernel, rfl⟩⟩,
    by decide +kernel⟩

/-- The hypotheses of `C130_uninterrupted` are met by a request that is answered. -/
example : ((frun E { w := init } (refreshRace.take 7)).w.pool[1]?.map TokenReq.grantType) = some (some "refresh_token") ∧
    (frun E { w := (frun E { w := init } (refreshRace.take 7)).w } [.start 1 none, .finish 0]).w.log.length =
      (frun E { w := init } (refreshRace.take 7)).w.log.length + 1 := by
  decide +kernel

end Ex

end OidcOp
