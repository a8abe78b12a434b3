/-
Lemmas about revocation with a finite stack.
-/
import Verif.Model.Depth
import Verif.Spec.Depth
import Verif.Lemmas.Token

namespace OidcOp
open Spec

theorem derivedIn_from {ts : List Token} {v : String} {d i : Nat} (h : DerivedIn ts v d i) : DerivedFrom ts v i := by
  induction h with
  | child ht hb => exact .child ht hb
  | step _ hp ht hb ih => exact .step ih hp ht hb

theorem derivedFrom_in {ts : List Token} {v : String} {i : Nat} (h : DerivedFrom ts v i) : ∃ d, DerivedIn ts v d i := by
  induction h with
  | child ht hb => exact ⟨1, .child ht hb⟩
  | step _ hp ht hb ih => obtain ⟨d, hd⟩ := ih; exact ⟨d + 1, .step hd hp ht hb⟩

/-- Read from the root: through one of the children. -/
theorem derivedIn_iff_child (ts : List Token) (v : String) (d i : Nat) :
    DerivedIn ts v d i ↔
      ∃ j p, ts[j]? = some p ∧ p.basedOn = some v ∧ ((d = 1 ∧ i = j) ∨ ∃ d', d = d' + 1 ∧ DerivedIn ts p.value d' i) := by
  constructor
  · intro h
    induction h with
    | child ht hb => exact ⟨_, _, ht, hb, .inl ⟨rfl, rfl⟩⟩
    | step _ hp ht hb ih =>
      obtain ⟨j', p', hj', hb', hor⟩ := ih
      refine ⟨j', p', hj', hb', .inr ⟨_, rfl, ?_⟩⟩
      rcases hor with ⟨rfl, rfl⟩ | ⟨d', rfl, hd⟩
      · rw [hp] at hj'; cases hj'; exact .child ht hb
      · exact .step hd hp ht hb
  · rintro ⟨j, p, hj, hb, hor⟩
    rcases hor with ⟨rfl, rfl⟩ | ⟨d', rfl, hd⟩
    · exact .child hj hb
    · induction hd with
      | child ht hb' => exact .step (.child hj hb) hj ht hb'
      | step _ hp ht hb' ih => exact .step ih hp ht hb'

/-- A descendant comes later. -/
theorem derivedIn_later {ts : List Token} (h : Ancestry ts) {v : String} {d i j : Nat} {q : Token} (hd : DerivedIn ts v d i)
    (hq : ts[j]? = some q) (hv : q.value = v) : j < i := by
  induction hd with
  | child ht hb => exact ancestry_lt h hq ht (by rw [hb, hv])
  | step _ hp ht hb ih => exact Nat.lt_trans ih (ancestry_lt h hp ht hb)

theorem derivedIn_unique {ts : List Token} (h : Ancestry ts) {v : String} {d d' i : Nat} (hd : DerivedIn ts v d i)
    (hd' : DerivedIn ts v d' i) : d = d' := by
  induction hd generalizing d' with
  | child ht hb =>
    cases hd' with
    | child _ _ => rfl
    | step hj hp ht' hb' =>
      rw [ht] at ht'; cases ht'
      rw [hb] at hb'
      have := derivedIn_later h hj hp (by simpa using hb'.symm)
      omega
  | step hj hp ht hb ih =>
    cases hd' with
    | child ht' hb' =>
      rw [ht] at ht'; cases ht'
      rw [hb] at hb'
      have := derivedIn_later h hj hp (by simpa using hb')
      omega
    | step hj' hp' ht' hb' =>
      rw [ht] at ht'; cases ht'
      rw [hb] at hb'
      have hidx := nodup_value_idx h.distinct hp hp' (by simpa using hb')
      subst hidx
      rw [ih hj']

/-- Position `i` is revoked. -/
def RevAt (l : List Token) (i : Nat) : Prop := ∃ t, l[i]? = some t ∧ t.revoked = true

theorem revAt_markAt {l : List Token} {i k : Nat} (hi : i < l.length) : RevAt (markAt l i) k ↔ RevAt l k ∨ k = i := by
  rw [markAt_eq]
  unfold RevAt
  rw [markBy_getElem?]
  constructor
  · rintro ⟨t, ht, hr⟩
    by_cases hk : k = i
    · exact .inr hk
    · simp only [hk, if_false, Option.map_eq_some_iff] at ht
      obtain ⟨u, hu, rfl⟩ := ht
      exact .inl ⟨_, hu, hr⟩
  · rintro (⟨t, ht, hr⟩ | rfl)
    · refine ⟨_, by rw [ht]; rfl, ?_⟩
      split
      · rfl
      · exact hr
    · rw [List.getElem?_eq_getElem hi]
      exact ⟨_, rfl, by simp [Token.revoke]⟩

/-- What a limited revocation of the descendants of `v` does to a list. -/
structure Outcome (base : List Token) (n : Nat) (v : String) (acc : List Token) (res : Except Exc Unit × List Token) : Prop where
  static : SameStatic res.2 base
  ok : res.1 = .ok () ↔ 0 < n ∧ Shallow base v n
  error : ∀ e, res.1 = .error e → e = .recursionError
  within : ∀ k, RevAt res.2 k → RevAt acc k ∨ ∃ d, d ≤ n ∧ DerivedIn base v d k
  mono : ∀ k, RevAt acc k → RevAt res.2 k
  all : res.1 = .ok () → ∀ k, DerivedFrom base v k → RevAt res.2 k

theorem loop_outcome (base : List Token) (n : Nat) (v : String) (ts : List Token) (hts : SameStatic ts base)
    (ih : ∀ x acc, SameStatic acc base → Outcome base n x acc (revokeLimited n x acc)) (l : List Nat) (acc : List Token)
    (hacc : SameStatic acc base) :
    let res := loopTokens (revokeChild ts v (revokeLimited n)) l acc
    SameStatic res.2 base ∧
    (res.1 = .ok () ↔ ∀ i ∈ l, ∀ t, base[i]? = some t → t.basedOn = some v → 0 < n ∧ Shallow base t.value n) ∧
    (∀ e, res.1 = .error e → e = .recursionError) ∧
    (∀ k, RevAt res.2 k → RevAt acc k ∨ ∃ i ∈ l, ∃ t, base[i]? = some t ∧ t.basedOn = some v ∧
      (k = i ∨ ∃ d, d ≤ n ∧ DerivedIn base t.value d k)) ∧
    (∀ k, RevAt acc k → RevAt res.2 k) ∧
    (res.1 = .ok () → ∀ i ∈ l, ∀ t, base[i]? = some t → t.basedOn = some v →
      RevAt res.2 i ∧ ∀ k, DerivedFrom base t.value k → RevAt res.2 k) := by
  induction l generalizing acc with
  | nil =>
    refine ⟨hacc, ?_, ?_, ?_, fun _ h => h, ?_⟩
    · simp [loopTokens]
    · intro e h; simp [loopTokens] at h
    · intro k h; exact .inl h
    · intro _ i h; simp at h
  | cons i l IH =>
    intro res
    -- the case where position i is not a child
    have skip : (∀ t, base[i]? = some t → t.basedOn ≠ some v) → res = loopTokens (revokeChild ts v (revokeLimited n)) l acc := by
      intro hno
      have hc : revokeChild ts v (revokeLimited n) i acc = (.ok (), acc) := by
        unfold revokeChild
        cases hi : ts[i]? with
        | none => rfl
        | some t =>
          obtain ⟨u, hu, _, hb⟩ := hts.get' hi
          have : t.basedOn ≠ some v := by rw [← hb]; exact hno u hu
          simp only [if_neg this]
      show loopTokens _ (i :: l) acc = _
      rw [loopTokens, hc]
    by_cases hch : ∃ t, base[i]? = some t ∧ t.basedOn = some v
    · obtain ⟨t, ht, hb⟩ := hch
      obtain ⟨u, hu, huv, hub⟩ := hts.symm.get' ht
      have hlen : i < acc.length := by
        obtain ⟨x, hx, _⟩ := hacc.symm.get' ht
        exact (List.getElem?_eq_some_iff.1 hx).1
      have hm : SameStatic (markAt acc i) base := by
        rw [markAt_eq]; exact (sameStatic_markBy _ _).trans hacc
      have ho := ih t.value (markAt acc i) hm
      have hres : res = match revokeLimited n t.value (markAt acc i) with
          | (.ok _, s') => loopTokens (revokeChild ts v (revokeLimited n)) l s'
          | (.error e, s') => (.error e, s') := by
        have hc : revokeChild ts v (revokeLimited n) i acc = revokeLimited n t.value (markAt acc i) := by
          unfold revokeChild
          simp only [hu, hub, hb, if_true, huv]
        show loopTokens _ (i :: l) acc = _
        rw [loopTokens, hc]
        cases revokeLimited n t.value (markAt acc i) with
        | mk a b => cases a <;> rfl
      cases hr : revokeLimited n t.value (markAt acc i) with
      | mk a b =>
        rw [hr] at hres ho
        cases a with
        | error e =>
          simp only [] at hres
          rw [hres]
          refine ⟨ho.static, ⟨fun h => (by cases h), fun h => ?_⟩, fun e' h => ho.error e' h, ?_, ?_, fun h => (by cases h)⟩
          · exact absurd (ho.ok.2 (h i (by simp) t ht hb)) (by simp)
          · intro k hk
            rcases ho.within k hk with h | h
            · rcases (revAt_markAt hlen).1 h with h | h
              · exact .inl h
              · exact .inr ⟨i, by simp, t, ht, hb, .inl h⟩
            · exact .inr ⟨i, by simp, t, ht, hb, .inr h⟩
          · intro k hk
            exact ho.mono k ((revAt_markAt hlen).2 (.inl hk))
        | ok _ =>
          simp only [] at hres
          obtain ⟨h1, h2, h3, h4, h5, h6⟩ := IH b ho.static
          rw [← hres] at h1 h2 h3 h4 h5 h6
          refine ⟨h1, ?_, h3, ?_, ?_, ?_⟩
          · rw [h2]
            constructor
            · intro h j hj t' ht' hb'
              rcases List.mem_cons.1 hj with rfl | hj
              · rw [ht] at ht'; cases ht'
                exact ho.ok.1 rfl
              · exact h j hj t' ht' hb'
            · intro h j hj
              exact h j (List.mem_cons_of_mem _ hj)
          · intro k hk
            rcases h4 k hk with h | ⟨j, hj, t', ht', hb', h⟩
            · rcases ho.within k h with h | h
              · rcases (revAt_markAt hlen).1 h with h | h
                · exact .inl h
                · exact .inr ⟨i, by simp, t, ht, hb, .inl h⟩
              · exact .inr ⟨i, by simp, t, ht, hb, .inr h⟩
            · exact .inr ⟨j, List.mem_cons_of_mem _ hj, t', ht', hb', h⟩
          · intro k hk
            exact h5 k (ho.mono k ((revAt_markAt hlen).2 (.inl hk)))
          · intro hok j hj t' ht' hb'
            rcases List.mem_cons.1 hj with rfl | hj
            · rw [ht] at ht'; cases ht'
              exact ⟨h5 _ (ho.mono _ ((revAt_markAt hlen).2 (.inr rfl))), fun k hk => h5 _ (ho.all rfl k hk)⟩
            · exact h6 hok j hj t' ht' hb'
    · have hno : ∀ t, base[i]? = some t → t.basedOn ≠ some v := fun t ht hb => hch ⟨t, ht, hb⟩
      obtain ⟨h1, h2, h3, h4, h5, h6⟩ := IH acc hacc
      rw [← skip hno] at h1 h2 h3 h4 h5 h6
      refine ⟨h1, ?_, h3, ?_, h5, ?_⟩
      · rw [h2]
        constructor
        · intro h j hj t' ht' hb'
          rcases List.mem_cons.1 hj with rfl | hj
          · exact absurd hb' (hno t' ht')
          · exact h j hj t' ht' hb'
        · intro h j hj
          exact h j (List.mem_cons_of_mem _ hj)
      · intro k hk
        rcases h4 k hk with h | ⟨j, hj, h⟩
        · exact .inl h
        · exact .inr ⟨j, List.mem_cons_of_mem _ hj, h⟩
      · intro hok j hj t' ht' hb'
        rcases List.mem_cons.1 hj with rfl | hj
        · exact absurd hb' (hno t' ht')
        · exact h6 hok j hj t' ht' hb'

theorem revokeLimited_outcome (base : List Token) (n : Nat) (v : String) (acc : List Token) (hacc : SameStatic acc base) :
    Outcome base n v acc (revokeLimited n v acc) := by
  induction n generalizing v acc with
  | zero =>
    refine ⟨hacc, ?_, ?_, fun k h => .inl h, fun _ h => h, ?_⟩
    · simp [revokeLimited]
    · intro e h; simp [revokeLimited] at h; exact h.symm
    · intro h; simp [revokeLimited] at h
  | succ n ih =>
    obtain ⟨h1, h2, h3, h4, h5, h6⟩ := loop_outcome base n v acc hacc ih (List.range acc.length) acc hacc
    have hin : ∀ i t, base[i]? = some t → i ∈ List.range acc.length := by
      intro i t ht
      obtain ⟨x, hx, _⟩ := hacc.symm.get' ht
      exact List.mem_range.2 (List.getElem?_eq_some_iff.1 hx).1
    unfold revokeLimited
    refine ⟨h1, ?_, h3, ?_, h5, ?_⟩
    · rw [h2]
      constructor
      · intro h
        refine ⟨by omega, fun d k hd => ?_⟩
        obtain ⟨j, p, hp, hb, hor⟩ := (derivedIn_iff_child _ _ _ _).1 hd
        obtain ⟨hn, hs⟩ := h j (hin j p hp) p hp hb
        rcases hor with ⟨rfl, _⟩ | ⟨d', rfl, hd'⟩
        · omega
        · have := hs d' k hd'; omega
      · rintro ⟨_, h⟩ i _ t ht hb
        have h1' := h 1 i (.child ht hb)
        refine ⟨by omega, fun d k hd => ?_⟩
        have := h (d + 1) k ((derivedIn_iff_child _ _ _ _).2 ⟨i, t, ht, hb, .inr ⟨d, rfl, hd⟩⟩)
        omega
    · intro k hk
      rcases h4 k hk with h | ⟨i, _, t, ht, hb, h⟩
      · exact .inl h
      · rcases h with rfl | ⟨d, hd, h⟩
        · exact .inr ⟨1, by omega, .child ht hb⟩
        · exact .inr ⟨d + 1, by omega, (derivedIn_iff_child _ _ _ _).2 ⟨i, t, ht, hb, .inr ⟨d, rfl, h⟩⟩⟩
    · intro hok k hk
      obtain ⟨j, p, hp, hb, hor⟩ := (derivedFrom_iff_child _ _ _).1 hk
      obtain ⟨h7, h8⟩ := h6 hok j (hin j p hp) p hp hb
      rcases hor with rfl | hd
      · exact h7
      · exact h8 k hd

end OidcOp
