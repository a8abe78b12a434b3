/-
A grant stays under the key of the user and the client it was made for.
-/
import Verif.Lemmas.Isolation
import Verif.Lemmas.Origins

namespace OidcOp
open Spec

/-- Whatever is found under a grant's key after an operation was there before, or is new. -/
theorem runOp_gra {U A : String → Prop} {s : Store} (h : HInv U A s) {op : SOp} (hf : FairOp U op)
    (hrem : ∀ u c g, op = .removeSession u c g → ¬ A g) {u' c' g' : String} {r' : Nat} {o' : Obj}
    (hv' : view U (runOp s op) (.gra u' c' g') = some (r', o')) :
    (∃ o, view U s (.gra u' c' g') = some (r', o)) ∨ s.heap.length ≤ r' := by
  cases op with
  | createSession u c g =>
    obtain ⟨s', r, he, _, _, ho, hn, hl⟩ := createSession_spec h.inv hf
    simp only [runOp, he] at hv'
    by_cases e : SKey.gra u' c' g' = .gra u c g.id
    · rw [e, hn] at hv'; cases hv'; exact .inr hl
    · rw [ho.other _ (by simp) (by simp) e] at hv'; exact .inl ⟨_, hv'⟩
  | createGrant u c g =>
    obtain ⟨s', he, _, _, ho, hn⟩ := createGrant_outside h.inv hf
    simp only [runOp, he] at hv'
    by_cases e : SKey.gra u' c' g' = .gra u c g.id
    · rw [e, hn] at hv'; cases hv'; exact .inr (Nat.le_refl _)
    · rw [ho.other _ (by simp) (by simp) e] at hv'; exact .inl ⟨_, hv'⟩
  | addGrant u c g =>
    obtain ⟨s', he, _, _, hn, hother, _⟩ := addGrant_spec h.inv hf
    simp only [runOp, he] at hv'
    by_cases e : SKey.gra u' c' g' = .gra u c g.id
    · rw [e, hn] at hv'; cases hv'; exact .inr (Nat.le_refl _)
    · rw [hother _ (by simp) (by simp) e] at hv'; exact .inl ⟨_, hv'⟩
  | update u c g f =>
    simp only [runOp] at hv'
    cases hg : dbGet ⟨u, some c, some g⟩ s with
    | error e => rw [hg] at hv'; exact .inl ⟨_, hv'⟩
    | ok r =>
      obtain ⟨o, ho⟩ := (dbGet_iff h.inv (k := .gra u c g) hf r).1 hg
      obtain ⟨gr, rfl⟩ := h.inv.links.typedG _ _ _ _ _ ho
      simp only [hg] at hv'
      rw [mutate_eq (view_some_obj ho), (inv_put_grant h.inv ho (f gr)).2] at hv'
      by_cases e : SKey.gra u' c' g' = .gra u c g
      · rw [e] at hv' ⊢
        simp [upd] at hv'
        exact .inl ⟨_, by rw [ho, hv'.1]⟩
      · rw [upd_ne _ _ e] at hv'; exact .inl ⟨_, hv'⟩
  | store u c g =>
    simp only [runOp] at hv'
    cases hg : dbGet ⟨u, some c, some g⟩ s with
    | error e => rw [hg] at hv'; exact .inl ⟨_, hv'⟩
    | ok r =>
      obtain ⟨o, ho⟩ := (dbGet_iff h.inv (k := .gra u c g) hf r).1 hg
      obtain ⟨gr, rfl⟩ := h.inv.links.typedG _ _ _ _ _ ho
      obtain ⟨s', he, hi, hv, _⟩ := dbSet_grant_same h.inv ho
      simp only [hg, he, hv] at hv'
      exact .inl ⟨_, hv'⟩
  | alias u c g sid =>
    simp only [runOp] at hv'
    cases hg : dbGet ⟨u, some c, some g⟩ s with
    | error e => rw [hg] at hv'; exact .inl ⟨_, hv'⟩
    | ok r =>
      obtain ⟨o, ho⟩ := (dbGet_iff h.inv (k := .gra u c g) hf.1 r).1 hg
      obtain ⟨s', he, hi, hv, _⟩ := aliasSid_spec h.inv (foreign_of hf.2.1 hf.2.2) (view_lt ho)
      simp only [hg, he, hv] at hv'
      exact .inl ⟨_, hv'⟩
  | revokeGrant u c g =>
    simp only [runOp] at hv'
    cases hg : dbGet ⟨u, some c, some g⟩ s with
    | error e => simp only [revokeGrant, hg] at hv'; exact .inl ⟨_, hv'⟩
    | ok r =>
      obtain ⟨o, ho⟩ := (dbGet_iff h.inv (k := .gra u c g) hf r).1 hg
      obtain ⟨gr, rfl⟩ := h.inv.links.typedG _ _ _ _ _ ho
      obtain ⟨s', he, hi, hv, _⟩ := revokeGrant_spec h.inv ho
      simp only [he, hv] at hv'
      by_cases e : SKey.gra u' c' g' = .gra u c g
      · rw [e] at hv' ⊢
        simp [upd] at hv'
        exact .inl ⟨_, by rw [ho, hv'.1]⟩
      · rw [upd_ne _ _ e] at hv'; exact .inl ⟨_, hv'⟩
  | revokeClientSession u c =>
    simp only [runOp] at hv'
    cases hg : dbGet ⟨u, some c, none⟩ s with
    | error e => simp only [revokeClientSession, hg] at hv'; exact .inl ⟨_, hv'⟩
    | ok r =>
      obtain ⟨o, ho⟩ := (dbGet_iff h.inv (k := .cli u c) hf r).1 hg
      obtain ⟨ci, rfl⟩ := h.inv.links.typedC _ _ _ _ ho
      obtain ⟨s', he, hi, hv, _⟩ := revokeClientSession_spec h.inv ho
      simp only [he, hv] at hv'
      rw [upd_ne _ _ (by simp)] at hv'
      simp only [revokedView] at hv'
      split at hv'
      · cases hx : view U s (.gra u' c' g') with
        | none => rw [hx] at hv'; cases hv'
        | some q => rw [hx] at hv'; cases hv'; exact .inl ⟨_, rfl⟩
      · exact .inl ⟨_, hv'⟩
  | removeSession u c g =>
    simp only [runOp] at hv'
    have hfor := foreign_of hf.1.2.2.1.2 hf.2
    have hA := hrem _ _ _ rfl
    cases hc : view U s (.cli u c) with
    | none =>
      obtain ⟨res, s', he, hi, hv, _⟩ := removeSession_none h.inv hf.1 hfor hc
      rw [he] at hv'
      rw [show view U (res, s').2 = view U s from hv] at hv'
      exact .inl ⟨_, hv'⟩
    | some p =>
      obtain ⟨rc, o⟩ := p
      obtain ⟨ci, rfl⟩ := h.inv.links.typedC _ _ _ _ hc
      obtain ⟨ru, ui, hu, hm⟩ := h.inv.links.up1 _ _ _ hc
      obtain ⟨s', he, hi, hv, _⟩ := removeSession_some h.inv hf.1 hfor hu hc
        (not_mem_erase_of_count (h.once.cli _ _ _ _ _ hc hA)) (not_mem_erase_of_count (h.once.usr _ _ _ _ hu))
      rw [he] at hv'
      rw [show view U (Except.ok (), s').2 = _ from hv] at hv'
      simp only [removedView] at hv'
      have key : upd (view U s) (.gra u c g) none (.gra u' c' g') = some (r', o') := by
        split at hv'
        · split at hv' <;> rwa [upd_ne _ _ (by simp), upd_ne _ _ (by simp)] at hv'
        · rwa [upd_ne _ _ (by simp)] at hv'
      unfold upd at key
      split at key
      · cases key
      · exact .inl ⟨_, key⟩

/-- The heap never shrinks. -/
theorem runOp_heap {U A : String → Prop} {s : Store} (h : HInv U A s) {op : SOp} (hf : FairOp U op)
    (hrem : ∀ u c g, op = .removeSession u c g → ¬ A g) : s.heap.length ≤ (runOp s op).heap.length := by
  cases op with
  | createSession u c g =>
    obtain ⟨s', r, he, _, hk, _⟩ := createSession_spec h.inv hf
    simp only [runOp, he]; exact hk.1
  | createGrant u c g =>
    obtain ⟨s', he, _, hk, _⟩ := createGrant_outside h.inv hf
    simp only [runOp, he]; exact hk.1
  | addGrant u c g =>
    obtain ⟨s', he, _, hk, _⟩ := addGrant_spec h.inv hf
    simp only [runOp, he]; exact hk.1
  | update u c g f =>
    simp only [runOp]
    split
    · exact Nat.le_refl _
    · unfold Store.mutate
      split <;> simp [Store.put]
  | store u c g =>
    simp only [runOp]
    cases hg : dbGet ⟨u, some c, some g⟩ s with
    | error e => exact Nat.le_refl _
    | ok r =>
      obtain ⟨o, ho⟩ := (dbGet_iff h.inv (k := .gra u c g) hf r).1 hg
      obtain ⟨gr, rfl⟩ := h.inv.links.typedG _ _ _ _ _ ho
      obtain ⟨s', he, hi, hv, hk⟩ := dbSet_grant_same h.inv ho
      simp only [he]; exact hk.1
  | alias u c g sid =>
    simp only [runOp]
    cases hg : dbGet ⟨u, some c, some g⟩ s with
    | error e => exact Nat.le_refl _
    | ok r =>
      obtain ⟨o, ho⟩ := (dbGet_iff h.inv (k := .gra u c g) hf.1 r).1 hg
      obtain ⟨s', he, hi, hv, hk⟩ := aliasSid_spec h.inv (foreign_of hf.2.1 hf.2.2) (view_lt ho)
      simp only [he]; exact hk.1
  | revokeGrant u c g =>
    simp only [runOp]
    cases hg : dbGet ⟨u, some c, some g⟩ s with
    | error e => simp only [revokeGrant, hg]; exact Nat.le_refl _
    | ok r =>
      obtain ⟨o, ho⟩ := (dbGet_iff h.inv (k := .gra u c g) hf r).1 hg
      obtain ⟨gr, rfl⟩ := h.inv.links.typedG _ _ _ _ _ ho
      obtain ⟨s', he, hi, hv, hk⟩ := revokeGrant_spec h.inv ho
      simp only [he]; exact hk
  | revokeClientSession u c =>
    simp only [runOp]
    cases hg : dbGet ⟨u, some c, none⟩ s with
    | error e => simp only [revokeClientSession, hg]; exact Nat.le_refl _
    | ok r =>
      obtain ⟨o, ho⟩ := (dbGet_iff h.inv (k := .cli u c) hf r).1 hg
      obtain ⟨ci, rfl⟩ := h.inv.links.typedC _ _ _ _ ho
      obtain ⟨s', he, hi, hv, hk⟩ := revokeClientSession_spec h.inv ho
      simp only [he]; exact hk
  | removeSession u c g =>
    simp only [runOp]
    have hfor := foreign_of hf.1.2.2.1.2 hf.2
    have hA := hrem _ _ _ rfl
    cases hc : view U s (.cli u c) with
    | none =>
      obtain ⟨res, s', he, hi, hv, hk⟩ := removeSession_none h.inv hf.1 hfor hc
      rw [he]; exact hk.1
    | some p =>
      obtain ⟨rc, o⟩ := p
      obtain ⟨ci, rfl⟩ := h.inv.links.typedC _ _ _ _ hc
      obtain ⟨ru, ui, hu, hm⟩ := h.inv.links.up1 _ _ _ hc
      obtain ⟨s', he, hi, hv, hk⟩ := removeSession_some h.inv hf.1 hfor hu hc
        (not_mem_erase_of_count (h.once.cli _ _ _ _ _ hc hA)) (not_mem_erase_of_count (h.once.usr _ _ _ _ hu))
      rw [he]; exact hk.1

theorem Refines.gra {U A P : String → Prop} {s s' : Store} (h : Refines U A P s s') (hi : HInv U A s)
    {u c g : String} {r : Nat} {o : Obj} (hv : view U s' (.gra u c g) = some (r, o)) :
    (∃ o', view U s (.gra u c g) = some (r, o')) ∨ s.heap.length ≤ r := by
  obtain ⟨sops, rfl, hall⟩ := h
  induction sops generalizing s with
  | nil => exact .inl ⟨_, hv⟩
  | cons op l ih =>
    obtain ⟨h1, h2, h3, h4⟩ := hall op (by simp)
    rcases ih (hinv_step hi h1 h3 h4) (fun o ho => hall o (by simp [ho])) hv with ⟨o', ho'⟩ | hl
    · exact runOp_gra hi h1 h4 ho'
    · exact .inr (Nat.le_trans (runOp_heap hi h1 h4) hl)

end OidcOp
