/-
Lemmas about the session database.
-/
import Verif.Spec.Session
import Verif.Props.Encoding

namespace OidcOp
open Spec

/-- The storage key of a record. -/
def SKey.str : SKey → String
  | .usr u => u
  | .cli u c => key2 u c
  | .gra u c g => key3 u c g

def SKey.ids : SKey → List Str
  | .usr u => [u.toList]
  | .cli u c => [u.toList, c.toList]
  | .gra u c g => [u.toList, c.toList, g.toList]

theorem skey_str_toList (k : SKey) : (SKey.str k).toList = sessionKey (SKey.ids k) := by
  cases k <;> simp [SKey.str, SKey.ids, sessionKey, pyJoin, key2, key3, divider, String.toList_append]

theorem skey_ids_inj {k k' : SKey} (h : SKey.ids k = SKey.ids k') : k = k' := by
  cases k <;> cases k' <;> simp [SKey.ids, String.toList_inj] at h <;> simp [h]

theorem good_ids {U : String → Prop} {k : SKey} (h : k.Good U) : ∀ x ∈ SKey.ids k, ';' ∉ x := by
  cases k <;> simp [SKey.Good, GrantId, CleanId] at h <;> simp [SKey.ids, h]

theorem skey_str_inj {U : String → Prop} {k k' : SKey} (h : k.Good U) (h' : k'.Good U)
    (he : SKey.str k = SKey.str k') : k = k' := by
  apply skey_ids_inj
  apply C04_distinct_paths_distinct_keys_partial (separable_of_no_semicolon (good_ids h))
    (separable_of_no_semicolon (good_ids h')) (by cases k <;> simp [SKey.ids])
    (by cases k' <;> simp [SKey.ids])
  rw [← skey_str_toList, ← skey_str_toList, he]

/-- A string without `;` that is not a user id is no storage key of a record. -/
theorem skey_str_ne_of_clean {U : String → Prop} {k : SKey} (hk : k.Good U) {x : String} (hx : ';' ∉ x.toList)
    (hU : ¬ U x) : SKey.str k ≠ x := by
  intro he
  cases k with
  | usr u => simp [SKey.str] at he; subst he; exact hU hk.1
  | cli u c =>
    apply hx; rw [← he]; simp [SKey.str, key2, String.toList_append]
  | gra u c g =>
    apply hx; rw [← he]; simp [SKey.str, key3, String.toList_append]

/-! ### Elementary facts about stores -/

theorem lookup_eq (s : Store) (k : String) (r : Nat) (o : Obj) :
    s.lookup k = some (r, o) ↔ s.db.get? k = some r ∧ s.heap[r]? = some o := by
  unfold Store.lookup Store.obj
  cases s.db.get? k with
  | none => simp
  | some r' =>
    simp only [Option.some.injEq]
    cases h : s.heap[r']? with
    | none =>
      simp only [reduceCtorEq, false_iff]
      rintro ⟨rfl, h2⟩; rw [h] at h2; cases h2
    | some o' =>
      simp only [Option.some.injEq, Prod.mk.injEq]
      constructor
      · rintro ⟨rfl, rfl⟩; exact ⟨rfl, h⟩
      · rintro ⟨rfl, h2⟩; rw [h] at h2; cases h2; exact ⟨rfl, rfl⟩

theorem lookup_bind_self (s : Store) (k : String) (r : Nat) (o : Obj) (h : s.heap[r]? = some o) :
    (s.bind k r).lookup k = some (r, o) := by
  rw [lookup_eq]; simp [Store.bind, h]

theorem lookup_bind_ne (s : Store) {k k' : String} (r : Nat) (h : k ≠ k') :
    (s.bind k r).lookup k' = s.lookup k' := by
  simp [Store.lookup, Store.bind, Dict.get?_set_ne _ _ h, Store.obj]

theorem lookup_unbind_self (s : Store) (k : String) : (s.unbind k).lookup k = none := by
  simp [Store.lookup, Store.unbind]

theorem lookup_unbind_ne (s : Store) {k k' : String} (h : k ≠ k') :
    (s.unbind k).lookup k' = s.lookup k' := by
  simp [Store.lookup, Store.unbind, Dict.get?_erase_ne _ h, Store.obj]

/-- Every reference in the database points to an object. -/
def Valid (s : Store) : Prop := ∀ k r, s.db.get? k = some r → r < s.heap.length

theorem lookup_isSome_of_valid {s : Store} (hv : Valid s) {k : String} {r : Nat}
    (h : s.db.get? k = some r) : ∃ o, s.lookup k = some (r, o) := by
  refine ⟨s.heap[r]'(hv k r h), ?_⟩
  rw [lookup_eq]; exact ⟨h, List.getElem?_eq_getElem _⟩

theorem lookup_none_iff {s : Store} (hv : Valid s) (k : String) :
    s.lookup k = none ↔ s.db.get? k = none := by
  constructor
  · intro h
    cases hg : s.db.get? k with
    | none => rfl
    | some r => obtain ⟨o, ho⟩ := lookup_isSome_of_valid hv hg; rw [h] at ho; cases ho
  · intro h; simp [Store.lookup, h]

theorem lookup_alloc {s : Store} (hv : Valid s) (o : Obj) (k : String) :
    (s.alloc o).2.lookup k = s.lookup k := by
  unfold Store.lookup Store.alloc Store.obj
  simp only []
  cases h : s.db.get? k with
  | none => rfl
  | some r => simp [List.getElem?_append_left (hv k r h)]

theorem valid_alloc {s : Store} (hv : Valid s) (o : Obj) : Valid (s.alloc o).2 := by
  intro k r h
  have := hv k r h
  simp [Store.alloc]; omega

theorem valid_bind {s : Store} (hv : Valid s) {k : String} {r : Nat} (hr : r < s.heap.length) :
    Valid (s.bind k r) := by
  intro k' r' h
  simp only [Store.bind, Dict.get?_set] at h
  split at h
  · cases h; exact hr
  · exact hv k' r' h

theorem valid_put {s : Store} (hv : Valid s) (r : Nat) (o : Obj) : Valid (s.put r o) := by
  intro k' r' h; simp [Store.put]; exact hv k' r' h

theorem valid_unbind {s : Store} (hv : Valid s) (k : String) : Valid (s.unbind k) := by
  intro k' r' h
  simp only [Store.unbind, Dict.get?_erase] at h
  split at h
  · cases h
  · exact hv k' r' h

theorem lookup_put (s : Store) (r : Nat) (o : Obj) (k : String) :
    (s.put r o).lookup k =
      (s.lookup k).map (fun p => if p.1 = r then (r, o) else p) := by
  unfold Store.lookup Store.put Store.obj
  simp only []
  cases h : s.db.get? k with
  | none => rfl
  | some r' =>
    simp only [List.getElem?_set]
    by_cases hr : r = r'
    · subst hr
      by_cases hl : r < s.heap.length
      · simp [hl]
      · simp [hl]
    · have : ¬ r' = r := fun e => hr e.symm
      cases s.heap[r']? <;> simp [hr, this]

/-! ### get in terms of lookups -/

theorem dbGet_usr (u : String) (s : Store) : dbGet ⟨u, none, none⟩ s =
    match s.lookup u with | none => .error .keyError | some (r, _) => .ok r := by
  unfold dbGet; cases s.lookup u <;> rfl

theorem lookup_obj {s : Store} {k : String} {r : Nat} {o : Obj} (h : s.lookup k = some (r, o)) :
    s.obj r = some o := ((lookup_eq s k r o).1 h).2

theorem found_usr (u : String) (s : Store) : found s (.usr u) = (s.lookup u).map Prod.snd := by
  unfold found SKey.path
  rw [dbGet_usr]
  cases h : s.lookup u with
  | none => rfl
  | some p => obtain ⟨r, o⟩ := p; simp [lookup_obj h]

/-! ### The view of a store on the records of the users in `U` -/

open Classical in
noncomputable def view (U : String → Prop) (s : Store) (k : SKey) : Option (Nat × Obj) :=
  if k.Good U then s.lookup (SKey.str k) else none

theorem view_good {U : String → Prop} (s : Store) {k : SKey} (h : k.Good U) :
    view U s k = s.lookup (SKey.str k) := by simp [view, h]

theorem view_some {U : String → Prop} {s : Store} {k : SKey} {x : Nat × Obj} (h : view U s k = some x) :
    k.Good U ∧ s.lookup (SKey.str k) = some x := by
  unfold view at h; split at h
  · rename_i hg; exact ⟨hg, h⟩
  · cases h

theorem view_some_obj {U : String → Prop} {s : Store} {k : SKey} {r : Nat} {o : Obj}
    (h : view U s k = some (r, o)) : s.obj r = some o := lookup_obj (view_some h).2

/-- Function update. -/
def upd {β : Type} (V : SKey → β) (k : SKey) (x : β) : SKey → β := fun k' => if k' = k then x else V k'

@[simp] theorem upd_self {β : Type} (V : SKey → β) (k : SKey) (x : β) : upd V k x k = x := by simp [upd]
theorem upd_ne {β : Type} (V : SKey → β) {k k' : SKey} (x : β) (h : k' ≠ k) : upd V k x k' = V k' := by
  simp [upd, h]

/-- Different records are different objects. -/
def NoAlias (V : SKey → Option (Nat × Obj)) : Prop :=
  ∀ k k' r o o', V k = some (r, o) → V k' = some (r, o') → k = k'

/-- `r` is not the object of any record but possibly `k`. -/
def FreeFor (V : SKey → Option (Nat × Obj)) (k : SKey) (r : Nat) : Prop :=
  ∀ k' o, V k' = some (r, o) → k' = k

structure WF (U : String → Prop) (s : Store) : Prop where
  valid : Valid s
  noalias : NoAlias (view U s)

theorem view_bind {U : String → Prop} (s : Store) {k : SKey} (hk : k.Good U) {r : Nat} {o : Obj}
    (h : s.heap[r]? = some o) : view U (s.bind (SKey.str k) r) = upd (view U s) k (some (r, o)) := by
  funext k'
  by_cases hk' : k'.Good U
  · by_cases he : k' = k
    · subst he; simp [view, hk, lookup_bind_self s _ r o h]
    · rw [upd_ne _ _ he, view_good _ hk', view_good _ hk']
      exact lookup_bind_ne s r (fun e => he (skey_str_inj hk hk' e).symm)
  · have : k' ≠ k := fun e => hk' (e ▸ hk)
    simp [view, hk', upd, this]

theorem view_unbind {U : String → Prop} (s : Store) {k : SKey} (hk : k.Good U) :
    view U (s.unbind (SKey.str k)) = upd (view U s) k none := by
  funext k'
  by_cases hk' : k'.Good U
  · by_cases he : k' = k
    · subst he; simp [view, hk, lookup_unbind_self]
    · rw [upd_ne _ _ he, view_good _ hk', view_good _ hk']
      exact lookup_unbind_ne s (fun e => he (skey_str_inj hk hk' e).symm)
  · have : k' ≠ k := fun e => hk' (e ▸ hk)
    simp [view, hk', upd, this]

/-- A key that belongs to no record of a user. -/
def Foreign (U : String → Prop) (x : String) : Prop := ∀ k : SKey, k.Good U → SKey.str k ≠ x

theorem view_bind_foreign {U : String → Prop} (s : Store) {x : String} (hx : Foreign U x) (r : Nat) :
    view U (s.bind x r) = view U s := by
  funext k'
  by_cases hk' : k'.Good U
  · rw [view_good _ hk', view_good _ hk']
    exact lookup_bind_ne s r (fun e => hx k' hk' e.symm)
  · simp [view, hk']

theorem view_unbind_foreign {U : String → Prop} (s : Store) {x : String} (hx : Foreign U x) :
    view U (s.unbind x) = view U s := by
  funext k'
  by_cases hk' : k'.Good U
  · rw [view_good _ hk', view_good _ hk']
    exact lookup_unbind_ne s (fun e => hx k' hk' e.symm)
  · simp [view, hk']

theorem view_alloc {U : String → Prop} {s : Store} (hv : Valid s) (o : Obj) :
    view U (s.alloc o).2 = view U s := by
  funext k'; simp [view, lookup_alloc hv]

theorem view_put {U : String → Prop} {s : Store} (hn : NoAlias (view U s)) {k : SKey} {r : Nat} {o0 o : Obj}
    (hk : view U s k = some (r, o0)) : view U (s.put r o) = upd (view U s) k (some (r, o)) := by
  funext k'
  by_cases hk' : k'.Good U
  · have hv := view_good s hk'
    rw [view_good _ hk', lookup_put, ← hv]
    by_cases he : k' = k
    · subst he; simp [hk]
    · rw [upd_ne _ _ he]
      cases hx : view U s k' with
      | none => rfl
      | some p =>
        obtain ⟨r', o'⟩ := p
        have : r' ≠ r := by
          intro e; subst e; exact he (hn _ _ _ _ _ hx hk)
        simp [this]
  · have : k' ≠ k := fun e => hk' (e ▸ (view_some hk).1)
    simp [view, hk', upd, this]

/-- Mutating an object that no user record refers to is not seen. -/
theorem view_put_free {U : String → Prop} {s : Store} {r : Nat} (o : Obj)
    (hf : ∀ k o', view U s k ≠ some (r, o')) : view U (s.put r o) = view U s := by
  funext k'
  by_cases hk' : k'.Good U
  · have hv := view_good s hk'
    rw [view_good _ hk', lookup_put, ← hv]
    cases hx : view U s k' with
    | none => rfl
    | some p =>
      obtain ⟨r', o'⟩ := p
      have : r' ≠ r := by intro e; subst e; exact hf _ _ hx
      simp [this]
  · simp [view, hk']

theorem noalias_upd_some {V : SKey → Option (Nat × Obj)} (hn : NoAlias V) {k : SKey} {r : Nat} (o : Obj)
    (hf : FreeFor V k r) : NoAlias (upd V k (some (r, o))) := by
  intro a b r' o1 o2 ha hb
  unfold upd at ha hb
  by_cases h1 : a = k <;> by_cases h2 : b = k
  · rw [h1, h2]
  · simp only [h1, if_true, Option.some.injEq, Prod.mk.injEq] at ha
    simp only [h2, if_false] at hb
    rw [← ha.1] at hb
    exact absurd (hf _ _ hb) h2
  · simp only [h2, if_true, Option.some.injEq, Prod.mk.injEq] at hb
    simp only [h1, if_false] at ha
    rw [← hb.1] at ha
    exact absurd (hf _ _ ha) h1
  · simp only [h1, h2, if_false] at ha hb
    exact hn _ _ _ _ _ ha hb

theorem noalias_upd_none {V : SKey → Option (Nat × Obj)} (hn : NoAlias V) (k : SKey) :
    NoAlias (upd V k none) := by
  intro a b r' o1 o2 ha hb
  unfold upd at ha hb
  by_cases h1 : a = k <;> by_cases h2 : b = k <;> simp [h1, h2] at ha hb
  exact hn _ _ _ _ _ ha hb

theorem view_lt {U : String → Prop} {s : Store} {k : SKey} {r : Nat} {o : Obj}
    (h : view U s k = some (r, o)) : r < s.heap.length := by
  have := ((lookup_eq _ _ _ _).1 (view_some h).2).2
  exact (List.getElem?_eq_some_iff.1 this).1

theorem freeFor_new {U : String → Prop} (s : Store) (k : SKey) : FreeFor (view U s) k s.heap.length := by
  intro k' o h
  have := view_lt h
  omega

/-! Primitive operations: well-formedness and effect on the view. -/

theorem WF.bind {U : String → Prop} {s : Store} (h : WF U s) {k : SKey} (hk : k.Good U) {r : Nat} {o : Obj}
    (hr : s.heap[r]? = some o) (hf : FreeFor (view U s) k r) : WF U (s.bind (SKey.str k) r) := by
  refine ⟨valid_bind h.valid (List.getElem?_eq_some_iff.1 hr).1, ?_⟩
  rw [view_bind s hk hr]
  exact noalias_upd_some h.noalias o hf

theorem WF.unbind {U : String → Prop} {s : Store} (h : WF U s) {k : SKey} (hk : k.Good U) :
    WF U (s.unbind (SKey.str k)) := by
  refine ⟨valid_unbind h.valid _, ?_⟩
  rw [view_unbind s hk]
  exact noalias_upd_none h.noalias k

theorem WF.bind_foreign {U : String → Prop} {s : Store} (h : WF U s) {x : String} (hx : Foreign U x) {r : Nat}
    (hr : r < s.heap.length) : WF U (s.bind x r) := by
  refine ⟨valid_bind h.valid hr, ?_⟩
  rw [view_bind_foreign s hx]; exact h.noalias

theorem WF.unbind_foreign {U : String → Prop} {s : Store} (h : WF U s) {x : String} (hx : Foreign U x) :
    WF U (s.unbind x) := by
  refine ⟨valid_unbind h.valid _, ?_⟩
  rw [view_unbind_foreign s hx]; exact h.noalias

theorem WF.put {U : String → Prop} {s : Store} (h : WF U s) {k : SKey} {r : Nat} {o0 : Obj} (o : Obj)
    (hk : view U s k = some (r, o0)) : WF U (s.put r o) := by
  refine ⟨valid_put h.valid r o, ?_⟩
  rw [view_put h.noalias hk]
  exact noalias_upd_some h.noalias o (fun k' o' h' => h.noalias _ _ _ _ _ h' hk)

theorem WF.alloc {U : String → Prop} {s : Store} (h : WF U s) (o : Obj) : WF U (s.alloc o).2 := by
  refine ⟨valid_alloc h.valid o, ?_⟩
  rw [view_alloc h.valid]; exact h.noalias

/-! ### The invariant -/

/-- Links between the records, as seen through the view. -/
structure VInv (V : SKey → Option (Nat × Obj)) : Prop where
  typedU : ∀ u r o, V (.usr u) = some (r, o) → ∃ i, o = .info i
  typedC : ∀ u c r o, V (.cli u c) = some (r, o) → ∃ i, o = .info i
  typedG : ∀ u c g r o, V (.gra u c g) = some (r, o) → ∃ i, o = .grant i
  down1 : ∀ u r i c, V (.usr u) = some (r, .info i) → c ∈ i.subordinate → ∃ x, V (.cli u c) = some x
  down2 : ∀ u c r i g, V (.cli u c) = some (r, .info i) → g ∈ i.subordinate → ∃ x, V (.gra u c g) = some x
  up1 : ∀ u c x, V (.cli u c) = some x → ∃ r i, V (.usr u) = some (r, .info i) ∧ c ∈ i.subordinate
  up2 : ∀ u c g x, V (.gra u c g) = some x → ∃ r i, V (.cli u c) = some (r, .info i) ∧ g ∈ i.subordinate

/-- The session database invariant. -/
structure DbInv (U : String → Prop) (s : Store) : Prop where
  wf : WF U s
  links : VInv (view U s)

/-- A client's list may be extended by grants that are stored. -/
theorem vinv_addGrant {V : SKey → Option (Nat × Obj)} (h : VInv V) {u c g : String} {rc : Nat} {ci : SInfo}
    (hc : V (.cli u c) = some (rc, .info ci)) (rv : Nat) (gr : Grant) (ci' : SInfo)
    (hsub : ∀ x, x ∈ ci'.subordinate ↔ x ∈ ci.subordinate ∨ x = g) :
    VInv (upd (upd V (.gra u c g) (some (rv, .grant gr))) (.cli u c) (some (rc, .info ci'))) := by
  constructor
  · intro u' r o h'
    simp [upd] at h'; exact h.typedU _ _ _ h'
  · intro u' c' r o h'
    simp only [upd] at h'
    split at h'
    · cases h'; exact ⟨_, rfl⟩
    · simp at h'; exact h.typedC _ _ _ _ h'
  · intro u' c' g' r o h'
    simp only [upd, reduceCtorEq, if_false] at h'
    split at h'
    · cases h'; exact ⟨_, rfl⟩
    · exact h.typedG _ _ _ _ _ h'
  · intro u' r i c' h' hm
    simp [upd] at h'
    obtain ⟨x, hx⟩ := h.down1 _ _ _ _ h' hm
    simp only [upd]
    split
    · exact ⟨_, rfl⟩
    · simp [hx]
  · intro u' c' r i g' h' hm
    simp only [upd] at h'
    simp only [upd, reduceCtorEq, if_false]
    split at h'
    · rename_i he
      cases he; cases h'
      rcases (hsub g').1 hm with hm | rfl
      · obtain ⟨x, hx⟩ := h.down2 _ _ _ _ _ hc hm
        split
        · exact ⟨_, rfl⟩
        · exact ⟨x, hx⟩
      · simp
    · simp at h'
      obtain ⟨x, hx⟩ := h.down2 _ _ _ _ _ h' hm
      split
      · exact ⟨_, rfl⟩
      · exact ⟨x, hx⟩
  · intro u' c' x h'
    simp only [upd] at h'
    have : ∃ y, V (.cli u' c') = some y := by
      split at h'
      · rename_i he; cases he; exact ⟨_, hc⟩
      · simp at h'; exact ⟨_, h'⟩
    obtain ⟨y, hy⟩ := this
    obtain ⟨r, i, hr, hi⟩ := h.up1 _ _ _ hy
    exact ⟨r, i, by simpa [upd] using hr, hi⟩
  · intro u' c' g' x h'
    simp only [upd, reduceCtorEq, if_false] at h'
    simp only [upd]
    split at h'
    · rename_i he
      cases he
      exact ⟨rc, ci', by simp, (hsub g).2 (.inr rfl)⟩
    · obtain ⟨r, i, hr, hi⟩ := h.up2 _ _ _ _ h'
      by_cases he : SKey.cli u' c' = SKey.cli u c
      · simp only [he, if_true]
        cases he
        rw [hc] at hr; cases hr
        exact ⟨rc, ci', rfl, (hsub g').2 (.inl hi)⟩
      · simp only [he, if_false]
        exact ⟨r, i, by simpa using hr, hi⟩

/-- A new client session without grants. -/
theorem vinv_addClient {V : SKey → Option (Nat × Obj)} (h : VInv V) {u c : String} {ru : Nat} {ui : SInfo}
    (hu : V (.usr u) = some (ru, .info ui)) (hc : V (.cli u c) = none) (rn : Nat) (ci : SInfo)
    (hci : ci.subordinate = []) (ui' : SInfo)
    (hsub : ∀ x, x ∈ ui'.subordinate ↔ x ∈ ui.subordinate ∨ x = c) :
    VInv (upd (upd V (.cli u c) (some (rn, .info ci))) (.usr u) (some (ru, .info ui'))) := by
  constructor
  · intro u' r o h'
    simp only [upd] at h'
    split at h'
    · cases h'; exact ⟨_, rfl⟩
    · simp at h'; exact h.typedU _ _ _ h'
  · intro u' c' r o h'
    simp only [upd, reduceCtorEq, if_false] at h'
    split at h'
    · cases h'; exact ⟨_, rfl⟩
    · exact h.typedC _ _ _ _ h'
  · intro u' c' g' r o h'
    simp [upd] at h'; exact h.typedG _ _ _ _ _ h'
  · intro u' r i c' h' hm
    simp only [upd] at h'
    simp only [upd, reduceCtorEq, if_false]
    split at h'
    · rename_i he
      cases he; cases h'
      rcases (hsub c').1 hm with hm | rfl
      · obtain ⟨x, hx⟩ := h.down1 _ _ _ _ hu hm
        split
        · exact ⟨_, rfl⟩
        · exact ⟨x, hx⟩
      · simp
    · simp at h'
      obtain ⟨x, hx⟩ := h.down1 _ _ _ _ h' hm
      split
      · exact ⟨_, rfl⟩
      · exact ⟨x, hx⟩
  · intro u' c' r i g' h' hm
    simp only [upd, reduceCtorEq, if_false] at h'
    split at h'
    · cases h'; rw [hci] at hm; simp at hm
    · obtain ⟨x, hx⟩ := h.down2 _ _ _ _ _ h' hm
      exact ⟨x, by simpa [upd] using hx⟩
  · intro u' c' x h'
    simp only [upd, reduceCtorEq, if_false] at h'
    simp only [upd]
    split at h'
    · rename_i he
      cases he
      exact ⟨ru, ui', by simp, (hsub c).2 (.inr rfl)⟩
    · obtain ⟨r, i, hr, hi⟩ := h.up1 _ _ _ h'
      by_cases he : SKey.usr u' = SKey.usr u
      · simp only [he, if_true]
        cases he
        rw [hu] at hr; cases hr
        exact ⟨ru, ui', rfl, (hsub c').2 (.inl hi)⟩
      · simp only [he, if_false]
        exact ⟨r, i, by simpa using hr, hi⟩
  · intro u' c' g' x h'
    simp [upd] at h'
    obtain ⟨r, i, hr, hi⟩ := h.up2 _ _ _ _ h'
    refine ⟨r, i, ?_, hi⟩
    have : SKey.cli u' c' ≠ SKey.cli u c := by
      intro e; cases e; rw [hc] at hr; cases hr
    simp [upd, this, hr]

/-- A new user without client sessions. -/
theorem vinv_addUser {V : SKey → Option (Nat × Obj)} (h : VInv V) {u : String}
    (hu : V (.usr u) = none) (rn : Nat) (ui : SInfo) (hui : ui.subordinate = []) :
    VInv (upd V (.usr u) (some (rn, .info ui))) := by
  constructor
  · intro u' r o h'
    simp only [upd] at h'
    split at h'
    · cases h'; exact ⟨_, rfl⟩
    · exact h.typedU _ _ _ h'
  · intro u' c' r o h'
    simp [upd] at h'; exact h.typedC _ _ _ _ h'
  · intro u' c' g' r o h'
    simp [upd] at h'; exact h.typedG _ _ _ _ _ h'
  · intro u' r i c' h' hm
    simp only [upd] at h'
    split at h'
    · cases h'; rw [hui] at hm; simp at hm
    · obtain ⟨x, hx⟩ := h.down1 _ _ _ _ h' hm
      exact ⟨x, by simpa [upd] using hx⟩
  · intro u' c' r i g' h' hm
    simp [upd] at h'
    obtain ⟨x, hx⟩ := h.down2 _ _ _ _ _ h' hm
    exact ⟨x, by simpa [upd] using hx⟩
  · intro u' c' x h'
    simp [upd] at h'
    obtain ⟨r, i, hr, hi⟩ := h.up1 _ _ _ h'
    refine ⟨r, i, ?_, hi⟩
    have : SKey.usr u' ≠ SKey.usr u := by intro e; cases e; rw [hu] at hr; cases hr
    simp [upd, this, hr]
  · intro u' c' g' x h'
    simp [upd] at h'
    obtain ⟨r, i, hr, hi⟩ := h.up2 _ _ _ _ h'
    exact ⟨r, i, by simpa [upd] using hr, hi⟩

/-- Replacing the object of a record by one of the same kind with the same list. -/
theorem vinv_replace {V : SKey → Option (Nat × Obj)} (h : VInv V) {k : SKey} {r r' : Nat} {o o' : Obj}
    (hk : V k = some (r, o))
    (ho : (∃ i i', o = .info i ∧ o' = .info i' ∧ ∀ x, x ∈ i'.subordinate ↔ x ∈ i.subordinate) ∨
      (∃ g g', o = .grant g ∧ o' = .grant g')) :
    VInv (upd V k (some (r', o'))) := by
  have back : ∀ k' r1 o1, upd V k (some (r', o')) k' = some (r1, o1) →
      ∃ r2 o2, V k' = some (r2, o2) ∧
        ((∃ i i', o2 = .info i ∧ o1 = .info i' ∧ ∀ x, x ∈ i'.subordinate ↔ x ∈ i.subordinate) ∨
          (∃ g g', o2 = .grant g ∧ o1 = .grant g')) := by
    intro k' r1 o1 h'
    unfold upd at h'
    split at h'
    · rename_i he; subst he; cases h'; exact ⟨r, o, hk, ho⟩
    · refine ⟨r1, o1, h', ?_⟩
      cases o1 with
      | info i => exact .inl ⟨i, i, rfl, rfl, fun _ => Iff.rfl⟩
      | grant g => exact .inr ⟨g, g, rfl, rfl⟩
  have fwd : ∀ k' r1 o1, V k' = some (r1, o1) → ∃ r2 o2, upd V k (some (r', o')) k' = some (r2, o2) ∧
      ((∃ i i', o1 = .info i ∧ o2 = .info i' ∧ ∀ x, x ∈ i'.subordinate ↔ x ∈ i.subordinate) ∨
          (∃ g g', o1 = .grant g ∧ o2 = .grant g')) := by
    intro k' r1 o1 h'
    unfold upd
    split
    · rename_i he; subst he; rw [hk] at h'; cases h'; exact ⟨_, _, rfl, ho⟩
    · refine ⟨r1, o1, h', ?_⟩
      cases o1 with
      | info i => exact .inl ⟨i, i, rfl, rfl, fun _ => Iff.rfl⟩
      | grant g => exact .inr ⟨g, g, rfl, rfl⟩
  constructor
  · intro u r1 o1 h'
    obtain ⟨r2, o2, h2, hor⟩ := back _ _ _ h'
    obtain ⟨i, rfl⟩ := h.typedU _ _ _ h2
    rcases hor with ⟨_, i', _, rfl, _⟩ | ⟨_, _, h3, _⟩
    · exact ⟨i', rfl⟩
    · cases h3
  · intro u c r1 o1 h'
    obtain ⟨r2, o2, h2, hor⟩ := back _ _ _ h'
    obtain ⟨i, rfl⟩ := h.typedC _ _ _ _ h2
    rcases hor with ⟨_, i', _, rfl, _⟩ | ⟨_, _, h3, _⟩
    · exact ⟨i', rfl⟩
    · cases h3
  · intro u c g r1 o1 h'
    obtain ⟨r2, o2, h2, hor⟩ := back _ _ _ h'
    obtain ⟨i, rfl⟩ := h.typedG _ _ _ _ _ h2
    rcases hor with ⟨_, _, h3, _⟩ | ⟨_, g', _, rfl⟩
    · cases h3
    · exact ⟨g', rfl⟩
  · intro u r1 i c h' hm
    obtain ⟨r2, o2, h2, hor⟩ := back _ _ _ h'
    rcases hor with ⟨i2, i', rfl, h3, hs⟩ | ⟨_, _, _, h3⟩
    · cases h3
      obtain ⟨x, hx⟩ := h.down1 _ _ _ _ h2 ((hs c).1 hm)
      obtain ⟨r3, o3, h3, _⟩ := fwd _ x.1 x.2 hx
      exact ⟨_, h3⟩
    · cases h3
  · intro u c r1 i g h' hm
    obtain ⟨r2, o2, h2, hor⟩ := back _ _ _ h'
    rcases hor with ⟨i2, i', rfl, h3, hs⟩ | ⟨_, _, _, h3⟩
    · cases h3
      obtain ⟨x, hx⟩ := h.down2 _ _ _ _ _ h2 ((hs g).1 hm)
      obtain ⟨r3, o3, h3, _⟩ := fwd _ x.1 x.2 hx
      exact ⟨_, h3⟩
    · cases h3
  · intro u c x h'
    obtain ⟨r2, o2, h2, _⟩ := back _ x.1 x.2 h'
    obtain ⟨r3, i, h3, hi⟩ := h.up1 _ _ _ h2
    obtain ⟨r4, o4, h4, hor⟩ := fwd _ _ _ h3
    rcases hor with ⟨i2, i', h5, rfl, hs⟩ | ⟨_, _, h5, _⟩
    · cases h5; exact ⟨r4, i', h4, (hs c).2 hi⟩
    · cases h5
  · intro u c g x h'
    obtain ⟨r2, o2, h2, _⟩ := back _ x.1 x.2 h'
    obtain ⟨r3, i, h3, hi⟩ := h.up2 _ _ _ _ h2
    obtain ⟨r4, o4, h4, hor⟩ := fwd _ _ _ h3
    rcases hor with ⟨i2, i', h5, rfl, hs⟩ | ⟨_, _, h5, _⟩
    · cases h5; exact ⟨r4, i', h4, (hs g).2 hi⟩
    · cases h5

end OidcOp
