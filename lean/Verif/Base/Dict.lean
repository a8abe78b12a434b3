/-
Python dictionaries as association lists.
-/
namespace OidcOp

/-- A Python `dict` with `str` keys: insertion ordered association list. -/
abbrev Dict (α : Type) := List (String × α)

namespace Dict
variable {α : Type}

/-- `d.get(k)` -/
def get? (d : Dict α) (k : String) : Option α :=
  match d with
  | [] => none
  | (k', v) :: r => if k' = k then some v else get? r k

/-- `k in d` -/
def has (d : Dict α) (k : String) : Bool := (d.get? k).isSome

/-- `d[k] = v`: replace in place or append at the end. -/
def set (d : Dict α) (k : String) (v : α) : Dict α :=
  match d with
  | [] => [(k, v)]
  | (k', v') :: r => if k' = k then (k, v) :: r else (k', v') :: set r k v

/-- `del d[k]` (no effect if absent; the KeyError is modelled by the caller). -/
def erase (d : Dict α) (k : String) : Dict α :=
  match d with
  | [] => []
  | (k', v') :: r => if k' = k then erase r k else (k', v') :: erase r k

/-- `d.update(e)` -/
def update (d : Dict α) (e : Dict α) : Dict α :=
  e.foldl (fun acc kv => acc.set kv.1 kv.2) d

/-- `list(d.keys())` -/
def keys (d : Dict α) : List String := d.map (·.1)

@[simp] theorem get?_nil (k : String) : get? ([] : Dict α) k = none := rfl

theorem get?_cons (k' : String) (v : α) (r : Dict α) (k : String) :
    get? ((k', v) :: r) k = if k' = k then some v else get? r k := rfl

theorem get?_set (d : Dict α) (k k' : String) (v : α) :
    (d.set k v).get? k' = if k = k' then some v else d.get? k' := by
  induction d with
  | nil => simp [set, get?]
  | cons h t ih =>
    obtain ⟨a, b⟩ := h
    by_cases h1 : a = k
    · subst h1
      by_cases h2 : a = k' <;> simp [set, get?, h2]
    · by_cases h2 : k = k'
      · subst h2; simp [set, get?, h1, ih]
      · simp [set, get?, h1, ih, h2]

@[simp] theorem get?_set_self (d : Dict α) (k : String) (v : α) : (d.set k v).get? k = some v := by
  simp [get?_set]

theorem get?_set_ne (d : Dict α) {k k' : String} (v : α) (h : k ≠ k') :
    (d.set k v).get? k' = d.get? k' := by simp [get?_set, h]

theorem get?_erase (d : Dict α) (k k' : String) :
    (d.erase k).get? k' = if k = k' then none else d.get? k' := by
  induction d with
  | nil => simp [erase, get?]
  | cons h t ih =>
    obtain ⟨a, b⟩ := h
    by_cases h1 : a = k
    · subst h1
      by_cases h2 : a = k'
      · simp only [h2, if_true] at ih ⊢
        simp [erase, ih]
      · simp [erase, get?, h2, ih]
    · by_cases h2 : k = k'
      · subst h2; simp [erase, get?, h1, ih]
      · simp [erase, get?, h1, ih, h2]

@[simp] theorem get?_erase_self (d : Dict α) (k : String) : (d.erase k).get? k = none := by
  simp [get?_erase]

theorem get?_erase_ne (d : Dict α) {k k' : String} (h : k ≠ k') :
    (d.erase k).get? k' = d.get? k' := by simp [get?_erase, h]

theorem get?_isSome_iff (d : Dict α) (k : String) : (d.get? k).isSome = true ↔ k ∈ d.keys := by
  induction d with
  | nil => simp [get?, keys]
  | cons h t ih =>
    obtain ⟨a, b⟩ := h
    simp only [keys] at ih
    by_cases h1 : a = k
    · simp [get?, keys, h1]
    · simp [get?, keys, h1, ih, Ne.symm h1]

theorem has_iff (d : Dict α) (k : String) : d.has k = true ↔ k ∈ d.keys := get?_isSome_iff d k

theorem get?_eq_none_iff (d : Dict α) (k : String) : d.get? k = none ↔ k ∉ d.keys := by
  rw [← get?_isSome_iff]; cases d.get? k <;> simp

theorem get?_mem {d : Dict α} {k : String} {v : α} (h : d.get? k = some v) : (k, v) ∈ d := by
  induction d with
  | nil => simp [get?] at h
  | cons x t ih =>
    obtain ⟨a, b⟩ := x
    by_cases h1 : a = k
    · simp [get?, h1] at h; simp [h1, h]
    · simp [get?, h1] at h; exact List.mem_cons_of_mem _ (ih h)

/-- Looking a key up after `d.update(e)`: the last binding in `e` wins, else `d`'s. -/
theorem get?_update (d e : Dict α) (k : String) :
    (d.update e).get? k = match get? e.reverse k with | some v => some v | none => d.get? k := by
  unfold update
  induction e generalizing d with
  | nil => simp
  | cons x t ih =>
    obtain ⟨a, b⟩ := x
    simp only [List.foldl_cons, List.reverse_cons]
    rw [ih]
    have happ : ∀ (l : Dict α), get? (l ++ [(a, b)]) k =
        match get? l k with | some v => some v | none => if a = k then some b else none := by
      intro l
      induction l with
      | nil => simp [get?]
      | cons y s ihs =>
        obtain ⟨c, d'⟩ := y
        by_cases h : c = k
        · simp [get?, h]
        · simp [get?, h, ihs]
    rw [happ, get?_set]
    cases get? t.reverse k <;> by_cases h : a = k <;> simp [h]

theorem get?_reverse_of_nodup {e : Dict α} (h : e.keys.Nodup) (k : String) :
    get? e.reverse k = get? e k := by
  induction e with
  | nil => rfl
  | cons x t ih =>
    obtain ⟨a, b⟩ := x
    simp only [keys, List.map_cons, List.nodup_cons] at h
    have happ : ∀ (l : Dict α), get? (l ++ [(a, b)]) k =
        match get? l k with | some v => some v | none => if a = k then some b else none := by
      intro l
      induction l with
      | nil => simp [get?]
      | cons y s ihs =>
        obtain ⟨c, d'⟩ := y
        by_cases h : c = k
        · simp [get?, h]
        · simp [get?, h, ihs]
    rw [List.reverse_cons, happ, ih h.2]
    by_cases hk : a = k
    · subst hk
      have : get? t a = none := by rw [get?_eq_none_iff]; exact h.1
      simp [get?, this]
    · simp only [get?, hk, if_false]
      cases get? t k <;> rfl

theorem get?_update_of_nodup {d e : Dict α} (h : e.keys.Nodup) (k : String) :
    (d.update e).get? k = match get? e k with | some v => some v | none => d.get? k := by
  rw [get?_update, get?_reverse_of_nodup h]

theorem has_set (d : Dict α) (k k' : String) (v : α) :
    (d.set k v).has k' = (decide (k = k') || d.has k') := by
  by_cases h : k = k' <;> simp [has, get?_set, h]

theorem has_erase (d : Dict α) (k k' : String) :
    (d.erase k).has k' = (!decide (k = k') && d.has k') := by
  by_cases h : k = k' <;> simp [has, get?_erase, h]

end Dict
end OidcOp
