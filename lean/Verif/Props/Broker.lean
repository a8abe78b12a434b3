/-
Authentication methods are found by their acr (C110).
-/
import Verif.Spec.Broker

namespace OidcOp
open Spec

theorem dict_set_absent {α : Type} {d : Dict α} {k : String} (v : α) (h : d.get? k = none) : d.set k v = d ++ [(k, v)] := by
  induction d with
  | nil => rfl
  | cons x t ih =>
    obtain ⟨a, b⟩ := x
    rw [Dict.get?_cons] at h
    by_cases e : a = k
    · rw [if_pos e] at h; cases h
    · rw [if_neg e] at h
      simp only [Dict.set, if_neg e, ih h, List.cons_append]

theorem dict_erase_filter {α : Type} (d : Dict α) (k : String) : d.erase k = d.filter (fun x => decide (x.1 ≠ k)) := by
  induction d with
  | nil => rfl
  | cons x t ih =>
    obtain ⟨a, b⟩ := x
    by_cases e : a = k
    · simp [Dict.erase, e, ih]
    · simp [Dict.erase, e, ih]

theorem dict_get_of_mem {α : Type} {d : Dict α} (hn : d.keys.Nodup) {k : String} {v : α} (h : (k, v) ∈ d) : d.get? k = some v := by
  induction d with
  | nil => cases h
  | cons x t ih =>
    obtain ⟨a, b⟩ := x
    rw [Dict.get?_cons]
    unfold Dict.keys at hn
    rw [List.map_cons, List.nodup_cons] at hn
    rcases List.mem_cons.1 h with e | e
    · cases e; rw [if_pos rfl]
    · rw [if_neg, ih hn.2 e]
      rintro rfl
      exact hn.1 (List.mem_map.2 ⟨_, e, rfl⟩)

/-! ### All histories -/

/-- The database agrees with the history, and the index has every method. -/
structure Loose (ops : List BrokerOp) (b : Broker) : Prop where
  db : ∀ k, b.db.get? k = under k ops
  index : ∀ k m, b.db.get? k = some m → ∃ ids, b.acr2id.get? m.acr = some ids ∧ k ∈ ids

theorem under_snoc (k : String) (ops : List BrokerOp) (op : BrokerOp) : under k (ops ++ [op]) = thenUnder k (under k ops) op := by
  unfold under; rw [List.foldl_append]; rfl

theorem setItem_bad {k : String} {i : BrokerInfo} {b : Broker} (h : i.acr = none ∨ i.method = none) : (Broker.setItem k i b).2 = b := by
  unfold Broker.setItem
  rcases h with h | h
  · rw [h]
  · rw [h]; cases i.acr <;> rfl

theorem setItem_good {k a m : String} {i : BrokerInfo} {b : Broker} (h1 : i.acr = some a) (h2 : i.method = some m) :
    (Broker.setItem k i b).2 = { db := b.db.set k { id := m, acr := a, expiresIn := i.expiresIn }
                                 acr2id := b.acr2id.set a (((b.acr2id.get? a).getD []) ++ [k]) } := by
  unfold Broker.setItem
  rw [h1, h2]

theorem loose_step {ops : List BrokerOp} {b : Broker} (h : Loose ops b) (op : BrokerOp) : Loose (ops ++ [op]) (b.step op) := by
  cases op with
  | add k i =>
    show Loose _ (Broker.setItem k i b).2
    cases ha : i.acr with
    | none =>
      rw [setItem_bad (.inl ha)]
      refine ⟨fun k' => ?_, h.index⟩
      rw [under_snoc]
      simp only [thenUnder, ha, ite_self]
      exact h.db k'
    | some a =>
      cases hm : i.method with
      | none =>
        rw [setItem_bad (.inr hm)]
        refine ⟨fun k' => ?_, h.index⟩
        rw [under_snoc]
        simp only [thenUnder, ha, hm, ite_self]
        exact h.db k'
      | some m =>
        rw [setItem_good ha hm]
        constructor
        · intro k'
          rw [under_snoc]
          simp only [thenUnder, ha, hm]
          rw [Dict.get?_set, h.db]
        · intro k' m' hk
          rw [Dict.get?_set] at hk ⊢
          by_cases e : k = k'
          · rw [if_pos e] at hk
            cases hk
            exact ⟨_, if_pos rfl, by simp [e]⟩
          · rw [if_neg e] at hk
            obtain ⟨ids, h1, h2⟩ := h.index k' m' hk
            by_cases ea : a = m'.acr
            · subst ea
              exact ⟨_, if_pos rfl, by rw [h1]; simp [h2]⟩
            · exact ⟨ids, by rw [if_neg ea]; exact h1, h2⟩
  | del k =>
    show Loose _ (Broker.delItem k b).2
    unfold Broker.delItem
    cases hk : b.db.get? k with
    | none =>
      refine ⟨fun k' => ?_, h.index⟩
      rw [under_snoc]
      simp only [thenUnder]
      by_cases e : k = k'
      · subst e; rw [if_pos rfl]; exact hk
      · rw [if_neg e]; exact h.db k'
    | some m =>
      obtain ⟨ids, h1, h2⟩ := h.index k m hk
      simp only [h1, if_pos h2]
      constructor
      · intro k'
        rw [under_snoc]
        simp only [thenUnder]
        rw [Dict.get?_erase, h.db]
      · intro k' m' hk'
        rw [Dict.get?_erase] at hk'
        by_cases e : k = k'
        · rw [if_pos e] at hk'; cases hk'
        · rw [if_neg e] at hk'
          obtain ⟨ids', h3, h4⟩ := h.index k' m' hk'
          unfold indexWithout
          by_cases ea : m.acr = m'.acr
          · rw [ea, h3] at h1
            cases h1
            have hin : k' ∈ ids.erase k := (List.mem_erase_of_ne (Ne.symm e)).2 h4
            rw [if_neg (by intro hz; rw [List.isEmpty_iff] at hz; rw [hz] at hin; cases hin), ea]
            exact ⟨_, Dict.get?_set_self _ _ _, hin⟩
          · split
            · exact ⟨ids', by rw [Dict.get?_erase_ne _ ea]; exact h3, h4⟩
            · exact ⟨ids', by rw [Dict.get?_set_ne _ _ ea]; exact h3, h4⟩

theorem run_snoc (ops : List BrokerOp) (op : BrokerOp) : Broker.run (ops ++ [op]) = (Broker.run ops).step op := by
  unfold Broker.run; rw [List.foldl_append]; rfl

theorem list_snoc_induction {α : Type} {P : List α → Prop} (nil : P []) (snoc : ∀ l a, P l → P (l ++ [a])) (l : List α) : P l := by
  rw [← List.reverse_reverse l]
  induction l.reverse with
  | nil => exact nil
  | cons a t ih => rw [List.reverse_cons]; exact snoc _ _ ih

theorem loose_run (ops : List BrokerOp) : Loose ops (Broker.run ops) := by
  induction ops using list_snoc_induction with
  | nil => exact ⟨fun _ => rfl, fun _ _ h => by cases h⟩
  | snoc ops op ih => rw [run_snoc]; exact loose_step ih op

/-- C110. After every history there is under each id the method that was added last, unless it was removed since. -/
theorem C110_registered (ops : List BrokerOp) (k : String) : (Broker.run ops).db.get? k = under k ops := (loose_run ops).db k

/-- C110. After every history a method that is registered can be removed: this raises nothing, and removes it and no other. -/
theorem C110_removal (ops : List BrokerOp) (k : String) (m : AuthnMethod) (h : under k ops = some m) :
    ∃ b, Broker.delItem k (Broker.run ops) = (.ok (), b) ∧ b.db.get? k = none ∧ ∀ k', k' ≠ k → b.db.get? k' = under k' ops := by
  have hl := loose_run ops
  have hk : (Broker.run ops).db.get? k = some m := by rw [hl.db]; exact h
  obtain ⟨ids, h1, h2⟩ := hl.index k m hk
  refine ⟨{ db := (Broker.run ops).db.erase k, acr2id := indexWithout (Broker.run ops).acr2id m.acr k ids }, ?_, ?_, ?_⟩
  · unfold Broker.delItem
    simp only [hk, h1, if_pos h2]
  · exact Dict.get?_erase_self _ _
  · intro k' e
    show ((Broker.run ops).db.erase k).get? k' = _
    rw [Dict.get?_erase_ne _ (Ne.symm e), hl.db]

theorem lookup_mem {b : Broker} {ks : List String} {ms : List AuthnMethod} (h : b.lookup ks = .ok ms) {k : String} {m : AuthnMethod}
    (hk : k ∈ ks) (hm : b.db.get? k = some m) : m ∈ ms := by
  induction ks generalizing ms with
  | nil => cases hk
  | cons x t ih =>
    unfold Broker.lookup at h
    cases hx : b.db.get? x with
    | none => rw [hx] at h; cases h
    | some y =>
      rw [hx] at h
      simp only [] at h
      cases ht : b.lookup t with
      | error e => rw [ht] at h; cases h
      | ok ys =>
        rw [ht] at h
        cases h
        rcases List.mem_cons.1 hk with rfl | hk
        · rw [hx] at hm; cases hm; exact List.mem_cons_self ..
        · exact List.mem_cons_of_mem _ (ih ht hk)

/-- C110 (partial). After every history no method of an acr is left out.  (Missing: that there are no others, and that nothing is
raised; see the refutations.) -/
theorem C110_none_left_out_partial (ops : List BrokerOp) (acr : String) (ms : List AuthnMethod)
    (h : (Broker.run ops).pick (.str acr) = .ok ms) (k : String) (m : AuthnMethod) (hk : under k ops = some m) (ha : m.acr = acr) :
    m ∈ ms := by
  have hl := loose_run ops
  rw [← hl.db] at hk
  obtain ⟨ids, h1, h2⟩ := hl.index k m hk
  subst ha
  simp only [Broker.pick, h1] at h
  exact lookup_mem h h2 hk

/-! ### Histories in which no method is replaced -/

/-- The index is exact. -/
structure Exact (b : Broker) : Prop where
  nodup : b.db.keys.Nodup
  index : ∀ a, (b.acr2id.get? a).getD [] = (b.db.filter (fun x => decide (x.2.acr = a))).map (·.1)

theorem erase_keys {d : Dict AuthnMethod} (hn : d.keys.Nodup) (p : String × AuthnMethod → Bool) (k : String) :
    ((d.filter p).map (·.1)).erase k = ((d.erase k).filter p).map (·.1) := by
  have hs : ((d.filter p).map (·.1)).Nodup := by
    have : ((d.filter p).map (·.1)).Sublist (d.map (·.1)) := List.Sublist.map _ List.filter_sublist
    exact List.Nodup.sublist this hn
  rw [List.Nodup.erase_eq_filter hs, dict_erase_filter, List.filter_filter, List.filter_map, List.filter_filter]
  congr 1
  apply List.filter_congr
  intro x _
  by_cases e : x.1 = k <;> simp [e, Function.comp]

theorem exact_add {b : Broker} (h : Exact b) (k : String) (i : BrokerInfo) (hf : b.db.get? k = none) : Exact (Broker.setItem k i b).2 := by
  cases ha : i.acr with
  | none => rw [setItem_bad (.inl ha)]; exact h
  | some a =>
    cases hm : i.method with
    | none => rw [setItem_bad (.inr hm)]; exact h
    | some m =>
      rw [setItem_good ha hm]
      constructor
      · show (Dict.set b.db k _).keys.Nodup
        rw [dict_set_absent _ hf]
        unfold Dict.keys
        rw [List.map_append, List.nodup_append]
        refine ⟨h.nodup, by simp, ?_⟩
        intro x hx y hy e
        simp only [List.map_cons, List.map_nil, List.mem_singleton] at hy
        subst hy
        subst e
        exact (Dict.get?_eq_none_iff ..).1 hf hx
      · intro a'
        show ((Dict.set b.acr2id a _).get? a').getD [] = ((Dict.set b.db k _).filter _).map _
        rw [dict_set_absent _ hf, List.filter_append, List.map_append, ← h.index, Dict.get?_set]
        by_cases e : a = a'
        · subst e; simp
        · simp [e]

theorem exact_del {b : Broker} (h : Exact b) (k : String) : Exact (Broker.delItem k b).2 := by
  unfold Broker.delItem
  cases hk : b.db.get? k with
  | none => exact h
  | some m =>
    have hin : k ∈ (b.db.filter (fun x => decide (x.2.acr = m.acr))).map (·.1) :=
      List.mem_map.2 ⟨(k, m), List.mem_filter.2 ⟨Dict.get?_mem hk, by simp⟩, rfl⟩
    cases hi : b.acr2id.get? m.acr with
    | none =>
      have := h.index m.acr
      rw [hi] at this
      rw [← this] at hin
      cases hin
    | some ids =>
      have hids := h.index m.acr
      rw [hi] at hids
      simp only [Option.getD_some] at hids
      rw [← hids] at hin
      simp only [hi, if_pos hin]
      constructor
      · show (b.db.erase k).keys.Nodup
        rw [dict_erase_filter]
        exact List.Nodup.sublist (List.Sublist.map _ List.filter_sublist) h.nodup
      · intro a
        show ((indexWithout b.acr2id m.acr k ids).get? a).getD [] = ((b.db.erase k).filter _).map _
        rw [← erase_keys h.nodup]
        unfold indexWithout
        by_cases e : m.acr = a
        · subst e
          rw [← hids]
          split
          · rename_i hz
            rw [Dict.get?_erase_self, List.isEmpty_iff.1 hz]
            rfl
          · rw [Dict.get?_set_self]; rfl
        · have hne : k ∉ (b.db.filter (fun x => decide (x.2.acr = a))).map (·.1) := by
            intro hc
            obtain ⟨x, hx, hx'⟩ := List.mem_map.1 hc
            obtain ⟨h1, h2⟩ := List.mem_filter.1 hx
            have := dict_get_of_mem h.nodup (show (x.1, x.2) ∈ b.db from h1)
            rw [hx', hk] at this
            cases this
            exact e (by simpa using h2)
          rw [List.erase_of_not_mem hne, ← h.index]
          split
          · rw [Dict.get?_erase_ne _ e]
          · rw [Dict.get?_set_ne _ _ e]

theorem noneReplaced_init {ops : List BrokerOp} {op : BrokerOp} (h : NoneReplaced (ops ++ [op])) : NoneReplaced ops := by
  intro before k i after e
  exact h before k i (after ++ [op]) (by rw [e]; simp)

theorem exact_run (ops : List BrokerOp) (h : NoneReplaced ops) : Exact (Broker.run ops) := by
  induction ops using list_snoc_induction with
  | nil => exact ⟨by unfold Dict.keys; exact List.nodup_nil, fun _ => rfl⟩
  | snoc ops op ih =>
    rw [run_snoc]
    have hx := ih (noneReplaced_init h)
    cases op with
    | add k i => exact exact_add hx k i (by rw [(loose_run ops).db]; exact h ops k i [] rfl)
    | del k => exact exact_del hx k

theorem lookup_sub {b : Broker} (hn : b.db.keys.Nodup) (l : List (String × AuthnMethod)) (hl : ∀ x ∈ l, x ∈ b.db) :
    b.lookup (l.map (·.1)) = .ok (l.map (·.2)) := by
  induction l with
  | nil => rfl
  | cons x t ih =>
    rw [List.map_cons, List.map_cons]
    unfold Broker.lookup
    rw [dict_get_of_mem hn (show (x.1, x.2) ∈ b.db from hl x (List.mem_cons_self ..))]
    simp only [ih (fun y hy => hl y (List.mem_cons_of_mem _ hy))]

/-- With an exact index the methods of an acr are the entries with this acr, in their order. -/
theorem exact_pick {b : Broker} (h : Exact b) (a : String) :
    b.pick (.str a) = .ok ((b.db.filter (fun x => decide (x.2.acr = a))).map (·.2)) := by
  have hx := h.index a
  unfold Broker.pick
  cases hi : b.acr2id.get? a with
  | none =>
    rw [hi] at hx
    have : b.db.filter (fun x => decide (x.2.acr = a)) = [] := List.map_eq_nil_iff.1 hx.symm
    simp only [hi, this, List.map_nil]
  | some ids =>
    rw [hi] at hx
    simp only [Option.getD_some] at hx
    simp only [hi, hx]
    exact lookup_sub h.nodup _ (fun x hx => (List.mem_filter.1 hx).1)

/-- C110 (partial). If no method is replaced by another one under the same id, then after every history of adding and removing, and
for every acr, picking raises nothing and finds the methods registered for this acr, each once, and no other. -/
theorem C110_pick_partial (ops : List BrokerOp) (hn : NoneReplaced ops) (acr : String) :
    ∃ ms, (Broker.run ops).pick (.str acr) = .ok ms ∧ ForAcr ops acr ms := by
  have h := exact_run ops hn
  refine ⟨_, exact_pick h acr, (((Broker.run ops).db.filter (fun x => decide (x.2.acr = acr))).map (·.1)), ?_, ?_, ?_⟩
  · exact List.Nodup.sublist (List.Sublist.map _ List.filter_sublist) h.nodup
  · rw [List.map_map, List.map_map]
    apply List.map_congr_left
    intro x hx
    simp only [Function.comp]
    rw [← (loose_run ops).db]
    exact (dict_get_of_mem h.nodup (show (x.1, x.2) ∈ (Broker.run ops).db from (List.mem_filter.1 hx).1)).symm
  · intro k
    rw [List.mem_map]
    constructor
    · rintro ⟨x, hx, rfl⟩
      obtain ⟨h1, h2⟩ := List.mem_filter.1 hx
      refine ⟨x.2, ?_, by simpa using h2⟩
      rw [← (loose_run ops).db]
      exact dict_get_of_mem h.nodup (show (x.1, x.2) ∈ _ from h1)
    · rintro ⟨m, h1, h2⟩
      rw [← (loose_run ops).db] at h1
      exact ⟨(k, m), List.mem_filter.2 ⟨Dict.get?_mem h1, by simpa using h2⟩, rfl⟩

/-- C110 (partial). Under the same condition every acr that the provider publishes leads to a method that is registered for it, and no
other acr does. -/
theorem C110_published_partial (ops : List BrokerOp) (hn : NoneReplaced ops) (acr : String) :
    acr ∈ (Broker.run ops).acrValues ↔ ∃ m ms, (Broker.run ops).pick (.str acr) = .ok (m :: ms) ∧ m.acr = acr := by
  have h := exact_run ops hn
  rw [exact_pick h acr]
  unfold Broker.acrValues
  rw [List.mem_map]
  constructor
  · rintro ⟨x, hx, rfl⟩
    have hin : x.2 ∈ ((Broker.run ops).db.filter (fun y => decide (y.2.acr = x.2.acr))).map (·.2) :=
      List.mem_map.2 ⟨x, List.mem_filter.2 ⟨hx, by simp⟩, rfl⟩
    cases hl : ((Broker.run ops).db.filter (fun y => decide (y.2.acr = x.2.acr))).map (·.2) with
    | nil => rw [hl] at hin; cases hin
    | cons m ms =>
      refine ⟨m, ms, rfl, ?_⟩
      have : m ∈ ((Broker.run ops).db.filter (fun y => decide (y.2.acr = x.2.acr))).map (·.2) := by rw [hl]; exact List.mem_cons_self ..
      obtain ⟨y, hy, rfl⟩ := List.mem_map.1 this
      simpa using (List.mem_filter.1 hy).2
  · rintro ⟨m, ms, h1, rfl⟩
    have h1 := Except.ok.inj h1
    have : m ∈ ((Broker.run ops).db.filter (fun y => decide (y.2.acr = m.acr))).map (·.2) := by rw [h1]; exact List.mem_cons_self ..
    obtain ⟨y, hy, e⟩ := List.mem_map.1 this
    exact ⟨y, (List.mem_filter.1 hy).1, by rw [e]⟩

/-! ### The list of the methods is enough -/

theorem find_filter {α β : Type} (l : List (α × β)) (p : β → Bool) :
    ((l.filter (fun x => p x.2)).map (·.2)).head? = (l.map (·.2)).find? p := by
  induction l with
  | nil => rfl
  | cons x t ih =>
    by_cases e : p x.2 = true
    · simp [e]
    · simp [e, ih]

theorem exact_pickFirst {b : Broker} (h : Exact b) (as : List Json) (hs : ∀ a ∈ as, CanBeKey a) :
    b.pickFirst as = .ok (as.findSome? (fun x => (b.db.map (·.2)).find? (fun m => decide (.str m.acr = x)))) := by
  induction as with
  | nil => rfl
  | cons a t ih =>
    have iht := ih (fun x hx => hs x (List.mem_cons_of_mem _ hx))
    have ha := hs a (List.mem_cons_self ..)
    unfold Broker.pickFirst
    rw [List.findSome?_cons]
    have none_of : (∀ s, a ≠ .str s) → (b.db.map (·.2)).find? (fun m => decide (.str m.acr = a)) = none := by
      intro hne
      rw [List.find?_eq_none]
      intro m _ hm
      exact hne m.acr (of_decide_eq_true hm).symm
    cases a with
    | str s =>
      rw [exact_pick h s]
      have := find_filter b.db (fun m => decide (m.acr = s))
      have hd : (fun m : AuthnMethod => decide (Json.str m.acr = Json.str s)) = (fun m => decide (m.acr = s)) := by
        funext m; simp
      rw [hd, ← this]
      cases hl : (b.db.filter (fun x => decide (x.2.acr = s))).map (·.2) with
      | nil => exact iht
      | cons m ms => rfl
    | arr l => exact absurd ha (by simp [CanBeKey])
    | obj l => exact absurd ha (by simp [CanBeKey])
    | _ => rw [none_of (by intro s; simp)]; exact iht

/-- C110 (partial). Under the same condition the choice of a method for a request depends on nothing but the registered methods in the order of
their registration, as the theorems about requested authentication contexts have it (C40). -/
theorem C110_choice_partial (ops : List BrokerOp) (hn : NoneReplaced ops) (hint : List String) (req : AuthzReq)
    (hh : ∀ as, wantedAcrs hint req = .ok as → ∀ a ∈ as, CanBeKey a) :
    (Broker.run ops).pickAuth hint req = OidcOp.pickAuth ((Broker.run ops).db.map (·.2)) hint req := by
  have h := exact_run ops hn
  have hf := exact_pickFirst h
  unfold Broker.pickAuth OidcOp.pickAuth
  generalize Broker.run ops = b at h hf
  cases hd : b.db with
  | nil =>
    rw [hd] at hf
    rw [if_neg (by simp)]
    simp only [List.map_nil]
    cases hw : wantedAcrs hint req with
    | error e => rfl
    | ok l =>
      cases l with
      | nil => rfl
      | cons a as => exact hf _ (hh _ hw)
  | cons x t =>
    cases t with
    | nil => rfl
    | cons y t =>
      rw [hd] at hf
      rw [if_neg (by simp)]
      simp only [List.map_cons]
      cases hw : wantedAcrs hint req with
      | error e => rfl
      | ok l =>
        cases l with
        | nil => rfl
        | cons a as => exact hf _ (hh _ hw)

/-- C110. A configuration with an acr for every method starts the provider, and is a history in which no method is replaced. -/
theorem C110_configured (methods : Dict BrokerInfo) (hk : methods.keys.Nodup)
    (hc : ∀ x ∈ methods, ∃ a m, x.2.acr = some a ∧ x.2.method = some m) :
    populateBroker methods = .ok (Broker.run (methods.map (fun x => .add x.1 x.2))) ∧
      NoneReplaced (methods.map (fun x => .add x.1 x.2)) := by
  constructor
  · have gen : ∀ (l : Dict BrokerInfo) (b : Broker), (∀ x ∈ l, ∃ a m, x.2.acr = some a ∧ x.2.method = some m) →
        l.foldl (fun r x =>
          match r with
          | .error e => .error e
          | .ok b =>
            match Broker.setItem x.1 x.2 b with
            | (.error e, _) => .error e
            | (.ok _, b') => .ok b') (.ok b) = Except.ok ((l.map (fun x => BrokerOp.add x.1 x.2)).foldl Broker.step b) := by
      intro l
      induction l with
      | nil => intro b _; rfl
      | cons x t ih =>
        intro b hb
        rw [List.foldl_cons, List.map_cons, List.foldl_cons]
        obtain ⟨a, m, h1, h2⟩ := hb x (List.mem_cons_self ..)
        have : Broker.setItem x.1 x.2 b = (.ok (), b.step (.add x.1 x.2)) := by
          simp only [Broker.step, Broker.setItem, h1, h2]
        simp only [this]
        exact ih _ (fun y hy => hb y (List.mem_cons_of_mem _ hy))
    exact gen methods {} hc
  · intro before k i after e
    have hu : ∀ (l : List BrokerOp), (∀ i, BrokerOp.add k i ∉ l) → under k l = none ∨ ∃ k', BrokerOp.del k' ∈ l := by
      intro l
      induction l using list_snoc_induction with
      | nil => intro _; exact .inl rfl
      | snoc l op ih =>
        intro hl
        rcases ih (fun i hi => hl i (List.mem_append_left _ hi)) with h | ⟨k', h⟩
        · rw [under_snoc]
          cases op with
          | add k' i' =>
            left
            simp only [thenUnder]
            rw [if_neg, h]
            rintro rfl
            exact hl i' (by simp)
          | del k' => exact .inr ⟨k', by simp⟩
        · exact .inr ⟨k', List.mem_append_left _ h⟩
    have hno : ∀ i', BrokerOp.add k i' ∉ before := by
      intro i' hi'
      have hkeys : methods.keys = (methods.map (fun x => BrokerOp.add x.1 x.2)).map (fun | .add k _ => k | .del k => k) := by
        rw [List.map_map]; rfl
      rw [hkeys, e, List.map_append, List.map_cons, List.nodup_append] at hk
      exact hk.2.2 k (List.mem_map.2 ⟨_, hi', rfl⟩) k (List.mem_cons_self ..) rfl
    rcases hu before hno with h | ⟨k', h⟩
    · exact h
    · have : BrokerOp.del k' ∈ methods.map (fun x => BrokerOp.add x.1 x.2) := by rw [e]; exact List.mem_append_left _ h
      obtain ⟨x, _, hx⟩ := List.mem_map.1 this
      cases hx

namespace Ex

/-- Two methods for passwords and one for tokens; the first one is removed and added again. -/
def brokerOps : List BrokerOp :=
  [.add "diana" { acr := some "pw", method := some "NoAuthn:diana" }, .add "krall" { acr := some "pw", method := some "NoAuthn:krall" },
   .add "bad" { method := some "x" }, .add "otp" { acr := some "otp", method := some "OTP", expiresIn := some 60 },
   .del "diana", .add "diana" { acr := some "pw", method := some "Other:diana" }]

theorem brokerOps_fresh : NoneReplaced brokerOps := by
  intro before k i after e
  have hlen : before.length < 6 := by
    have := congrArg List.length e
    simp [brokerOps] at this
    omega
  have hb : before = brokerOps.take before.length := by rw [e]; simp
  have hk : brokerOps[before.length]? = some (.add k i) := by rw [e]; simp
  generalize hn : before.length = n at *
  rw [hb]
  match n, hlen with
  | 0, _ => rfl
  | 1, _ => cases hk; decide
  | 2, _ => cases hk; decide
  | 3, _ => cases hk; decide
  | 4, _ => cases hk
  | 5, _ => cases hk; decide

/-- C110: a case of the theorems. -/
example : (Broker.run brokerOps).pick (.str "pw") =
      .ok [{ id := "NoAuthn:krall", acr := "pw" }, { id := "Other:diana", acr := "pw" }] ∧
    (Broker.run brokerOps).pick (.str "mfa") = .ok [] ∧
    (Broker.run brokerOps).pickAuth [] { acrValues := some ["mfa", "otp"] } = .ok (some { id := "OTP", acr := "otp", expiresIn := some 60 }) ∧
    (Broker.run brokerOps).acrValues = ["pw", "otp", "pw"] ∧ under "krall" brokerOps = some { id := "NoAuthn:krall", acr := "pw" } := by
  decide +kernel

/-- C110 is false of the code when a method is replaced by one with another acr: the index keeps the id, and who asks for the old acr
gets the new method (user_authn/authn_context.py:39-43). -/
theorem C110_replaced_refuted :
    ¬ (∀ (ops : List BrokerOp) (acr : String) (ms : List AuthnMethod), (Broker.run ops).pick (.str acr) = .ok ms →
      ForAcr ops acr ms) := by
  intro h
  obtain ⟨ks, _, h2, h3⟩ := h [.add "a" { acr := some "otp", method := some "OTP" }, .add "a" { acr := some "pw", method := some "NoAuthn" }]
    "otp" [{ id := "NoAuthn", acr := "pw" }] (by decide +kernel)
  cases ks with
  | nil => cases h2
  | cons k ks =>
    obtain ⟨m, h4, h5⟩ := (h3 k).1 (List.mem_cons_self ..)
    rw [List.map_cons, List.map_cons, h4] at h2
    have := (List.cons.inj h2).1
    cases this
    exact absurd h5 (by decide)

/-- C110 is false of the code when such a method is removed: who asks for the old acr gets a KeyError. -/
theorem C110_replaced_removed_refuted :
    ¬ (∀ (ops : List BrokerOp) (acr : String), ∃ ms, (Broker.run ops).pick (.str acr) = .ok ms) := by
  intro h
  obtain ⟨ms, h⟩ := h [.add "a" { acr := some "otp", method := some "OTP" }, .add "a" { acr := some "pw", method := some "NoAuthn" },
    .del "a"] "otp"
  have e : (Broker.run [.add "a" { acr := some "otp", method := some "OTP" }, .add "a" { acr := some "pw", method := some "NoAuthn" },
    .del "a"]).pick (.str "otp") = .error .keyError := by decide +kernel
  rw [e] at h
  cases h

end Ex
end OidcOp
