/-
C129: a logout leaves the sessions of others alone.
-/
import Verif.Props.Ending

namespace OidcOp
open Spec

/-! ### The references that a thread holds to write with -/

def MakeRefs (P : Nat → Prop) : MakeAt → Prop
  | .addGrant q => P q
  | .storeClient q => P q
  | .addClient q _ => P q
  | .storeUser q _ => P q
  | _ => True

def EndRefs (P : Nat → Prop) : EndAt → Prop
  | .mark q => P q
  | .storeClient q => P q
  | .readUser q => P q
  | .addClient r q => P r ∧ P q
  | .storeUser r q => P r ∧ P q
  | .revoke _ _ q => P q
  | _ => True

theorem MakeRefs.imp {P Q : Nat → Prop} (h : ∀ q, P q → Q q) {a : MakeAt} (ha : MakeRefs P a) : MakeRefs Q a := by
  cases a <;> first | trivial | exact h _ ha

theorem EndRefs.imp {P Q : Nat → Prop} (h : ∀ q, P q → Q q) {a : EndAt} (ha : EndRefs P a) : EndRefs Q a := by
  cases a <;> first | trivial | exact h _ ha | exact ⟨h _ ha.1, h _ ha.2⟩

theorem put_length (s : Store) (r : Nat) (o : Obj) : (s.put r o).heap.length = s.heap.length := by
  simp [Store.put]

theorem addSub_length {s s' : Store} {r : Nat} {x : String} {b : Bool} (h : s.addSub r x = some (b, s')) :
    s'.heap.length = s.heap.length := by
  unfold Store.addSub at h
  split at h
  · split at h
    · cases h; rfl
    · cases h; exact put_length _ _ _
  · cases h

theorem mutate_length (s : Store) (r : Nat) (f : Obj → Obj) : (s.mutate r f).heap.length = s.heap.length := by
  unfold Store.mutate
  cases s.obj r with
  | none => rfl
  | some o => exact put_length _ _ _

theorem getOr_cases (s : Store) (k : String) (d : SInfo) :
    (s.db.get? k = some (s.getOr k d).1 ∧ (s.getOr k d).2 = s) ∨
      ((s.getOr k d).1 = s.heap.length ∧ (s.getOr k d).2 = { s with heap := s.heap ++ [.info d] }) := by
  unfold Store.getOr
  cases hq : s.lookup k with
  | none => exact .inr ⟨rfl, rfl⟩
  | some p =>
    obtain ⟨r, o⟩ := p
    exact .inl ⟨((lookup_eq _ _ _ _).1 hq).1, rfl⟩

theorem makeGo_length (s : Store) (m : Maker) : s.heap.length ≤ (makeGo s m).1.heap.length := by
  unfold makeGo
  cases m.pc with
  | setUser => simp [Store.alloc, Store.bind]
  | setClient => simp [Store.alloc, Store.bind]
  | setGrant => simp [Store.alloc, Store.bind]
  | readClient =>
    rcases getOr_cases s (key2 m.user m.client) { isUser := false } with ⟨-, h⟩ | ⟨-, h⟩ <;> simp [h]
  | readUser l => rcases getOr_cases s m.user { isUser := true } with ⟨-, h⟩ | ⟨-, h⟩ <;> simp [h]
  | addGrant r =>
    simp only []
    split
    · exact Nat.le_refl _
    · rename_i h; exact Nat.le_of_eq (addSub_length h).symm
    · rename_i h; exact Nat.le_of_eq (addSub_length h).symm
  | addClient r l =>
    simp only []
    split
    · exact Nat.le_refl _
    · rename_i h; exact Nat.le_of_eq (addSub_length h).symm
    · rename_i h; exact Nat.le_of_eq (addSub_length h).symm
  | _ =>
    simp only []
    repeat' split
    all_goals exact Nat.le_refl _

theorem endGo_length (s : Store) (e : Ender) : s.heap.length ≤ (endGo s e).1.heap.length := by
  unfold endGo
  cases e.pc with
  | mark r => exact Nat.le_of_eq (mutate_length _ _ _).symm
  | revoke r i q => exact Nat.le_of_eq (mutate_length _ _ _).symm
  | readUser r => rcases getOr_cases s e.user { isUser := true } with ⟨-, h⟩ | ⟨-, h⟩ <;> simp [h]
  | addClient r q =>
    simp only []
    split
    · exact Nat.le_refl _
    · rename_i h; exact Nat.le_of_eq (addSub_length h).symm
    · rename_i h; exact Nat.le_of_eq (addSub_length h).symm
  | _ =>
    simp only []
    repeat' split
    all_goals exact Nat.le_refl _

/-- The references that a thread comes to hold are in the database, or new. -/
theorem makeGo_refs {P : Nat → Prop} (s : Store) (m : Maker) (hu : ∀ q, s.db.get? m.user = some q → P q)
    (hc : ∀ q, s.db.get? (key2 m.user m.client) = some q → P q)
    (hnew : s.heap.length < (makeGo s m).1.heap.length → P s.heap.length) (h : MakeRefs P m.pc) : MakeRefs P (makeGo s m).2 := by
  unfold makeGo at hnew ⊢
  cases hpc : m.pc with
  | readClient =>
    rw [hpc] at hnew
    rcases getOr_cases s (key2 m.user m.client) { isUser := false } with ⟨h1, h2⟩ | ⟨h1, h2⟩
    · exact hc _ h1
    · show P _
      rw [h1]
      exact hnew (by simp [h2])
  | readUser l =>
    rw [hpc] at hnew
    rcases getOr_cases s m.user { isUser := true } with ⟨h1, h2⟩ | ⟨h1, h2⟩
    · exact hu _ h1
    · show P _
      rw [h1]
      exact hnew (by simp [h2])
  | addGrant r =>
    rw [hpc] at h
    simp only []
    split <;> first | trivial | exact h
  | addClient r l =>
    rw [hpc] at h
    simp only []
    split
    · trivial
    · exact h
    · cases l <;> trivial
  | storeUser r l => cases l <;> trivial
  | _ =>
    simp only []
    repeat' split
    all_goals trivial

theorem endGo_refs {P : Nat → Prop} (s : Store) (e : Ender) (hu : ∀ q, s.db.get? e.user = some q → P q)
    (hc : ∀ q, s.db.get? (key2 e.user e.client) = some q → P q) (hg : ∀ x q, s.db.get? (key3 e.user e.client x) = some q → P q)
    (hnew : s.heap.length < (endGo s e).1.heap.length → P s.heap.length) (h : EndRefs P e.pc) : EndRefs P (endGo s e).2 := by
  unfold endGo at hnew ⊢
  cases hpc : e.pc with
  | getClient =>
    simp only []
    split
    · rename_i hq; exact hc _ ((lookup_eq _ _ _ _).1 hq).1
    · trivial
  | mark r => rw [hpc] at h; exact h
  | storeClient r => rw [hpc] at h; exact h
  | readUser r =>
    rw [hpc] at hnew h
    rcases getOr_cases s e.user { isUser := true } with ⟨h1, h2⟩ | ⟨h1, h2⟩
    · exact ⟨h, hu _ h1⟩
    · refine ⟨h, ?_⟩
      rw [h1]
      exact hnew (by simp [h2])
  | addClient r q =>
    rw [hpc] at h
    simp only []
    split <;> first | trivial | exact h
  | findGrant r i x =>
    simp only []
    split
    · rename_i hq; exact hg _ _ ((lookup_eq _ _ _ _).1 hq).1
    · trivial
  | _ =>
    simp only []
    repeat' split
    all_goals trivial

/-- What a step puts into the database is new, or a reference that the thread holds. -/
theorem makeGo_puts {P : Nat → Prop} {s : Store} {m : Maker} (h : MakeRefs P m.pc) {k : String} {r : Nat}
    (hk : (makeGo s m).1.db.get? k = some r) :
    s.db.get? k = some r ∨ (r = s.heap.length ∧ s.heap.length < (makeGo s m).1.heap.length) ∨ P r := by
  have bind : ∀ (t : Store) (k' : String) (q : Nat), t.db = s.db → (t.bind k' q).db.get? k = some r → s.db.get? k = some r ∨ r = q := by
    intro t k' q ht hb
    simp only [Store.bind, ht] at hb
    by_cases he : k' = k
    · subst he
      rw [Dict.get?_set_self] at hb
      cases hb
      exact .inr rfl
    · rw [Dict.get?_set_ne _ _ he] at hb
      exact .inl hb
  unfold makeGo at hk ⊢
  cases hpc : m.pc with
  | setUser =>
    rw [hpc] at hk
    rcases bind _ _ _ rfl hk with h1 | h1
    · exact .inl h1
    · exact .inr (.inl ⟨h1, by simp [Store.alloc, Store.bind]⟩)
  | setClient =>
    rw [hpc] at hk
    rcases bind _ _ _ rfl hk with h1 | h1
    · exact .inl h1
    · exact .inr (.inl ⟨h1, by simp [Store.alloc, Store.bind]⟩)
  | setGrant =>
    rw [hpc] at hk
    rcases bind _ _ _ rfl hk with h1 | h1
    · exact .inl h1
    · exact .inr (.inl ⟨h1, by simp [Store.alloc, Store.bind]⟩)
  | storeClient q =>
    rw [hpc] at hk h
    rcases bind _ _ _ rfl hk with h1 | h1
    · exact .inl h1
    · exact .inr (.inr (h1 ▸ h))
  | storeUser q l =>
    rw [hpc] at hk h
    rcases bind _ _ _ rfl hk with h1 | h1
    · exact .inl h1
    · exact .inr (.inr (h1 ▸ h))
  | readClient =>
    rw [hpc] at hk
    left
    simpa only [(getOr_le _ _ _).2] using hk
  | readUser l =>
    rw [hpc] at hk
    left
    simpa only [(getOr_le _ _ _).2] using hk
  | addGrant q =>
    rw [hpc] at hk
    left
    simp only [] at hk
    rcases hs : s.addSub q m.grant.id with _ | ⟨b, s'⟩
    · rw [hs] at hk; exact hk
    · rw [hs] at hk
      rw [← (addSub_le hs).2.1]
      cases b <;> exact hk
  | addClient q l =>
    rw [hpc] at hk
    left
    simp only [] at hk
    rcases hs : s.addSub q m.client with _ | ⟨b, s'⟩
    · rw [hs] at hk; exact hk
    · rw [hs] at hk
      rw [← (addSub_le hs).2.1]
      cases b <;> exact hk
  | getUser => rw [hpc] at hk; left; simp only [] at hk; split at hk <;> exact hk
  | getListed =>
    rw [hpc] at hk
    left
    simp only [] at hk
    repeat' split at hk
    all_goals exact hk
  | getClient => rw [hpc] at hk; left; simp only [] at hk; split at hk <;> exact hk
  | done => rw [hpc] at hk; exact .inl hk
  | failed => rw [hpc] at hk; exact .inl hk

theorem endGo_puts {P : Nat → Prop} {s : Store} {e : Ender} (h : EndRefs P e.pc) {k : String} {r : Nat}
    (hk : (endGo s e).1.db.get? k = some r) : s.db.get? k = some r ∨ P r := by
  have bind : ∀ (k' : String) (q : Nat), (s.bind k' q).db.get? k = some r → s.db.get? k = some r ∨ r = q := by
    intro k' q hb
    simp only [Store.bind] at hb
    by_cases he : k' = k
    · subst he
      rw [Dict.get?_set_self] at hb
      cases hb
      exact .inr rfl
    · rw [Dict.get?_set_ne _ _ he] at hb
      exact .inl hb
  unfold endGo at hk
  cases hpc : e.pc with
  | storeClient q =>
    rw [hpc] at hk h
    rcases bind _ _ hk with h1 | h1
    · exact .inl h1
    · exact .inr (h1 ▸ h)
  | storeUser q' q =>
    rw [hpc] at hk h
    rcases bind _ _ hk with h1 | h1
    · exact .inl h1
    · exact .inr (h1 ▸ h.2)
  | mark q => rw [hpc] at hk; left; simpa only [mutate_db] using hk
  | revoke q' i q => rw [hpc] at hk; left; simpa only [mutate_db] using hk
  | readUser q => rw [hpc] at hk; left; simpa only [(getOr_le _ _ _).2] using hk
  | addClient q' q =>
    rw [hpc] at hk
    left
    simp only [] at hk
    rcases hs : s.addSub q e.client with _ | ⟨b, s'⟩
    · rw [hs] at hk; exact hk
    · rw [hs] at hk
      rw [← (addSub_le hs).2.1]
      cases b <;> exact hk
  | done => rw [hpc] at hk; exact .inl hk
  | failed => rw [hpc] at hk; exact .inl hk
  | _ =>
    rw [hpc] at hk
    left
    simp only [] at hk
    repeat' split at hk
    all_goals exact hk

/-- A step of a logout leaves a grant as it is that it holds no reference to. -/
theorem endGo_grant {s : Store} {e : Ender} {r : Nat} (h : EndRefs (· ≠ r) e.pc) {g : Grant} (hg : s.heap[r]? = some (.grant g)) :
    (endGo s e).1.heap[r]? = some (.grant g) := by
  have others : ∀ q, q ≠ r → (s.mutate q Obj.revoke).heap[r]? = some (.grant g) := by
    intro q hq
    unfold Store.mutate
    cases s.obj q with
    | none => exact hg
    | some o =>
      simp only [Store.put]
      rw [List.getElem?_set_ne hq]
      exact hg
  unfold endGo
  cases hpc : e.pc with
  | mark q => rw [hpc] at h; exact others q h
  | revoke q' i q => rw [hpc] at h; exact others q h
  | readUser q => exact ((getOr_le _ _ _).1 r).1 g hg
  | addClient q' q =>
    simp only []
    split
    · exact hg
    · rename_i h; exact ((addSub_le h).1 r).1 g hg
    · rename_i h; exact ((addSub_le h).1 r).1 g hg
  | _ =>
    simp only []
    repeat' split
    all_goals exact hg

/-! ### Keys -/

theorem cut_first {a a' b b' : List Char} (h : ';' ∉ a) (h' : ';' ∉ a') (he : a ++ ';' :: b = a' ++ ';' :: b') : a = a' ∧ b = b' := by
  induction a generalizing a' with
  | nil =>
    cases a' with
    | nil => simpa using he
    | cons x t =>
      simp only [List.nil_append, List.cons_append, List.cons.injEq] at he
      exact absurd (by rw [← he.1]; exact List.mem_cons_self ..) h'
  | cons x t ih =>
    cases a' with
    | nil =>
      simp only [List.nil_append, List.cons_append, List.cons.injEq] at he
      exact absurd (by rw [he.1]; exact List.mem_cons_self ..) h
    | cons y t' =>
      simp only [List.cons_append, List.cons.injEq] at he
      obtain ⟨h1, h2⟩ := ih (fun hm => h (List.mem_cons_of_mem _ hm)) (fun hm => h' (List.mem_cons_of_mem _ hm)) he.2
      exact ⟨by rw [he.1, h1], h2⟩

/-- Whatever comes last, the key of a grant tells the user and the client. -/
theorem key3_owner {u c u' c' x x' : String} (h : (SKey.cli u c).Good (fun _ => True)) (h' : (SKey.cli u' c').Good (fun _ => True))
    (he : key3 u c x = key3 u' c' x') : u = u' ∧ c = c' := by
  have hl := congrArg String.toList he
  unfold key3 at hl
  simp only [String.toList_append, List.append_assoc] at hl
  have semi : (";;" : String).toList = [';', ';'] := by decide
  rw [semi] at hl
  simp only [List.cons_append, List.nil_append] at hl
  obtain ⟨h1, h2⟩ := cut_first h.2.1.2 h'.2.1.2 hl
  have h2 := (List.cons.inj h2).2
  obtain ⟨h3, -⟩ := cut_first h.2.2.2 h'.2.2.2 h2
  exact ⟨String.toList_inj.1 h1, String.toList_inj.1 h3⟩

/-! ### The invariants -/

/-- All references are to objects that are there. -/
structure Bounded (s : EndWorld) : Prop where
  db : ∀ k r, s.making.st.db.get? k = some r → r < s.making.st.heap.length
  makers : ∀ m ∈ s.making.threads, MakeRefs (· < s.making.st.heap.length) m.pc
  enders : ∀ e ∈ s.enders, EndRefs (· < s.making.st.heap.length) e.pc

theorem bounded_step {s : EndWorld} (h : Bounded s) (op : EndOp) : Bounded (endStep s op) := by
  cases op with
  | logout u c =>
    refine ⟨h.db, h.makers, fun e he => ?_⟩
    rcases List.mem_append.1 he with he | he
    · exact h.enders e he
    · simp at he; subst he; trivial
  | goEnd i =>
    cases hx : s.enders[i]? with
    | none => simp only [endStep, hx]; exact h
    | some e =>
      simp only [endStep, hx]
      have hle := endGo_length s.making.st e
      have old := h.enders e (List.mem_of_getElem? hx)
      refine ⟨fun k r hk => ?_, fun m hm => (h.makers m hm).imp (fun q hq => Nat.lt_of_lt_of_le hq hle), fun e' he' => ?_⟩
      · rcases endGo_puts old hk with h1 | h1
        · exact Nat.lt_of_lt_of_le (h.db k r h1) hle
        · exact Nat.lt_of_lt_of_le h1 hle
      · rcases List.mem_or_eq_of_mem_set he' with he' | rfl
        · exact (h.enders e' he').imp (fun q hq => Nat.lt_of_lt_of_le hq hle)
        · exact endGo_refs _ _ (fun q hq => Nat.lt_of_lt_of_le (h.db _ _ hq) hle) (fun q hq => Nat.lt_of_lt_of_le (h.db _ _ hq) hle)
            (fun x q hq => Nat.lt_of_lt_of_le (h.db _ _ hq) hle) (fun hn => hn) (old.imp (fun q hq => Nat.lt_of_lt_of_le hq hle))
  | make op =>
    cases op with
    | login u c g =>
      refine ⟨h.db, fun m hm => ?_, h.enders⟩
      rcases List.mem_append.1 hm with hm | hm
      · exact h.makers m hm
      · simp at hm; subst hm; trivial
    | go i =>
      cases hx : s.making.threads[i]? with
      | none => simp only [endStep, makeStep, hx]; exact h
      | some m =>
        simp only [endStep, makeStep, hx]
        have hle := makeGo_length s.making.st m
        have old := h.makers m (List.mem_of_getElem? hx)
        refine ⟨fun k r hk => ?_, fun m' hm' => ?_, fun e he => (h.enders e he).imp (fun q hq => Nat.lt_of_lt_of_le hq hle)⟩
        · rcases makeGo_puts old hk with h1 | ⟨h1, h2⟩ | h1
          · exact Nat.lt_of_lt_of_le (h.db k r h1) hle
          · rw [h1]; exact h2
          · exact Nat.lt_of_lt_of_le h1 hle
        · rcases List.mem_or_eq_of_mem_set hm' with hm' | rfl
          · exact (h.makers m' hm').imp (fun q hq => Nat.lt_of_lt_of_le hq hle)
          · exact makeGo_refs _ _ (fun q hq => Nat.lt_of_lt_of_le (h.db _ _ hq) hle) (fun q hq => Nat.lt_of_lt_of_le (h.db _ _ hq) hle)
              (fun hn => hn) (old.imp (fun q hq => Nat.lt_of_lt_of_le hq hle))

/-- The grant is stored under its key and no other, and no thread holds a reference to it or is about to store one there. -/
structure Untouched (k : String) (r : Nat) (g : Grant) (s : EndWorld) : Prop where
  at' : s.making.st.db.get? k = some r
  obj : s.making.st.heap[r]? = some (.grant g)
  only : ∀ k', s.making.st.db.get? k' = some r → k' = k
  makers : ∀ m ∈ s.making.threads, MakeRefs (· ≠ r) m.pc ∧ (key3 m.user m.client m.grant.id = k → m.pc.early = false)
  enders : ∀ e ∈ s.enders, EndRefs (· ≠ r) e.pc

/-- No logout is for this user and client. -/
def NotHere (u c : String) (s : EndWorld) (ops : List EndOp) : Prop := (u, c) ∉ s.enders.map Ender.what ++ logoutsIn ops

theorem NotHere.step {u c : String} {s : EndWorld} {op : EndOp} {ops : List EndOp} (h : NotHere u c s (op :: ops)) :
    NotHere u c (endStep s op) ops := by
  unfold NotHere at h ⊢
  rw [logouts_cons] at h
  cases op with
  | logout u' c' =>
    have : logoutsIn [EndOp.logout u' c'] = [(u', c')] := rfl
    rw [this] at h
    simpa [endStep, Ender.what] using h
  | goEnd i =>
    cases hx : s.enders[i]? with
    | none =>
      simp only [endStep, hx]
      exact fun hm => h (by rcases List.mem_append.1 hm with hm | hm <;> simp [hm])
    | some e =>
      simp only [endStep, hx]
      intro hm
      refine h ?_
      rcases List.mem_append.1 hm with hm | hm
      · obtain ⟨e', he', hw⟩ := List.mem_map.1 hm
        rcases List.mem_or_eq_of_mem_set he' with he' | rfl
        · exact List.mem_append_left _ (List.mem_map.2 ⟨e', he', hw⟩)
        · exact List.mem_append_left _ (List.mem_map.2 ⟨e, List.mem_of_getElem? hx, hw⟩)
      · exact List.mem_append_right _ (List.mem_append_right _ hm)
  | make op =>
    intro hm
    refine h ?_
    rcases List.mem_append.1 hm with hm | hm
    · exact List.mem_append_left _ hm
    · exact List.mem_append_right _ (List.mem_append_right _ hm)

theorem untouched_step {u c gid : String} {r : Nat} {g : Grant} (hgood : (SKey.gra u c gid).Good (fun _ => True)) {s : EndWorld} {op : EndOp}
    {ops : List EndOp} (h : Untouched (key3 u c gid) r g s) (hp : ProperAll s (op :: ops)) (hno : NotHere u c s (op :: ops)) :
    Untouched (key3 u c gid) r g (endStep s op) := by
  have hcli : (SKey.cli u c).Good (fun _ => True) := ⟨hgood.1, hgood.2.1, hgood.2.2.1⟩
  have hlt := (List.getElem?_eq_some_iff.1 h.obj).1
  cases op with
  | logout u' c' =>
    refine ⟨h.at', h.obj, h.only, h.makers, fun e he => ?_⟩
    rcases List.mem_append.1 he with he | he
    · exact h.enders e he
    · simp at he; subst he; trivial
  | goEnd i =>
    cases hx : s.enders[i]? with
    | none => simp only [endStep, hx]; exact h
    | some e =>
      simp only [endStep, hx]
      have hmem := List.mem_of_getElem? hx
      have he := hp.now.ends e hmem
      have old := h.enders e hmem
      have hne : ¬ (e.user = u ∧ e.client = c) := by
        rintro ⟨h1, h2⟩
        exact hno (List.mem_append_left _ (List.mem_map.2 ⟨e, hmem, by simp [Ender.what, h1, h2]⟩))
      have nu : ∀ q, s.making.st.db.get? e.user = some q → q ≠ r := by
        intro q hq hqr
        rw [hqr] at hq
        have e1 := h.only _ hq
        cases skey_str_inj (k := .usr e.user) (k' := .gra u c gid) ⟨he.1, he.2.1⟩ hgood e1
      have nc : ∀ q, s.making.st.db.get? (key2 e.user e.client) = some q → q ≠ r := by
        intro q hq hqr
        rw [hqr] at hq
        have e1 := h.only _ hq
        cases skey_str_inj (k := .cli e.user e.client) (k' := .gra u c gid) he hgood e1
      have ng : ∀ x q, s.making.st.db.get? (key3 e.user e.client x) = some q → q ≠ r := by
        intro x q hq hqr
        rw [hqr] at hq
        exact hne (key3_owner he hcli (h.only _ hq))
      refine ⟨?_, endGo_grant old h.obj, fun k' hk => ?_, h.makers, fun e' he' => ?_⟩
      · show (endGo s.making.st e).1.db.get? _ = _
        rw [endGo_key3 hgood he]
        exact h.at'
      · rcases endGo_puts old hk with h1 | h1
        · exact h.only k' h1
        · exact absurd rfl h1
      · rcases List.mem_or_eq_of_mem_set he' with he' | rfl
        · exact h.enders e' he'
        · exact endGo_refs _ _ nu nc ng (fun _ => Nat.ne_of_gt hlt) old
  | make op =>
    cases op with
    | login u' c' g' =>
      refine ⟨h.at', h.obj, h.only, fun m hm => ?_, h.enders⟩
      rcases List.mem_append.1 hm with hm | hm
      · exact h.makers m hm
      · simp at hm
        subst hm
        refine ⟨trivial, fun hk => ?_⟩
        have := hp.unseen u' c' g' (by rw [makes_cons]; simp [makesIn, loginsIn])
        rw [show key3 u' c' g'.id = key3 u c gid from hk, h.at'] at this
        cases this
    | go i =>
      cases hx : s.making.threads[i]? with
      | none => simp only [endStep, makeStep, hx]; exact h
      | some m =>
        simp only [endStep, makeStep, hx]
        have hmem := List.mem_of_getElem? hx
        have hn := hp.now.named m hmem
        obtain ⟨old, late⟩ := h.makers m hmem
        have nu : ∀ q, s.making.st.db.get? m.user = some q → q ≠ r := by
          intro q hq hqr
          rw [hqr] at hq
          have e1 := h.only _ hq
          cases skey_str_inj (k := .usr m.user) (k' := .gra u c gid) (named_usr hn) hgood e1
        have nc : ∀ q, s.making.st.db.get? (key2 m.user m.client) = some q → q ≠ r := by
          intro q hq hqr
          rw [hqr] at hq
          have e1 := h.only _ hq
          cases skey_str_inj (k := .cli m.user m.client) (k' := .gra u c gid) (named_cli hn) hgood e1
        refine ⟨?_, (makeGo_le _ _ r).1 g h.obj, fun k' hk => ?_, fun m' hm' => ?_, h.enders⟩
        · show (makeGo s.making.st m).1.db.get? _ = _
          rw [makeGo_key3 hgood hn (fun hpc hk => ?_)]
          · exact h.at'
          · have := late hk.symm
            rw [hpc] at this
            cases this
        · rcases makeGo_puts old hk with h1 | ⟨h1, -⟩ | h1
          · exact h.only k' h1
          · exact absurd h1 (Nat.ne_of_lt hlt)
          · exact absurd rfl h1
        · rcases List.mem_or_eq_of_mem_set hm' with hm' | rfl
          · exact h.makers m' hm'
          · refine ⟨makeGo_refs _ _ nu nc (fun _ => Nat.ne_of_gt hlt) old, fun hk => ?_⟩
            cases hearly : (makeGo s.making.st m).2.early with
            | false => rfl
            | true =>
              have := late hk
              rw [(early_before _ _ hearly).1] at this
              cases this

theorem untouched_run {u c gid : String} {r : Nat} {g : Grant} (hgood : (SKey.gra u c gid).Good (fun _ => True)) (ops : List EndOp) :
    ∀ s : EndWorld, Untouched (key3 u c gid) r g s → ProperAll s ops → NotHere u c s ops → Untouched (key3 u c gid) r g (endRun s ops) := by
  induction ops with
  | nil => exact fun s h _ _ => h
  | cons op ops ih => exact fun s h hp hno => ih _ (untouched_step hgood h hp hno) hp.step hno.step

/-- A session that is stored is one that no thread can touch. -/
theorem stored_step {u c gid : String} (hgood : (SKey.gra u c gid).Good (fun _ => True)) {s : EndWorld} (hb : Bounded s) {op : EndOp}
    {ops : List EndOp} (hp : ProperAll s (op :: ops)) (hnone : s.making.st.db.get? (key3 u c gid) = none) :
    (endStep s op).making.st.db.get? (key3 u c gid) = none ∨ ∃ r g, Untouched (key3 u c gid) r g (endStep s op) := by
  cases op with
  | logout u' c' => exact .inl hnone
  | goEnd i =>
    cases hx : s.enders[i]? with
    | none => simp only [endStep, hx]; exact .inl hnone
    | some e =>
      left
      simp only [endStep, hx]
      rw [endGo_key3 hgood (hp.now.ends e (List.mem_of_getElem? hx))]
      exact hnone
  | make op =>
    cases op with
    | login u' c' g' => exact .inl hnone
    | go i =>
      cases hx : s.making.threads[i]? with
      | none => simp only [endStep, makeStep, hx]; exact .inl hnone
      | some m =>
        have hmem := List.mem_of_getElem? hx
        have hn := hp.now.named m hmem
        by_cases hm : m.pc = .setGrant ∧ key3 m.user m.client m.grant.id = key3 u c gid
        · right
          obtain ⟨hpc, hk⟩ := hm
          refine ⟨s.making.st.heap.length, m.grant, ?_⟩
          have hgo : makeGo s.making.st m = (({ s.making.st with heap := s.making.st.heap ++ [.grant m.grant] } : Store).bind
              (key3 u c gid) s.making.st.heap.length, .readClient) := by
            unfold makeGo
            rw [hpc, ← hk]
            rfl
          simp only [endStep, makeStep, hx, hgo]
          refine ⟨by simp [Store.bind], by simp [Store.bind], fun k' hk' => ?_, fun m' hm' => ?_, fun e he => ?_⟩
          · simp only [Store.bind] at hk'
            by_cases he : key3 u c gid = k'
            · exact he.symm
            · rw [Dict.get?_set_ne _ _ he] at hk'
              exact absurd (hb.db _ _ hk') (Nat.lt_irrefl _)
          · obtain ⟨j, hj⟩ := List.mem_iff_getElem?.1 hm'
            by_cases hij : i = j
            · subst hij
              rw [List.getElem?_set_self (List.getElem?_eq_some_iff.1 hx).1] at hj
              cases hj
              exact ⟨trivial, fun _ => rfl⟩
            · rw [List.getElem?_set_ne hij] at hj
              have hmem' := List.mem_of_getElem? hj
              refine ⟨(hb.makers m' hmem').imp (fun q hq => Nat.ne_of_lt hq), fun hk' => ?_⟩
              exfalso
              have e1 := skey_str_inj (k := .gra m'.user m'.client m'.grant.id) (k' := .gra m.user m.client m.grant.id)
                (hp.now.named m' hmem') hn (hk'.trans hk.symm)
              have e2 : m'.grant.id = m.grant.id := (SKey.gra.inj e1).2.2
              refine hij ((List.getElem?_inj (l := s.making.threads.map (fun m => m.grant.id))
                (by rw [List.length_map]; exact (List.getElem?_eq_some_iff.1 hx).1) hp.now.distinct).1 ?_)
              rw [List.getElem?_map, List.getElem?_map, hx, hj]
              simp [e2]
          · exact (hb.enders e he).imp (fun q hq => Nat.ne_of_lt hq)
        · left
          simp only [endStep, makeStep, hx]
          rw [makeGo_key3 hgood hn (fun hpc hk => hm ⟨hpc, hk.symm⟩)]
          exact hnone

theorem stored_run {u c gid : String} (hgood : (SKey.gra u c gid).Good (fun _ => True)) (more : List EndOp) (ops : List EndOp) :
    ∀ s : EndWorld, Bounded s → ProperAll s (ops ++ more) → NotHere u c s (ops ++ more) →
      (s.making.st.db.get? (key3 u c gid) = none ∨ ∃ r g, Untouched (key3 u c gid) r g s) →
      ((endRun s ops).making.st.db.get? (key3 u c gid) = none ∨ ∃ r g, Untouched (key3 u c gid) r g (endRun s ops)) ∧
        ProperAll (endRun s ops) more ∧ NotHere u c (endRun s ops) more := by
  induction ops with
  | nil => exact fun s _ hp hno h => ⟨h, hp, hno⟩
  | cons op ops ih =>
    intro s hb hp hno h
    refine ih _ (bounded_step hb op) hp.step hno.step ?_
    rcases h with h | ⟨r, g, h⟩
    · exact stored_step hgood hb hp h
    · exact .inr ⟨r, g, untouched_step hgood h hp hno⟩

/-- A session that can be read is untouched, and stays so. -/
theorem others_untouched {u c gid : String} {s : Store} {before after : List EndOp} (hgood : (SKey.gra u c gid).Good (fun _ => True))
    (hsep : OwnObjects s)
    (hn : OwnEnds s (before ++ after)) (hno : (u, c) ∉ logoutsIn (before ++ after)) {g : Grant}
    (hthere : found (endRun { making := { st := s } } before).making.st (.gra u c gid) = some (.grant g)) :
    Holds (endRun { making := { st := s } } (before ++ after)).making.st u c gid g := by
  have start : s.db.get? (key3 u c gid) = none ∨ ∃ r g, Untouched (key3 u c gid) r g { making := { st := s } } := by
    cases hk : s.db.get? (key3 u c gid) with
    | none => exact .inl rfl
    | some r =>
      obtain ⟨g, hg⟩ := hsep.grants u c gid r hgood hk
      exact .inr ⟨r, g, hk, hg, fun k' h => hsep.own _ _ _ hk h, fun _ h => (by cases h), fun _ h => (by cases h)⟩
  have hb : Bounded { making := { st := s } } := ⟨hsep.there, fun _ h => (by cases h), fun _ h => (by cases h)⟩
  obtain ⟨h1, h2, h3⟩ := stored_run hgood after before _ hb (properAll_start hn) (by simpa [NotHere] using hno) start
  obtain ⟨-, -, -, ⟨q, hq1, hq2⟩, -⟩ := found_holds hthere
  rcases h1 with h1 | ⟨r, g', h1⟩
  · rw [h1] at hq1; cases hq1
  · have hr := h1.at'
    rw [hq1] at hr
    cases hr
    have hg := h1.obj
    rw [hq2] at hg
    cases hg
    have h4 := untouched_run hgood after _ h1 h2 h3
    have hrun : endRun { making := { st := s } } (before ++ after) = endRun (endRun { making := { st := s } } before) after := by
      unfold endRun
      rw [List.foldl_append]
    rw [hrun]
    exact ⟨_, h4.at', h4.obj⟩

/-- C129. A logout touches no session of another user or at another client: whatever is served at the same time, a session that could be
read is, whenever it is read later, as it was, if no logout was for its user and client. -/
theorem C129_others (u c gid : String) (s : Store) (before after : List EndOp) (hgood : (SKey.gra u c gid).Good (fun _ => True))
    (hs : OwnObjects s) (hn : OwnEnds s (before ++ after)) (hno : (u, c) ∉ logoutsIn (before ++ after)) (g : Grant)
    (hthere : found (endRun { making := { st := s } } before).making.st (.gra u c gid) = some (.grant g)) (o : Obj)
    (hlater : found (endRun { making := { st := s } } (before ++ after)).making.st (.gra u c gid) = some o) : o = .grant g := by
  obtain ⟨r, h1, h2⟩ := others_untouched hgood hs hn hno hthere
  have hl : (endRun { making := { st := s } } (before ++ after)).making.st.lookup (key3 u c gid) = some (r, .grant g) :=
    (lookup_eq _ _ _ _).2 ⟨h1, h2⟩
  generalize (endRun { making := { st := s } } (before ++ after)).making.st = t at *
  have hget : ∀ q, dbGet ⟨u, some c, some gid⟩ t = .ok q → q = r := by
    intro q hq
    unfold dbGet at hq
    simp only [hl] at hq
    repeat' split at hq
    all_goals first | cases hq; done | (cases hq; rfl)
  unfold found SKey.path at hlater
  simp only [] at hlater
  split at hlater
  · rename_i q hq
    rw [hget q hq, Store.obj, h2] at hlater
    cases hlater
    rfl
  · cases hlater

/-- C129, where the user has been logged in at the client before: such a session can still be read. -/
theorem C129_others_readable_partial (u c gid : String) (s : Store) (before after : List EndOp)
    (hgood : (SKey.gra u c gid).Good (fun _ => True)) (hs : OwnObjects s) (hbefore : ∃ i, found s (.cli u c) = some (.info i))
    (hn : OwnEnds s (before ++ after)) (hno : (u, c) ∉ logoutsIn (before ++ after)) (g : Grant)
    (hthere : found (endRun { making := { st := s } } before).making.st (.gra u c gid) = some (.grant g)) :
    found (endRun { making := { st := s } } (before ++ after)).making.st (.gra u c gid) = some (.grant g) := by
  have hcli : (SKey.cli u c).Good (fun _ => True) := ⟨hgood.1, hgood.2.1, hgood.2.2.1⟩
  obtain ⟨i, hi⟩ := hbefore
  obtain ⟨ru, rc, hl⟩ := found_linked hi
  have start : EndsInv u c ru rc { making := { st := s } } := ⟨hl, fun _ h => (by cases h), fun _ h => (by cases h)⟩
  obtain ⟨i1, p1⟩ := endsInv_run hcli before _ _ start (properAll_start hn)
  obtain ⟨ru', rc', hl', hh, hls⟩ := found_holds hthere
  have hrc : rc' = rc := by
    have a := hl'.client
    rw [i1.linked.client] at a
    cases a
    rfl
  subst hrc
  have prog0 : EndProg u c gid rc' (endRun { making := { st := s } } before).enders.length
      (endRun { making := { st := s } } before) := by
    obtain ⟨r, h1, h2⟩ := hh
    refine ⟨⟨r, g, h1, h2, nofun⟩, hls, fun e he => ?_⟩
    rw [List.getElem?_eq_none_iff.2 (Nat.le_refl _)] at he
    cases he
  have hrun : endRun { making := { st := s } } (before ++ after) = endRun (endRun { making := { st := s } } before) after := by
    unfold endRun
    rw [List.foldl_append]
  have hold := others_untouched hgood hs hn hno hthere
  rw [hrun] at hold ⊢
  obtain ⟨i2, p2⟩ := endProg_run hgood _ _ i1 p1 prog0
  exact holds_found i2.linked hold p2.listed

namespace Ex

theorem knownAt_own : OwnObjects (knownAt "c1") := by
  have hdb : (knownAt "c1").db = [("diana", 0), ("diana;;c1", 1), ("diana;;c1;;g0", 2)] := by decide +kernel
  have hlen : (knownAt "c1").heap.length = 3 := by decide +kernel
  have key : ∀ k r, (knownAt "c1").db.get? k = some r →
      (k = "diana" ∧ r = 0) ∨ (k = "diana;;c1" ∧ r = 1) ∨ (k = "diana;;c1;;g0" ∧ r = 2) := by
    intro k r h
    rw [hdb, Dict.get?_cons, Dict.get?_cons, Dict.get?_cons] at h
    split at h
    · rename_i e; cases h; exact .inl ⟨e.symm, rfl⟩
    · split at h
      · rename_i e; cases h; exact .inr (.inl ⟨e.symm, rfl⟩)
      · split at h
        · rename_i e; cases h; exact .inr (.inr ⟨e.symm, rfl⟩)
        · cases h
  constructor
  · intro k r h
    rw [hlen]
    rcases key k r h with ⟨-, rfl⟩ | ⟨-, rfl⟩ | ⟨-, rfl⟩ <;> decide
  · intro k k' r h h'
    rcases key k r h with ⟨rfl, rfl⟩ | ⟨rfl, rfl⟩ | ⟨rfl, rfl⟩ <;>
      rcases key k' _ h' with ⟨rfl, e⟩ | ⟨rfl, e⟩ | ⟨rfl, e⟩ <;> first | rfl | cases e
  · intro u c gid r hg h
    rcases key _ r h with ⟨e, rfl⟩ | ⟨e, rfl⟩ | ⟨e, rfl⟩
    · cases skey_str_inj (k := .gra u c gid) (k' := .usr "diana") hg ⟨trivial, by decide⟩ e
    · cases skey_str_inj (k := .gra u c gid) (k' := .cli "diana" "c1") hg ⟨trivial, by decide, by decide⟩ (e.trans (by decide))
    · exact ⟨grantOf "g0", by decide +kernel⟩

/-- A login at another client, and while it is served a logout there. -/
def elsewhere : List EndOp :=
  [.make (.login "diana" "c2" (grantOf "g1"))] ++ List.replicate 14 (.make (.go 0)) ++ [.logout "diana" "c2"] ++
    List.replicate 14 (.goEnd 0)

/-- The hypotheses of the theorems about other sessions are met; the session at the other client is revoked. -/
example : OwnObjects (knownAt "c1") ∧ OwnEnds (knownAt "c1") ([] ++ elsewhere) ∧ ("diana", "c1") ∉ logoutsIn ([] ++ elsewhere) ∧
    (∃ i, found (knownAt "c1") (.cli "diana" "c1") = some (.info i)) ∧
    found (endRun { making := { st := knownAt "c1" } } []).making.st (.gra "diana" "c1" "g0") = some (.grant (grantOf "g0")) ∧
    Over (endRun { making := { st := knownAt "c1" } } ([] ++ elsewhere)) 0 "diana" "c2" ∧
    found (endRun { making := { st := knownAt "c1" } } ([] ++ elsewhere)).making.st (.gra "diana" "c2" "g1") =
      some (.grant (grantOf "g1").revoke) :=
  ⟨knownAt_own, ⟨⟨fun u c g h => by
      simp [elsewhere, makesIn, loginsIn] at h
      obtain ⟨rfl, rfl, rfl⟩ := h
      exact ⟨trivial, by decide, by decide, by decide⟩,
      by decide +kernel, fun u c g h => by
      simp [elsewhere, makesIn, loginsIn] at h
      obtain ⟨rfl, rfl, rfl⟩ := h
      decide +kernel⟩,
      fun u c h => by
      simp [elsewhere, logoutsIn] at h
      obtain ⟨rfl, rfl⟩ := h
      exact ⟨trivial, by decide, by decide⟩⟩,
    by decide +kernel,
    ⟨_, (by decide +kernel : found (knownAt "c1") (.cli "diana" "c1") = some (.info { isUser := false, ident := "c1", subordinate := ["g0"] }))⟩,
    by decide +kernel, by decide +kernel, by decide +kernel⟩

end Ex
end OidcOp
