/-
C128: sessions that are created at the same time.
-/
import Verif.Spec.Concurrent
import Verif.Lemmas.Database

namespace OidcOp
open Spec

/-! ### What a step does to the database -/

/-- Objects stay what they are, and lists only grow. -/
def HeapLe (h h' : List Obj) : Prop := ∀ r : Nat, (∀ g, h[r]? = some (.grant g) → h'[r]? = some (.grant g)) ∧
  (∀ i, h[r]? = some (.info i) → ∃ i', h'[r]? = some (.info i') ∧ i.subordinate <+: i'.subordinate)

theorem HeapLe.refl (h : List Obj) : HeapLe h h := fun _ => ⟨fun _ hg => hg, fun i hi => ⟨i, hi, List.prefix_refl _⟩⟩

theorem HeapLe.append (h l : List Obj) : HeapLe h (h ++ l) := fun r =>
  ⟨fun g hg => by rw [List.getElem?_append_left (List.getElem?_eq_some_iff.1 hg).1]; exact hg,
   fun i hi => ⟨i, by rw [List.getElem?_append_left (List.getElem?_eq_some_iff.1 hi).1]; exact hi, List.prefix_refl _⟩⟩

theorem addSub_le {s s' : Store} {r : Nat} {x : String} {b : Bool} (h : s.addSub r x = some (b, s')) :
    HeapLe s.heap s'.heap ∧ s'.db = s.db ∧ ∃ i, s'.heap[r]? = some (.info i) ∧ x ∈ i.subordinate := by
  unfold Store.addSub Store.obj at h
  cases hr : s.heap[r]? with
  | none => rw [hr] at h; cases h
  | some o =>
    rw [hr] at h
    cases o with
    | grant g => cases h
    | info i =>
      simp only [] at h
      by_cases hx : x ∈ i.subordinate
      · rw [if_pos hx] at h
        simp only [Option.some.injEq, Prod.mk.injEq] at h
        obtain ⟨-, rfl⟩ := h
        exact ⟨HeapLe.refl _, rfl, i, hr, hx⟩
      · rw [if_neg hx] at h
        simp only [Option.some.injEq, Prod.mk.injEq] at h
        obtain ⟨-, rfl⟩ := h
        have hlt := (List.getElem?_eq_some_iff.1 hr).1
        refine ⟨fun r' => ?_, rfl, { i with subordinate := i.subordinate ++ [x] }, by simp [Store.put, hlt], by simp⟩
        by_cases he : r = r'
        · subst he
          refine ⟨fun g hg => ?_, fun i' hi' => ?_⟩
          · rw [hr] at hg; cases hg
          · rw [hr] at hi'
            cases hi'
            exact ⟨{ i with subordinate := i.subordinate ++ [x] }, by simp [Store.put, hlt], List.prefix_append _ _⟩
        · refine ⟨fun g hg => ?_, fun i' hi' => ⟨i', ?_, List.prefix_refl _⟩⟩
          · simp only [Store.put]; rw [List.getElem?_set_ne he]; exact hg
          · simp only [Store.put]; rw [List.getElem?_set_ne he]; exact hi'

theorem addSub_info {s : Store} {r : Nat} {x : String} {i : SInfo} (h : s.heap[r]? = some (.info i)) :
    ∃ b s', s.addSub r x = some (b, s') := by
  unfold Store.addSub Store.obj
  rw [h]
  simp only []
  split
  · exact ⟨_, _, rfl⟩
  · exact ⟨_, _, rfl⟩

theorem getOr_le (s : Store) (k : String) (d : SInfo) : HeapLe s.heap (s.getOr k d).2.heap ∧ (s.getOr k d).2.db = s.db := by
  unfold Store.getOr
  cases hq : s.lookup k with
  | none => exact ⟨HeapLe.append _ _, rfl⟩
  | some p => exact ⟨HeapLe.refl _, rfl⟩

theorem getOr_found {s : Store} {k : String} {d : SInfo} {r : Nat} {o : Obj} (h1 : s.db.get? k = some r) (h2 : s.heap[r]? = some o) :
    s.getOr k d = (r, s) := by
  unfold Store.getOr
  rw [(lookup_eq s k r o).2 ⟨h1, h2⟩]

/-- A step of a thread leaves the objects in place. -/
theorem makeGo_le (s : Store) (m : Maker) : HeapLe s.heap (makeGo s m).1.heap := by
  unfold makeGo
  cases m.pc with
  | getUser => simp only []; cases s.lookup m.user <;> exact HeapLe.refl _
  | setUser => exact HeapLe.append _ _
  | getListed =>
    simp only []
    split
    · exact HeapLe.refl _
    · exact HeapLe.refl _
    · split <;> exact HeapLe.refl _
  | getClient => simp only []; cases s.lookup (key2 m.user m.client) <;> exact HeapLe.refl _
  | setClient => exact HeapLe.append _ _
  | setGrant => exact HeapLe.append _ _
  | readClient => exact (getOr_le _ _ _).1
  | addGrant r =>
    simp only []
    split
    · exact HeapLe.refl _
    · rename_i h; exact (addSub_le h).1
    · rename_i h; exact (addSub_le h).1
  | storeClient r => exact HeapLe.refl _
  | readUser last => exact (getOr_le _ _ _).1
  | addClient r last =>
    simp only []
    split
    · exact HeapLe.refl _
    · rename_i h; exact (addSub_le h).1
    · rename_i h; exact (addSub_le h).1
  | storeUser r last => exact HeapLe.refl _
  | done => exact HeapLe.refl _
  | failed => exact HeapLe.refl _

/-- A step of a thread writes at most one key, which depends on where it is. -/
theorem makeGo_db (s : Store) (m : Maker) (k : String)
    (h1 : (m.pc = .setUser ∨ ∃ r l, m.pc = .storeUser r l) → k ≠ m.user)
    (h2 : (m.pc = .setClient ∨ ∃ r, m.pc = .storeClient r) → k ≠ key2 m.user m.client)
    (h3 : m.pc = .setGrant → k ≠ key3 m.user m.client m.grant.id) : (makeGo s m).1.db.get? k = s.db.get? k := by
  unfold makeGo
  cases hpc : m.pc with
  | getUser => simp only []; cases s.lookup m.user <;> rfl
  | setUser => exact Dict.get?_set_ne _ _ (h1 (.inl hpc)).symm
  | getListed =>
    simp only []
    split
    · rfl
    · rfl
    · split <;> rfl
  | getClient => simp only []; cases s.lookup (key2 m.user m.client) <;> rfl
  | setClient => exact Dict.get?_set_ne _ _ (h2 (.inl hpc)).symm
  | setGrant => exact Dict.get?_set_ne _ _ (h3 hpc).symm
  | readClient => simp only []; rw [(getOr_le _ _ _).2]
  | addGrant r =>
    simp only []
    split
    · rfl
    · rename_i h; simp only []; rw [(addSub_le h).2.1]
    · rename_i h; simp only []; rw [(addSub_le h).2.1]
  | storeClient r => exact Dict.get?_set_ne _ _ (h2 (.inr ⟨r, hpc⟩)).symm
  | readUser last => simp only []; rw [(getOr_le _ _ _).2]
  | addClient r last =>
    simp only []
    split
    · rfl
    · rename_i h; simp only []; rw [(addSub_le h).2.1]
    · rename_i h; simp only []; rw [(addSub_le h).2.1]
  | storeUser r last => exact Dict.get?_set_ne _ _ (h1 (.inr ⟨r, last, hpc⟩)).symm
  | done => rfl
  | failed => rfl

/-! ### The invariant -/

/-- The object at `r` lists `x`. -/
def Lists (s : Store) (r : Nat) (x : String) : Prop := ∃ i, s.heap[r]? = some (.info i) ∧ x ∈ i.subordinate

/-- The grant is stored under its key. -/
def Holds (s : Store) (u c gid : String) (g : Grant) : Prop := ∃ r, s.db.get? (key3 u c gid) = some r ∧ s.heap[r]? = some (.grant g)

theorem Lists.mono {s s' : Store} {r : Nat} {x : String} (h : Lists s r x) (hle : HeapLe s.heap s'.heap) : Lists s' r x := by
  obtain ⟨i, h1, h2⟩ := h
  obtain ⟨i', h3, h4⟩ := (hle r).2 i h1
  exact ⟨i', h3, h4.subset h2⟩

theorem Holds.mono {s s' : Store} {u c gid : String} {g : Grant} (h : Holds s u c gid g) (hle : HeapLe s.heap s'.heap)
    (hdb : s'.db.get? (key3 u c gid) = s.db.get? (key3 u c gid)) : Holds s' u c gid g := by
  obtain ⟨r, h1, h2⟩ := h
  exact ⟨r, by rw [hdb]; exact h1, (hle r).1 g h2⟩

/-- The user's and the client's records are there and linked. -/
structure Linked (u c : String) (ru rc : Nat) (s : Store) : Prop where
  user : s.db.get? u = some ru
  client : s.db.get? (key2 u c) = some rc
  lists : Lists s ru c
  info : ∃ i, s.heap[rc]? = some (.info i)

/-- How far a thread for this user and client has come. -/
def Came (u c : String) (ru rc : Nat) (s : Store) (m : Maker) : Prop :=
  match m.pc with
  | .getUser => True
  | .setUser => False
  | .getListed => True
  | .getClient => True
  | .setClient => False
  | .setGrant => True
  | .readClient => Holds s u c m.grant.id m.grant
  | .addGrant r => r = rc ∧ Holds s u c m.grant.id m.grant
  | .storeClient r => r = rc ∧ Holds s u c m.grant.id m.grant ∧ Lists s rc m.grant.id
  | .readUser l => l = true ∧ Holds s u c m.grant.id m.grant ∧ Lists s rc m.grant.id
  | .addClient r l => r = ru ∧ l = true ∧ Holds s u c m.grant.id m.grant ∧ Lists s rc m.grant.id
  | .storeUser r l => r = ru ∧ l = true ∧ Holds s u c m.grant.id m.grant ∧ Lists s rc m.grant.id
  | .done => Holds s u c m.grant.id m.grant ∧ Lists s rc m.grant.id
  | .failed => False

/-- What a thread for this user and another client must not do. -/
def Mild (ru : Nat) (m : Maker) : Prop :=
  match m.pc with
  | .setUser => False
  | .addClient r _ => r = ru
  | .storeUser r _ => r = ru
  | _ => True

/-- A thread is where it does no harm. -/
structure Good1 (u c : String) (ru rc : Nat) (s : Store) (m : Maker) : Prop where
  mild : m.user = u → Mild ru m
  came : m.user = u → m.client = c → Came u c ru rc s m

theorem Linked.lookupUser {u c : String} {ru rc : Nat} {s : Store} (h : Linked u c ru rc s) :
    ∃ i, s.lookup u = some (ru, .info i) ∧ c ∈ i.subordinate := by
  obtain ⟨i, h1, h2⟩ := h.lists
  exact ⟨i, (lookup_eq _ _ _ _).2 ⟨h.user, h1⟩, h2⟩

theorem Linked.lookupClient {u c : String} {ru rc : Nat} {s : Store} (h : Linked u c ru rc s) :
    ∃ i, s.lookup (key2 u c) = some (rc, .info i) := by
  obtain ⟨i, h1⟩ := h.info
  exact ⟨i, (lookup_eq _ _ _ _).2 ⟨h.client, h1⟩⟩

/-- The names in a thread are as the provider makes them. -/
def Named (m : Maker) : Prop := (SKey.gra m.user m.client m.grant.id).Good (fun _ => True)

theorem named_cli {m : Maker} (h : Named m) : (SKey.cli m.user m.client).Good (fun _ => True) := ⟨h.1, h.2.1, h.2.2.1⟩

theorem named_usr {m : Maker} (h : Named m) : (SKey.usr m.user).Good (fun _ => True) := ⟨h.1, h.2.1⟩

/-- The thread that moves still does not do what it must not. -/
theorem mild_self {u c : String} {ru rc : Nat} {s : Store} (hl : Linked u c ru rc s) {m : Maker} (hu : m.user = u) (hm : Mild ru m) :
    Mild ru { m with pc := (makeGo s m).2 } := by
  obtain ⟨iu, hlu, hcu⟩ := hl.lookupUser
  have hu' : m.user = u := hu
  unfold Mild at hm ⊢
  unfold makeGo
  cases hpc : m.pc with
  | getUser => simp only [hu', hlu]
  | setUser => rw [hpc] at hm; exact False.elim hm
  | getListed => simp only [hu', hlu]; by_cases hx : m.client ∈ iu.subordinate <;> simp [hx]
  | getClient => simp only []; cases s.lookup (key2 m.user m.client) <;> trivial
  | setClient => trivial
  | setGrant => trivial
  | readClient => trivial
  | addGrant r =>
    simp only []
    rcases hs : s.addSub r m.grant.id with _ | ⟨b, s'⟩
    · trivial
    · cases b <;> trivial
  | storeClient r => trivial
  | readUser last =>
    obtain ⟨h1, h2⟩ := (lookup_eq _ _ _ _).1 hlu
    simp only [hu', getOr_found h1 h2]
  | addClient r last =>
    rw [hpc] at hm
    simp only []
    rcases hs : s.addSub r m.client with _ | ⟨b, s'⟩
    · trivial
    · cases b
      · cases last <;> trivial
      · exact hm
  | storeUser r last => cases last <;> trivial
  | done => trivial
  | failed => trivial

/-- The thread that moves is again where it does no harm. -/
theorem good1_self {u c : String} {ru rc : Nat} {s : Store} (hl : Linked u c ru rc s) {m : Maker} (h : Good1 u c ru rc s m)
    (hg : Named m) :
    Good1 u c ru rc (makeGo s m).1 { m with pc := (makeGo s m).2 } := by
  obtain ⟨iu, hlu, hcu⟩ := hl.lookupUser
  obtain ⟨ic, hlc⟩ := hl.lookupClient
  refine ⟨fun hu => mild_self hl hu (h.mild hu), ?_⟩
  · intro hu hc
    have hm := h.came hu hc
    have hu' : m.user = u := hu
    have hc' : m.client = c := hc
    have hle := makeGo_le s m
    have ne1 : key3 u c m.grant.id ≠ m.user := fun e => by
      have := skey_str_inj (k := .gra m.user m.client m.grant.id) (k' := .usr m.user) hg (named_usr hg) (by rw [← hu', ← hc'] at e; exact e)
      cases this
    have ne2 : key3 u c m.grant.id ≠ key2 m.user m.client := fun e => by
      have := skey_str_inj (k := .gra m.user m.client m.grant.id) (k' := .cli m.user m.client) hg (named_cli hg)
        (by rw [← hu', ← hc'] at e; exact e)
      cases this
    unfold Came at hm
    have hdb := makeGo_db s m (key3 u c m.grant.id)
    revert hle hdb
    unfold Came makeGo
    cases hpc : m.pc with
    | getUser => simp only [hu', hlu]; exact fun _ _ => trivial
    | setUser => rw [hpc] at hm; exact hm.elim
    | getListed => simp only [hu', hlu, hc', hcu, if_true]; exact fun _ _ => trivial
    | getClient => simp only [hu', hc', hlc]; exact fun _ _ => trivial
    | setClient => rw [hpc] at hm; exact hm.elim
    | setGrant =>
      intro _ _
      simp only [hu', hc']
      exact ⟨s.heap.length, by simp [Store.bind, Store.alloc], by simp [Store.bind, Store.alloc]⟩
    | readClient =>
      rw [hpc] at hm
      obtain ⟨h1, h2⟩ := (lookup_eq _ _ _ _).1 hlc
      simp only [hu', hc', getOr_found h1 h2]
      exact fun _ _ => ⟨trivial, hm⟩
    | addGrant r =>
      rw [hpc] at hm
      obtain ⟨rfl, hm⟩ := hm
      obtain ⟨b, s', hs⟩ := addSub_info (x := m.grant.id) ((lookup_eq _ _ _ _).1 hlc).2
      simp only [hs]
      obtain ⟨a1, a2, a3⟩ := addSub_le hs
      intro _ _
      cases b with
      | true => exact ⟨rfl, hm.mono a1 (by simp only [a2]), a3⟩
      | false => exact ⟨rfl, hm.mono a1 (by simp only [a2]), a3⟩
    | storeClient r =>
      rw [hpc] at hm
      obtain ⟨rfl, hm, hli⟩ := hm
      intro hle hdb
      exact ⟨rfl, hm.mono hle (hdb (fun _ => ne1) (fun _ => ne2) (fun e => (by cases e))), hli.mono hle⟩
    | readUser last =>
      rw [hpc] at hm
      obtain ⟨rfl, hm⟩ := hm
      obtain ⟨h1, h2⟩ := (lookup_eq _ _ _ _).1 hlu
      simp only [hu', getOr_found h1 h2]
      exact fun _ _ => ⟨trivial, trivial, hm⟩
    | addClient r last =>
      rw [hpc] at hm
      obtain ⟨rfl, rfl, hm, hli⟩ := hm
      obtain ⟨b, s', hs⟩ := addSub_info (x := m.client) ((lookup_eq _ _ _ _).1 hlu).2
      simp only [hs]
      obtain ⟨a1, a2, a3⟩ := addSub_le hs
      intro _ _
      cases b with
      | true => exact ⟨rfl, rfl, hm.mono a1 (by simp only [a2]), hli.mono a1⟩
      | false => exact ⟨hm.mono a1 (by simp only [a2]), hli.mono a1⟩
    | storeUser r last =>
      rw [hpc] at hm
      obtain ⟨rfl, rfl, hm, hli⟩ := hm
      intro hle hdb
      exact ⟨hm.mono hle (hdb (fun _ => ne1) (fun _ => ne2) (fun e => (by cases e))), hli.mono hle⟩
    | done => rw [hpc] at hm; exact fun _ _ => hm
    | failed => rw [hpc] at hm; exact hm.elim

/-- A thread that does not move stays where it does no harm. -/
theorem good1_other {u c : String} {ru rc : Nat} {s s' : Store} {m : Maker} (h : Good1 u c ru rc s m) (hle : HeapLe s.heap s'.heap)
    (hdb : m.user = u → m.client = c → s'.db.get? (key3 u c m.grant.id) = s.db.get? (key3 u c m.grant.id)) : Good1 u c ru rc s' m := by
  refine ⟨h.mild, fun hu hc => ?_⟩
  have hm := h.came hu hc
  have hdb := hdb hu hc
  unfold Came at hm ⊢
  cases hpc : m.pc <;> rw [hpc] at hm <;> simp only [] at hm ⊢
  · exact hm.mono hle hdb
  · exact ⟨hm.1, hm.2.mono hle hdb⟩
  · exact ⟨hm.1, hm.2.1.mono hle hdb, hm.2.2.mono hle⟩
  · exact ⟨hm.1, hm.2.1.mono hle hdb, hm.2.2.mono hle⟩
  · exact ⟨hm.1, hm.2.1, hm.2.2.1.mono hle hdb, hm.2.2.2.mono hle⟩
  · exact ⟨hm.1, hm.2.1, hm.2.2.1.mono hle hdb, hm.2.2.2.mono hle⟩
  · exact ⟨hm.1.mono hle hdb, hm.2.mono hle⟩

theorem Good1.stays {u c : String} {ru rc : Nat} {s : Store} {m : Maker} (h : Good1 u c ru rc s m) (hu : m.user = u) (hc : m.client = c) :
    m.pc ≠ .setClient ∧ ∀ r, m.pc = .storeClient r → r = rc := by
  have hm := h.came hu hc
  unfold Came at hm
  refine ⟨fun e => ?_, fun r e => ?_⟩
  · rw [e] at hm; exact hm
  · rw [e] at hm; exact hm.1

/-- A step of a thread leaves the two records linked. -/
theorem linked_step {u c : String} {ru rc : Nat} {s : Store} (hl : Linked u c ru rc s) {m : Maker} (hmild : m.user = u → Mild ru m)
    (hcame : m.user = u → m.client = c → m.pc ≠ .setClient ∧ ∀ r, m.pc = .storeClient r → r = rc) (hg : Named m) (hgood : (SKey.cli u c).Good (fun _ => True)) : Linked u c ru rc (makeGo s m).1 := by
  have hle := makeGo_le s m
  have hgu : (SKey.usr u).Good (fun _ => True) := ⟨hgood.1, hgood.2.1⟩
  refine ⟨?_, ?_, hl.lists.mono hle, ?_⟩
  · by_cases hu : m.user = u
    · have hm := hmild hu
      cases hpc : m.pc with
      | setUser => unfold Mild at hm; rw [hpc] at hm; exact False.elim hm
      | storeUser r l =>
        unfold Mild at hm
        rw [hpc] at hm
        have hm' : r = ru := hm
        subst hm'
        unfold makeGo
        rw [hpc]
        simp [Store.bind, hu]
      | _ =>
        rw [makeGo_db s m u (by rw [hpc]; rintro (e | ⟨_, _, e⟩) <;> cases e)
          (fun _ e => by cases skey_str_inj (k := .usr u) (k' := .cli _ _) hgu (named_cli hg) e)
          (fun _ e => by cases skey_str_inj (k := .usr u) (k' := .gra _ _ _) hgu hg e)]
        exact hl.user
    · rw [makeGo_db s m u (fun _ e => hu e.symm)
          (fun _ e => by cases skey_str_inj (k := .usr u) (k' := .cli _ _) hgu (named_cli hg) e)
          (fun _ e => by cases skey_str_inj (k := .usr u) (k' := .gra _ _ _) hgu hg e)]
      exact hl.user
  · have n1 : key2 u c ≠ m.user := fun e => by
      cases skey_str_inj (k := .cli u c) (k' := .usr _) hgood (named_usr hg) e
    have n3 : key2 u c ≠ key3 m.user m.client m.grant.id := fun e => by
      cases skey_str_inj (k := .cli u c) (k' := .gra _ _ _) hgood hg e
    by_cases hu : m.user = u ∧ m.client = c
    · have hm := hcame hu.1 hu.2
      cases hpc : m.pc with
      | setClient => exact absurd hpc hm.1
      | storeClient r =>
        have hm' : r = rc := hm.2 r hpc
        subst hm'
        unfold makeGo
        rw [hpc]
        simp [Store.bind, hu.1, hu.2]
      | _ =>
        rw [makeGo_db s m _ (fun _ => n1) (by rw [hpc]; rintro (e | ⟨_, e⟩) <;> cases e) (fun _ => n3)]
        exact hl.client
    · rw [makeGo_db s m _ (fun _ => n1)
          (fun _ e => by cases skey_str_inj (k := .cli u c) (k' := .cli _ _) hgood (named_cli hg) e; exact hu ⟨rfl, rfl⟩) (fun _ => n3)]
      exact hl.client
  · obtain ⟨i, hi⟩ := hl.info
    obtain ⟨i', h1, -⟩ := (hle rc).2 i hi
    exact ⟨i', h1⟩

/-- What a thread is for. -/
def Maker.what (m : Maker) : String × String × Grant := (m.user, m.client, m.grant)

/-- All threads do no harm, and their grants differ. -/
structure MakeInv (u c : String) (ru rc : Nat) (s0 : Store) (s : MakeWorld) : Prop where
  linked : Linked u c ru rc s.st
  good : ∀ m ∈ s.threads, Good1 u c ru rc s.st m
  kept : ∀ gid g, (SKey.gra u c gid).Good (fun _ => True) → Holds s0 u c gid g → Lists s0 rc gid →
    Holds s.st u c gid g ∧ Lists s.st rc gid

theorem makeInv_step {u c : String} {ru rc : Nat} {s0 : Store} (hgood : (SKey.cli u c).Good (fun _ => True)) {s : MakeWorld}
    (h : MakeInv u c ru rc s0 s) (op : MakeOp) (hnamed : ∀ m ∈ s.threads, Named m)
    (hnd : (s.threads.map (fun m => m.grant.id)).Nodup)
    (hfresh : ∀ m ∈ s.threads, s0.db.has (key3 m.user m.client m.grant.id) = false) : MakeInv u c ru rc s0 (makeStep s op) := by
  cases op with
  | login u' c' g =>
    refine ⟨h.linked, fun m hm => ?_, h.kept⟩
    rcases List.mem_append.1 hm with hm | hm
    · exact h.good m hm
    · simp at hm
      subst hm
      exact ⟨fun _ => trivial, fun _ _ => trivial⟩
  | go i =>
    cases hi : s.threads[i]? with
    | none => simp only [makeStep, hi]; exact h
    | some m =>
      simp only [makeStep, hi]
      have hmem := List.mem_of_getElem? hi
      have hn := hnamed m hmem
      have hle := makeGo_le s.st m
      refine ⟨linked_step h.linked (h.good m hmem).mild (h.good m hmem).stays hn hgood, fun m' hm' => ?_, fun gid g hgg h0 h1 => ?_⟩
      · obtain ⟨j, hj⟩ := List.getElem?_of_mem hm'
        by_cases hij : i = j
        · subst hij
          rw [List.getElem?_set_self (List.getElem?_eq_some_iff.1 hi).1] at hj
          cases hj
          exact good1_self h.linked (h.good m hmem) hn
        · rw [List.getElem?_set_ne hij] at hj
          have hmem' := List.mem_of_getElem? hj
          have hn' := hnamed m' hmem'
          refine good1_other (h.good m' hmem') hle (fun hu hc => ?_)
          subst hu hc
          refine makeGo_db s.st m _ (fun _ e => ?_) (fun _ e => ?_) (fun _ e => ?_)
          · cases skey_str_inj (k := .gra _ _ _) (k' := .usr _) hn' (named_usr hn) e
          · cases skey_str_inj (k := .gra _ _ _) (k' := .cli _ _) hn' (named_cli hn) e
          · have he := skey_str_inj (k := .gra _ _ _) (k' := .gra _ _ _) hn' hn e
            simp only [SKey.gra.injEq] at he
            refine hij ?_
            have l1 := (List.getElem?_eq_some_iff.1 hi).1
            have hid : (s.threads.map (fun m => m.grant.id))[i]? = (s.threads.map (fun m => m.grant.id))[j]? := by
              rw [List.getElem?_map, List.getElem?_map, hi, hj]
              simp [he.2.2]
            exact (List.getElem?_inj (by simpa using l1) hnd).1 hid
      · obtain ⟨k1, k2⟩ := h.kept gid g hgg h0 h1
        refine ⟨k1.mono hle ?_, k2.mono hle⟩
        refine makeGo_db s.st m _ (fun _ e => ?_) (fun _ e => ?_) (fun _ e => ?_)
        · cases skey_str_inj (k := .gra u c gid) (k' := .usr _) hgg (named_usr hn) e
        · cases skey_str_inj (k := .gra u c gid) (k' := .cli _ _) hgg (named_cli hn) e
        · have hf := hfresh m hmem
          obtain ⟨r, e1, -⟩ := h0
          rw [← e] at hf
          unfold Dict.has at hf
          rw [e1] at hf
          cases hf

theorem makeStep_what (s : MakeWorld) (op : MakeOp) : (makeStep s op).threads.map Maker.what = s.threads.map Maker.what ++ loginsIn [op] := by
  cases op with
  | login u c g => simp [makeStep, loginsIn, Maker.what]
  | go i =>
    simp only [makeStep]
    cases hi : s.threads[i]? with
    | none => simp [loginsIn]
    | some m =>
      simp only [loginsIn, List.filterMap_cons, List.filterMap_nil, List.append_nil]
      apply List.ext_getElem?
      intro j
      simp only [List.getElem?_map, List.getElem?_set]
      by_cases hij : i = j
      · subst hij
        simp [(List.getElem?_eq_some_iff.1 hi).1, Maker.what]
        rw [(List.getElem?_eq_some_iff.1 hi).2]
        simp
      · simp [hij]

theorem loginsIn_cons (op : MakeOp) (ops : List MakeOp) : loginsIn (op :: ops) = loginsIn [op] ++ loginsIn ops := by
  unfold loginsIn
  rw [← List.filterMap_append]; rfl

theorem makeInv_run {u c : String} {ru rc : Nat} {s0 : Store} (hgood : (SKey.cli u c).Good (fun _ => True)) (ops : List MakeOp) :
    ∀ s : MakeWorld, MakeInv u c ru rc s0 s →
      (∀ x ∈ s.threads.map Maker.what ++ loginsIn ops, (SKey.gra x.1 x.2.1 x.2.2.id).Good (fun _ => True) ∧
        s0.db.has (key3 x.1 x.2.1 x.2.2.id) = false) →
      ((s.threads.map Maker.what ++ loginsIn ops).map (fun x => x.2.2.id)).Nodup → MakeInv u c ru rc s0 (makeRun s ops) := by
  induction ops with
  | nil => exact fun s h _ _ => h
  | cons op ops ih =>
    intro s h h1 h2
    have hw : (makeStep s op).threads.map Maker.what ++ loginsIn ops = s.threads.map Maker.what ++ loginsIn (op :: ops) := by
      rw [makeStep_what, List.append_assoc, ← loginsIn_cons]
    refine ih _ (makeInv_step hgood h op (fun m hm => (h1 m.what ?_).1) ?_ (fun m hm => (h1 m.what ?_).2)) ?_ ?_
    · exact List.mem_append_left _ (List.mem_map_of_mem hm)
    · rw [List.map_append, List.nodup_append] at h2
      simpa [Maker.what, Function.comp_def] using h2.1
    · exact List.mem_append_left _ (List.mem_map_of_mem hm)
    · rw [hw]; exact h1
    · rw [hw]; exact h2

theorem holds_found {u c gid : String} {ru rc : Nat} {s : Store} {g : Grant} (hl : Linked u c ru rc s) (h1 : Holds s u c gid g)
    (h2 : Lists s rc gid) : found s (.gra u c gid) = some (.grant g) := by
  obtain ⟨iu, hlu, hcu⟩ := hl.lookupUser
  obtain ⟨i, hi, hx⟩ := h2
  obtain ⟨r, hr, hg⟩ := h1
  have hlc := (lookup_eq _ _ _ _).2 ⟨hl.client, hi⟩
  have hlg := (lookup_eq _ _ _ _).2 ⟨hr, hg⟩
  simp [found, SKey.path, dbGet, hlu, subordinateOf, hcu, hlc, hx, hlg, Store.obj, hg]

theorem found_holds {u c gid : String} {s : Store} {g : Grant} (h : found s (.gra u c gid) = some (.grant g)) :
    ∃ ru rc, Linked u c ru rc s ∧ Holds s u c gid g ∧ Lists s rc gid := by
  unfold found SKey.path dbGet at h
  simp only [] at h
  cases hu : s.lookup u with
  | none => rw [hu] at h; cases h
  | some p =>
    obtain ⟨ru, ou⟩ := p
    rw [hu] at h
    cases ou with
    | grant g => cases h
    | info iu =>
      simp only [subordinateOf] at h
      by_cases hc : c ∈ iu.subordinate
      · simp only [hc, not_true, if_false] at h
        cases hq : s.lookup (key2 u c) with
        | none => rw [hq] at h; cases h
        | some p =>
          obtain ⟨rc, oc⟩ := p
          rw [hq] at h
          cases oc with
          | grant g => cases h
          | info ic =>
            simp only [] at h
            by_cases hg : gid ∈ ic.subordinate
            · simp only [hg, not_true, if_false] at h
              cases hr : s.lookup (key3 u c gid) with
              | none => rw [hr] at h; cases h
              | some p =>
                obtain ⟨r, o⟩ := p
                rw [hr] at h
                have a := (lookup_eq _ _ _ _).1 hu
                have b := (lookup_eq _ _ _ _).1 hq
                have d := (lookup_eq _ _ _ _).1 hr
                exact ⟨ru, rc, ⟨a.1, b.1, ⟨iu, a.2, hc⟩, ic, b.2⟩, ⟨r, d.1, h⟩, ⟨ic, b.2, hg⟩⟩
            · simp only [hg, not_false_iff, if_true] at h
              cases h
      · simp only [hc, not_false_iff, if_true] at h
        cases h

theorem found_linked {u c : String} {s : Store} {i : SInfo} (h : found s (.cli u c) = some (.info i)) :
    ∃ ru rc, Linked u c ru rc s := by
  unfold found SKey.path dbGet at h
  simp only [] at h
  cases hu : s.lookup u with
  | none => rw [hu] at h; cases h
  | some p =>
    obtain ⟨ru, ou⟩ := p
    rw [hu] at h
    cases ou with
    | grant g => cases h
    | info iu =>
      simp only [subordinateOf] at h
      by_cases hc : c ∈ iu.subordinate
      · simp only [hc, not_true, if_false] at h
        cases hq : s.lookup (key2 u c) with
        | none => rw [hq] at h; cases h
        | some p =>
          obtain ⟨rc, oc⟩ := p
          rw [hq] at h
          have a := (lookup_eq _ _ _ _).1 hu
          have b := (lookup_eq _ _ _ _).1 hq
          exact ⟨ru, rc, a.1, b.1, ⟨iu, a.2, hc⟩, i, h⟩
      · simp only [hc, not_false_iff, if_true] at h
        cases h

/-- The invariant for a history that starts with the two records linked. -/
theorem makeInv_all {u c : String} {ru rc : Nat} {s : Store} (hgood : (SKey.cli u c).Good (fun _ => True)) (hl : Linked u c ru rc s)
    (ops : List MakeOp) (hn : OwnNames s ops) : MakeInv u c ru rc s (makeRun { st := s } ops) := by
  refine makeInv_run hgood ops _ ⟨hl, fun _ h => (by cases h), fun _ _ _ h0 h1 => ⟨h0, h1⟩⟩ (fun x hx => ?_) ?_
  · have hx' : x ∈ loginsIn ops := by simpa using hx
    exact ⟨hn.clean _ _ _ hx', hn.fresh _ _ _ hx'⟩
  · simpa using hn.distinct

/-! ### C128 -/

/-- C128, what is true of it: when the user has been logged in at the client before, every session that is created for them there can
be read, whatever else is done at the same time, for them or for others, and however the threads take turns. -/
theorem C128_there_partial (u c : String) (s : Store) (ops : List MakeOp) (hgood : (SKey.cli u c).Good (fun _ => True))
    (hbefore : ∃ i, found s (.cli u c) = some (.info i)) (hn : OwnNames s ops) (g : Grant)
    (hmade : Made (makeRun { st := s } ops) u c g) : found (makeRun { st := s } ops).st (.gra u c g.id) = some (.grant g) := by
  obtain ⟨i, hi⟩ := hbefore
  obtain ⟨ru, rc, hl⟩ := found_linked hi
  have h := makeInv_all hgood hl ops hn
  obtain ⟨m, hm, rfl, rfl, rfl, hd⟩ := hmade
  have hc := (h.good m hm).came rfl rfl
  unfold Came at hc
  rw [hd] at hc
  exact holds_found h.linked hc.1 hc.2

/-- C128, what is true of it: in the same case none of the logins fails. -/
theorem C128_no_failure_partial (u c : String) (s : Store) (ops : List MakeOp) (hgood : (SKey.cli u c).Good (fun _ => True))
    (hbefore : ∃ i, found s (.cli u c) = some (.info i)) (hn : OwnNames s ops) (m : Maker)
    (hm : m ∈ (makeRun { st := s } ops).threads) (hu : m.user = u) (hc : m.client = c) : m.pc ≠ .failed := by
  obtain ⟨i, hi⟩ := hbefore
  obtain ⟨ru, rc, hl⟩ := found_linked hi
  have h := ((makeInv_all hgood hl ops hn).good m hm).came hu hc
  intro hd
  unfold Came at h
  rw [hd] at h
  exact h

/-- C128, what is true of it: a session that can be read is not lost through logins that are served at the same time. -/
theorem C128_kept_partial (u c gid : String) (s : Store) (ops : List MakeOp) (hgood : (SKey.gra u c gid).Good (fun _ => True))
    (hn : OwnNames s ops) (g : Grant) (hthere : found s (.gra u c gid) = some (.grant g)) :
    found (makeRun { st := s } ops).st (.gra u c gid) = some (.grant g) := by
  obtain ⟨ru, rc, hl, h1, h2⟩ := found_holds hthere
  have h := makeInv_all (u := u) (c := c) ⟨hgood.1, hgood.2.1, hgood.2.2.1⟩ hl ops hn
  obtain ⟨k1, k2⟩ := h.kept gid g hgood h1 h2
  exact holds_found h.linked k1 k2

namespace Ex

/-- A grant with this id. -/
def grantOf (id : String) : Grant := { id := id }

/-- A user logs in for the first time, at two clients at the same time: both threads find no record of the user; the first runs to its
end before the second goes on. -/
def firstTwice : List MakeOp :=
  [.login "diana" "c1" (grantOf "g1"), .login "diana" "c2" (grantOf "g2"), .go 0, .go 1] ++ List.replicate 14 (.go 0) ++ List.replicate 14 (.go 1)

/-- A user who is known at another client logs in twice at a client that is new for them. -/
def newClientTwice : List MakeOp :=
  [.login "diana" "c1" (grantOf "g1"), .login "diana" "c1" (grantOf "g2"), .go 0, .go 1, .go 0, .go 1] ++
    List.replicate 14 (.go 0) ++ List.replicate 14 (.go 1)

/-- The database in which the user has a session at this client. -/
def knownAt (c : String) : Store := (createSession "diana" c (grantOf "g0") {}).2

end Ex

instance (s : MakeWorld) (u c : String) (g : Grant) : Decidable (Made s u c g) := by unfold Made; infer_instance

/-- C128 is not true of the first logins of a user: two that are served at the same time can both come to their end, and one of the
sessions cannot be read. -/
theorem C128_first_login_refuted : ∃ (ops : List MakeOp) (u c : String) (g : Grant), OwnNames {} ops ∧
    (∀ m ∈ (makeRun {} ops).threads, m.pc = .done) ∧ Made (makeRun {} ops) u c g ∧ found (makeRun {} ops).st (.gra u c g.id) = none :=
  ⟨Ex.firstTwice, "diana", "c1", Ex.grantOf "g1",
    ⟨fun u c g h => by
      simp [Ex.firstTwice, loginsIn] at h
      rcases h with ⟨rfl, rfl, rfl⟩ | ⟨rfl, rfl, rfl⟩ <;> exact ⟨trivial, by decide, by decide, by decide⟩,
      by decide +kernel, fun _ _ _ _ => rfl⟩,
    by decide +kernel, by decide +kernel, by decide +kernel⟩

/-- Nor is it of the first logins of a known user at a client. -/
theorem C128_new_client_refuted : ∃ (s : Store) (ops : List MakeOp) (u c : String) (g : Grant), OwnNames s ops ∧
    (∃ i, found s (.usr u) = some (.info i)) ∧ (∀ m ∈ (makeRun { st := s } ops).threads, m.pc = .done) ∧
    Made (makeRun { st := s } ops) u c g ∧ found (makeRun { st := s } ops).st (.gra u c g.id) = none :=
  ⟨Ex.knownAt "c0", Ex.newClientTwice, "diana", "c1", Ex.grantOf "g1",
    ⟨fun u c g h => by
      simp [Ex.newClientTwice, loginsIn] at h
      rcases h with ⟨rfl, rfl, rfl⟩ | ⟨rfl, rfl, rfl⟩ <;> exact ⟨trivial, by decide, by decide, by decide⟩,
      by decide +kernel, fun u c g h => by
      simp [Ex.newClientTwice, loginsIn] at h
      rcases h with ⟨rfl, rfl, rfl⟩ | ⟨rfl, rfl, rfl⟩ <;> decide +kernel⟩,
    ⟨_, (by decide +kernel : found (Ex.knownAt "c0") (.usr "diana") = some (.info { isUser := true, ident := "diana", subordinate := ["c0"] }))⟩,
    by decide +kernel, by decide +kernel, by decide +kernel⟩

/-- The same two logins at a client where the user has been before: both sessions can be read, and so can the one from before. -/
example : OwnNames (Ex.knownAt "c1") Ex.newClientTwice ∧ (∃ i, found (Ex.knownAt "c1") (.cli "diana" "c1") = some (.info i)) ∧
    Made (makeRun { st := Ex.knownAt "c1" } Ex.newClientTwice) "diana" "c1" (Ex.grantOf "g1") ∧
    Made (makeRun { st := Ex.knownAt "c1" } Ex.newClientTwice) "diana" "c1" (Ex.grantOf "g2") ∧
    found (Ex.knownAt "c1") (.gra "diana" "c1" "g0") = some (.grant (Ex.grantOf "g0")) :=
  ⟨⟨fun u c g h => by
      simp [Ex.newClientTwice, loginsIn] at h
      rcases h with ⟨rfl, rfl, rfl⟩ | ⟨rfl, rfl, rfl⟩ <;> exact ⟨trivial, by decide, by decide, by decide⟩,
      by decide +kernel, fun u c g h => by
      simp [Ex.newClientTwice, loginsIn] at h
      rcases h with ⟨rfl, rfl, rfl⟩ | ⟨rfl, rfl, rfl⟩ <;> decide +kernel⟩,
    ⟨_, (by decide +kernel : found (Ex.knownAt "c1") (.cli "diana" "c1") = some (.info { isUser := false, ident := "c1", subordinate := ["g0"] }))⟩,
    by decide +kernel, by decide +kernel, by decide +kernel⟩

/-! ### A thread that runs alone does what the model of `create_session` does in one -/

/-- From one place to another, in some number of steps. -/
def Leads (u c : String) (g : Grant) (s : Store) (a : MakeAt) (s' : Store) (a' : MakeAt) : Prop :=
  ∃ n, ∀ k, makeAlone s ⟨u, c, g, a⟩ (n + k) = makeAlone s' ⟨u, c, g, a'⟩ k

theorem Leads.trans {u c : String} {g : Grant} {s1 s2 s3 : Store} {a1 a2 a3 : MakeAt} (h : Leads u c g s1 a1 s2 a2)
    (h' : Leads u c g s2 a2 s3 a3) : Leads u c g s1 a1 s3 a3 := by
  obtain ⟨n, hn⟩ := h
  obtain ⟨n', hn'⟩ := h'
  exact ⟨n + n', fun k => by rw [Nat.add_assoc, hn, hn']⟩

theorem Leads.one {u c : String} {g : Grant} {s s' : Store} {a a' : MakeAt} (h : makeGo s ⟨u, c, g, a⟩ = (s', a'))
    (h1 : a ≠ .done) (h2 : a ≠ .failed) : Leads u c g s a s' a' := by
  refine ⟨1, fun k => ?_⟩
  rw [Nat.add_comm]
  conv => lhs; unfold makeAlone
  cases a <;> first | exact absurd rfl h1 | exact absurd rfl h2 | (simp only [h])

/-- Where a thread is after a part of the work that returned or raised. -/
def afterwards (a : MakeAt) : Except Exc α → MakeAt
  | .ok _ => a
  | .error _ => .failed

theorem obj_of_lookup {s : Store} {k : String} {r : Nat} {o : Obj} (h : s.lookup k = some (r, o)) : s.obj r = some o :=
  ((lookup_eq _ _ _ _).1 h).2

theorem leads_user (u c : String) (g : Grant) (val : Nat) (last : Bool) (s : Store) :
    Leads u c g s (.readUser last) (setUser u (some c) false val s).2 (afterwards (afterUser last) (setUser u (some c) false val s).1) := by
  unfold setUser
  simp only []
  cases hq : s.lookup u with
  | none =>
    simp only []
    refine .trans (.one (s' := (s.alloc (.info { isUser := true })).2) (a' := .addClient s.heap.length last) ?_ (by simp) (by simp)) ?_
    · simp only [makeGo, Store.getOr, hq]; rfl
    · refine .trans (.one (s' := (s.alloc (.info { isUser := true, subordinate := [c] })).2) (a' := .storeUser s.heap.length last) ?_
        (by simp) (by simp)) ?_
      · simp [makeGo, Store.addSub, Store.obj, Store.alloc, Store.put]
      · exact .one (by simp [makeGo, Store.alloc, afterwards]) (by simp) (by simp)
  | some p =>
    obtain ⟨r, o⟩ := p
    have ho := obj_of_lookup hq
    refine .trans (.one (s' := s) (a' := .addClient r last) (by simp only [makeGo, Store.getOr, hq]) (by simp) (by simp)) ?_
    cases o with
    | grant g' => exact .one (by simp [makeGo, Store.addSub, ho, afterwards]) (by simp) (by simp)
    | info i =>
      by_cases hc : c ∈ i.subordinate
      · simp only [hc, if_true]
        exact .one (by simp [makeGo, Store.addSub, ho, hc, afterwards]) (by simp) (by simp)
      · simp only [hc, if_false]
        refine .trans (.one (s' := s.put r (.info { i with subordinate := i.subordinate ++ [c] })) (a' := .storeUser r last)
          (by simp [makeGo, Store.addSub, ho, hc]) (by simp) (by simp)) ?_
        exact .one (by simp [makeGo, afterwards]) (by simp) (by simp)

theorem leads_client (u c : String) (g : Grant) (val : Nat) (s : Store) :
    Leads u c g s .readClient (setClient u c (some g.id) val s).2 (afterwards (.readUser true) (setClient u c (some g.id) val s).1) := by
  unfold setClient
  simp only []
  cases hq : s.lookup (key2 u c) with
  | none =>
    simp only []
    refine .trans (.one (s' := (s.alloc (.info { isUser := false })).2) (a' := .addGrant s.heap.length) ?_ (by simp) (by simp)) ?_
    · simp only [makeGo, Store.getOr, hq]; rfl
    · refine .trans (.one (s' := (s.alloc (.info { isUser := false, subordinate := [g.id] })).2) (a' := .storeClient s.heap.length) ?_
        (by simp) (by simp)) ?_
      · simp [makeGo, Store.addSub, Store.obj, Store.alloc, Store.put]
      · exact .one (by simp [makeGo, Store.alloc, afterwards]) (by simp) (by simp)
  | some p =>
    obtain ⟨r, o⟩ := p
    have ho := obj_of_lookup hq
    refine .trans (.one (s' := s) (a' := .addGrant r) (by simp only [makeGo, Store.getOr, hq]) (by simp) (by simp)) ?_
    cases o with
    | grant g' => exact .one (by simp [makeGo, Store.addSub, ho, afterwards]) (by simp) (by simp)
    | info i =>
      by_cases hc : g.id ∈ i.subordinate
      · simp only [hc, if_true]
        exact .one (by simp [makeGo, Store.addSub, ho, hc, afterwards]) (by simp) (by simp)
      · simp only [hc, if_false]
        refine .trans (.one (s' := s.put r (.info { i with subordinate := i.subordinate ++ [g.id] })) (a' := .storeClient r)
          (by simp [makeGo, Store.addSub, ho, hc]) (by simp) (by simp)) ?_
        exact .one (by simp [makeGo, afterwards]) (by simp) (by simp)

theorem dbSet_three (u : String) (r : Nat) (s : Store) {c g : String} (hc : c ≠ "") (hg : g ≠ "") :
    dbSet ⟨u, some c, some g⟩ r s = match setClient u c (some g) r (s.bind (key3 u c g) r) with
      | (.error e, s2) => (.error e, s2)
      | (.ok _, s2) => setUser u (some c) false r s2 := by
  unfold dbSet
  simp only [truthyId, if_neg hc, if_neg hg]
  show SE.bind' (setClient u c (some g) r) (fun _ => setUser u (some c) false r) (s.bind (key3 u c g) r) = _
  unfold SE.bind'
  rcases setClient u c (some g) r (s.bind (key3 u c g) r) with ⟨e, s2⟩
  cases e <;> rfl

theorem dbSet_two (u : String) (r : Nat) (s : Store) {c : String} (hc : c ≠ "") :
    dbSet ⟨u, some c, none⟩ r s = setUser u (some c) false r (s.bind (key2 u c) r) := by
  unfold dbSet
  simp only [truthyId, if_neg hc]
  rfl

theorem leads_grant (u c : String) (g : Grant) (s : Store) (hc : c ≠ "") (hg : g.id ≠ "") :
    Leads u c g s .setGrant (createGrant u c g s).2 (afterwards .done (createGrant u c g s).1) := by
  have h1 : Leads u c g s .setGrant ((s.alloc (.grant g)).2.bind (key3 u c g.id) s.heap.length) .readClient :=
    .one (by simp [makeGo, Store.alloc]) (by simp) (by simp)
  refine h1.trans ?_
  have h2 := leads_client u c g s.heap.length ((s.alloc (.grant g)).2.bind (key3 u c g.id) s.heap.length)
  have he : createGrant u c g s =
      match setClient u c (some g.id) s.heap.length ((s.alloc (.grant g)).2.bind (key3 u c g.id) s.heap.length) with
      | (.error e, s2) => (.error e, s2)
      | (.ok _, s2) => match setUser u (some c) false s.heap.length s2 with
        | (.ok _, s3) => (.ok s.heap.length, s3)
        | (.error e, s3) => (.error e, s3) := by
    unfold createGrant
    simp only []
    rw [dbSet_three _ _ _ hc hg]
    simp only [Store.alloc]
    rcases setClient u c (some g.id) s.heap.length (Store.bind { heap := s.heap ++ [Obj.grant g], db := s.db } (key3 u c g.id) s.heap.length) with
      ⟨e, s2⟩
    cases e with
    | error e => rfl
    | ok v => rfl
  rw [he]
  revert h2
  cases hq : setClient u c (some g.id) s.heap.length ((s.alloc (.grant g)).2.bind (key3 u c g.id) s.heap.length) with
  | mk e s2 =>
    cases e with
    | error e => exact fun h2 => h2
    | ok v =>
      simp only []
      intro h2
      refine Leads.trans h2 ?_
      have h3 := leads_user u c g s.heap.length true s2
      revert h3
      cases hq : setUser u (some c) false s.heap.length s2 with
      | mk e s3 =>
        cases e with
        | error e => exact fun h3 => h3
        | ok v => exact fun h3 => h3

theorem leads_ensureUser (u c : String) (g : Grant) (s : Store) :
    Leads u c g s .getUser (ensureUser u s).2 (afterwards .getListed (ensureUser u s).1) := by
  unfold ensureUser dbGet
  simp only []
  cases hq : s.lookup u with
  | none =>
    refine .trans (.one (s' := s) (a' := .setUser) (by simp only [makeGo, hq]) (by simp) (by simp)) ?_
    exact .one rfl (by simp) (by simp)
  | some p => exact .one (by simp only [makeGo, hq, afterwards]) (by simp) (by simp)

theorem leads_newClient (u c : String) (g : Grant) (s : Store) (hc : c ≠ "") :
    Leads u c g s .setClient (dbSet ⟨u, some c, none⟩ s.heap.length (s.alloc (.info { isUser := false, ident := c })).2).2
      (afterwards .setGrant (dbSet ⟨u, some c, none⟩ s.heap.length (s.alloc (.info { isUser := false, ident := c })).2).1) := by
  rw [dbSet_two _ _ _ hc]
  exact .trans (.one (by simp only [makeGo, Store.alloc]) (by simp) (by simp)) (leads_user u c g s.heap.length false _)

theorem leads_ensureClient (u c : String) (g : Grant) (s : Store) (hc : c ≠ "") :
    Leads u c g s .getListed (ensureClient u c s).2 (afterwards .setGrant (ensureClient u c s).1) := by
  unfold ensureClient dbGet
  simp only []
  cases hq : s.lookup u with
  | none => exact .one (by simp [makeGo, hq, afterwards]) (by simp) (by simp)
  | some p =>
    obtain ⟨r, o⟩ := p
    cases o with
    | grant g' => exact .one (by simp [makeGo, hq, afterwards, subordinateOf]) (by simp) (by simp)
    | info i =>
      simp only [subordinateOf]
      by_cases hm : c ∈ i.subordinate
      · simp only [hm, not_true, if_false]
        refine .trans (.one (s' := s) (a' := .getClient) (by simp [makeGo, hq, hm]) (by simp) (by simp)) ?_
        cases hk : s.lookup (key2 u c) with
        | none =>
          refine .trans (.one (s' := s) (a' := .setClient) (by simp only [makeGo, hk]) (by simp) (by simp)) ?_
          exact leads_newClient u c g s hc
        | some p => exact .one (by simp only [makeGo, hk, afterwards]) (by simp) (by simp)
      · simp only [hm, not_false_iff, if_true]
        refine .trans (.one (s' := s) (a' := .setClient) (by simp [makeGo, hq, hm]) (by simp) (by simp)) ?_
        exact leads_newClient u c g s hc

/-- C128: the steps of a thread, one after the other, are what the model of `create_session` has as one: the same database, and the
thread has come to its end if and only if `create_session` returns. -/
theorem C128_alone (u c : String) (g : Grant) (s : Store) (hc : c ≠ "") (hg : g.id ≠ "") :
    ∃ n, (makeAlone s { user := u, client := c, grant := g } n).1 = (createSession u c g s).2 ∧
      (makeAlone s { user := u, client := c, grant := g } n).2 =
        (match (createSession u c g s).1 with
          | .ok _ => .done
          | .error _ => .failed) := by
  suffices h : Leads u c g s .getUser (createSession u c g s).2 (afterwards .done (createSession u c g s).1) by
    obtain ⟨n, hn⟩ := h
    have := hn 0
    rw [Nat.add_zero] at this
    refine ⟨n, by rw [this]; rfl, ?_⟩
    rw [this]
    show afterwards .done _ = _
    cases (createSession u c g s).1 <;> rfl
  have he : createSession u c g s = match ensureUser u s with
      | (.error e, s1) => (.error e, s1)
      | (.ok _, s1) => match ensureClient u c s1 with
        | (.error e, s2) => (.error e, s2)
        | (.ok _, s2) => createGrant u c g s2 := by
    unfold createSession
    show SE.bind' _ _ s = _
    unfold SE.bind'
    rcases ensureUser u s with ⟨e, s1⟩
    cases e with
    | error e => rfl
    | ok v =>
      show SE.bind' (ensureClient u c) (fun _ => createGrant u c g) s1 = match ensureClient u c s1 with
        | (.error e, s2) => (.error e, s2)
        | (.ok _, s2) => createGrant u c g s2
      unfold SE.bind'
      rcases ensureClient u c s1 with ⟨e, s2⟩
      cases e <;> rfl
  rw [he]
  have h1 := leads_ensureUser u c g s
  revert h1
  rcases ensureUser u s with ⟨e, s1⟩
  intro h1
  cases e with
  | error e => exact h1
  | ok v =>
    refine Leads.trans h1 ?_
    have h2 := leads_ensureClient u c g s1 hc
    revert h2
    simp only []
    rcases ensureClient u c s1 with ⟨e, s2⟩
    intro h2
    cases e with
    | error e => exact h2
    | ok v => exact Leads.trans h2 (leads_grant u c g s2 hc hg)

end OidcOp
