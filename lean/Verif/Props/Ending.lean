/-
C129: a logout while logins are served.
-/
import Verif.Spec.Ending
import Verif.Props.Making

namespace OidcOp
open Spec

/-! ### What a step does to the database -/

/-- Objects stay what they are, but for revocations, which stay, and lists only grow at their end. -/
def HeapGrows (h h' : List Obj) : Prop := ∀ r : Nat,
  (∀ g, h[r]? = some (.grant g) → ∃ g', h'[r]? = some (.grant g') ∧ (g.revoked = true → g'.revoked = true)) ∧
  (∀ i, h[r]? = some (.info i) → ∃ i', h'[r]? = some (.info i') ∧ i.subordinate <+: i'.subordinate)

theorem HeapLe.grows {h h' : List Obj} (hle : HeapLe h h') : HeapGrows h h' := fun r =>
  ⟨fun g hg => ⟨g, (hle r).1 g hg, fun e => e⟩, (hle r).2⟩

theorem HeapGrows.refl (h : List Obj) : HeapGrows h h := (HeapLe.refl h).grows

theorem mutate_grows (s : Store) (r : Nat) : HeapGrows s.heap (s.mutate r Obj.revoke).heap := by
  unfold Store.mutate Store.obj
  cases hr : s.heap[r]? with
  | none => exact HeapGrows.refl _
  | some o =>
    have hlt := (List.getElem?_eq_some_iff.1 hr).1
    intro r'
    by_cases he : r = r'
    · subst he
      refine ⟨fun g hg => ?_, fun i hi => ?_⟩
      · rw [hr] at hg
        cases hg
        exact ⟨g.revoke, by simp [Store.put, hlt, Obj.revoke], fun _ => rfl⟩
      · rw [hr] at hi
        cases hi
        exact ⟨{ i with revoked := true }, by simp [Store.put, hlt, Obj.revoke], List.prefix_refl _⟩
    · simp only [Store.put]
      rw [List.getElem?_set_ne he]
      exact ⟨fun g hg => ⟨g, hg, fun e => e⟩, fun i hi => ⟨i, hi, List.prefix_refl _⟩⟩

theorem mutate_db (s : Store) (r : Nat) (f : Obj → Obj) : (s.mutate r f).db = s.db := by
  unfold Store.mutate
  cases s.obj r <;> rfl

theorem endGo_grows (s : Store) (e : Ender) : HeapGrows s.heap (endGo s e).1.heap := by
  unfold endGo
  cases e.pc with
  | mark r => exact mutate_grows s r
  | revoke r i q => exact mutate_grows s q
  | readUser r => exact (getOr_le _ _ _).1.grows
  | addClient r q =>
    simp only []
    split
    · exact HeapGrows.refl _
    · rename_i h; exact (addSub_le h).1.grows
    · rename_i h; exact (addSub_le h).1.grows
  | storeClient r => exact HeapGrows.refl _
  | storeUser r q => exact HeapGrows.refl _
  | done => exact HeapGrows.refl _
  | failed => exact HeapGrows.refl _
  | _ =>
    simp only []
    repeat' split
    all_goals exact HeapGrows.refl _

/-- A step of a logout writes at most one key. -/
theorem endGo_db (s : Store) (e : Ender) (k : String) (h1 : (∃ r q, e.pc = .storeUser r q) → k ≠ e.user)
    (h2 : (∃ r, e.pc = .storeClient r) → k ≠ key2 e.user e.client) : (endGo s e).1.db.get? k = s.db.get? k := by
  unfold endGo
  cases hpc : e.pc with
  | mark r => simp only []; rw [mutate_db]
  | revoke r i q => simp only []; rw [mutate_db]
  | readUser r => simp only []; rw [(getOr_le _ _ _).2]
  | addClient r q =>
    simp only []
    split
    · rfl
    · rename_i h; simp only []; rw [(addSub_le h).2.1]
    · rename_i h; simp only []; rw [(addSub_le h).2.1]
  | storeClient r => exact Dict.get?_set_ne _ _ (h2 ⟨r, hpc⟩).symm
  | storeUser r q => exact Dict.get?_set_ne _ _ (h1 ⟨r, q, hpc⟩).symm
  | done => rfl
  | failed => rfl
  | _ =>
    simp only []
    repeat' split
    all_goals rfl

/-! ### The invariant -/

theorem Lists.grows {s s' : Store} {r : Nat} {x : String} (h : Lists s r x) (hle : HeapGrows s.heap s'.heap) : Lists s' r x := by
  obtain ⟨i, h1, h2⟩ := h
  obtain ⟨i', h3, h4⟩ := (hle r).2 i h1
  exact ⟨i', h3, h4.subset h2⟩

/-- A grant is stored under this key; if the flag says so it is a revoked one. -/
def Stored (s : Store) (k : String) (rev : Bool) : Prop :=
  ∃ r g, s.db.get? k = some r ∧ s.heap[r]? = some (.grant g) ∧ (rev = true → g.revoked = true)

theorem Stored.grows {s s' : Store} {k : String} {rev : Bool} (h : Stored s k rev) (hle : HeapGrows s.heap s'.heap)
    (hdb : s'.db.get? k = s.db.get? k) : Stored s' k rev := by
  obtain ⟨r, g, h1, h2, h3⟩ := h
  obtain ⟨g', h4, h5⟩ := (hle r).1 g h2
  exact ⟨r, g', by rw [hdb]; exact h1, h4, fun e => h5 (h3 e)⟩

/-- The thread has not stored its grant. -/
def MakeAt.early : MakeAt → Bool
  | .getUser | .setUser | .getListed | .getClient | .setClient | .setGrant => true
  | .readUser l => !l
  | .addClient _ l => !l
  | .storeUser _ l => !l
  | _ => false

theorem early_before (s : Store) (m : Maker) (h : (makeGo s m).2.early = true) : m.pc.early = true ∧ m.pc ≠ .setGrant := by
  revert h
  unfold makeGo
  cases hpc : m.pc with
  | addGrant r =>
    simp only []
    rcases hs : s.addSub r m.grant.id with _ | ⟨b, s'⟩
    · simp [MakeAt.early]
    · cases b <;> simp [MakeAt.early]
  | addClient r l =>
    simp only []
    rcases hs : s.addSub r m.client with _ | ⟨b, s'⟩
    · simp [MakeAt.early]
    · cases b <;> cases l <;> simp [MakeAt.early, afterUser]
  | storeUser r l => cases l <;> simp [MakeAt.early, afterUser]
  | readUser l => cases l <;> simp [MakeAt.early]
  | _ => simp [MakeAt.early]

/-- A login for this user and client works with the records that are there. -/
def MakeKeeps (rc : Nat) (m : Maker) : Prop :=
  match m.pc with
  | .setClient => False
  | .addGrant r => r = rc
  | .storeClient r => r = rc
  | _ => True

/-- A login is where it does no harm. -/
structure Good2 (u c : String) (ru rc : Nat) (s : Store) (m : Maker) : Prop where
  mild : m.user = u → Mild ru m
  keeps : m.user = u → m.client = c → MakeKeeps rc m
  early : m.pc.early = true → s.db.get? (key3 m.user m.client m.grant.id) = none

theorem keeps_self {u c : String} {ru rc : Nat} {s : Store} (hl : Linked u c ru rc s) {m : Maker} (hu : m.user = u) (hc : m.client = c)
    (hm : MakeKeeps rc m) : MakeKeeps rc { m with pc := (makeGo s m).2 } := by
  obtain ⟨iu, hlu, hcu⟩ := hl.lookupUser
  obtain ⟨ic, hlc⟩ := hl.lookupClient
  unfold MakeKeeps at hm ⊢
  unfold makeGo
  cases hpc : m.pc with
  | getUser => simp only [hu, hlu]
  | setUser => trivial
  | getListed => simp only [hu, hlu, hc, hcu, if_true]
  | getClient => simp only [hu, hc, hlc]
  | setClient => rw [hpc] at hm; exact hm.elim
  | setGrant => trivial
  | readClient =>
    obtain ⟨h1, h2⟩ := (lookup_eq _ _ _ _).1 hlc
    simp only [hu, hc, getOr_found h1 h2]
  | addGrant r =>
    rw [hpc] at hm
    simp only []
    rcases hs : s.addSub r m.grant.id with _ | ⟨b, s'⟩
    · trivial
    · cases b
      · trivial
      · exact hm
  | storeClient r => trivial
  | readUser last => trivial
  | addClient r last =>
    simp only []
    rcases hs : s.addSub r m.client with _ | ⟨b, s'⟩
    · trivial
    · cases b
      · cases last <;> trivial
      · trivial
  | storeUser r last => cases last <;> trivial
  | done => trivial
  | failed => trivial

theorem Good2.stays {u c : String} {ru rc : Nat} {s : Store} {m : Maker} (h : Good2 u c ru rc s m) (hu : m.user = u) (hc : m.client = c) :
    m.pc ≠ .setClient ∧ ∀ r, m.pc = .storeClient r → r = rc := by
  have hm := h.keeps hu hc
  unfold MakeKeeps at hm
  refine ⟨fun e => ?_, fun r e => ?_⟩
  · rw [e] at hm; exact hm
  · rw [e] at hm; exact hm

/-- The references that a logout holds are those of the records that are there: for a logout of the user, and of the user at the client. -/
def EndMild (ru : Nat) (e : Ender) : Prop :=
  match e.pc with
  | .addClient _ q => q = ru
  | .storeUser _ q => q = ru
  | _ => True

def EndKeeps (rc : Nat) (e : Ender) : Prop :=
  match e.pc with
  | .mark r => r = rc
  | .storeClient r => r = rc
  | .readUser r => r = rc
  | .addClient r _ => r = rc
  | .storeUser r _ => r = rc
  | .next r _ => r = rc
  | .findUser r _ _ => r = rc
  | .findClient r _ _ => r = rc
  | .findGrant r _ _ => r = rc
  | .revoke r _ _ => r = rc
  | _ => True

structure GoodEnd (u c : String) (ru rc : Nat) (e : Ender) : Prop where
  mild : e.user = u → EndMild ru e
  keeps : e.user = u → e.client = c → EndKeeps rc e

theorem goodEnd_self {u c : String} {ru rc : Nat} {s : Store} (hl : Linked u c ru rc s) {e : Ender} (h : GoodEnd u c ru rc e) :
    GoodEnd u c ru rc { e with pc := (endGo s e).2 } := by
  obtain ⟨iu, hlu, hcu⟩ := hl.lookupUser
  obtain ⟨ic, hlc⟩ := hl.lookupClient
  constructor
  · intro hu
    have hu' : e.user = u := hu
    have hm := h.mild hu
    unfold EndMild at hm ⊢
    unfold endGo
    cases hpc : e.pc with
    | readUser r =>
      obtain ⟨h1, h2⟩ := (lookup_eq _ _ _ _).1 hlu
      simp only [hu', getOr_found h1 h2]
    | addClient r q =>
      rw [hpc] at hm
      simp only []
      rcases hs : s.addSub q e.client with _ | ⟨b, s'⟩
      · trivial
      · cases b
        · trivial
        · exact hm
    | mark r => trivial
    | storeClient r => trivial
    | storeUser r q => trivial
    | revoke r i q => trivial
    | done => trivial
    | failed => trivial
    | getListed => simp only [hu', hlu]; by_cases hx : e.client ∈ iu.subordinate <;> simp [hx]
    | getClient => rcases hq : s.lookup (key2 e.user e.client) with _ | ⟨r, _ | _⟩ <;> simp
    | next r i =>
      rcases hq : s.obj r with _ | (ci | _)
      · simp [hq]
      · cases hx : ci.subordinate[i]? <;> simp [hq, hx]
      · simp [hq]
    | findUser r i x => simp only [hu', hlu]; by_cases hx : e.client ∈ iu.subordinate <;> simp [hx]
    | findClient r i x =>
      rcases hq : s.lookup (key2 e.user e.client) with _ | ⟨r, (ci | _)⟩
      · simp
      · by_cases hx : x ∈ ci.subordinate <;> simp [hx]
      · simp
    | findGrant r i x => cases hq : s.lookup (key3 e.user e.client x) <;> simp [hq]
  · intro hu hc
    have hu' : e.user = u := hu
    have hc' : e.client = c := hc
    have hm := h.keeps hu hc
    unfold EndKeeps at hm ⊢
    unfold endGo
    cases hpc : e.pc with
    | getListed => simp only [hu', hlu, hc', hcu, if_true]
    | getClient => simp only [hu', hc', hlc]
    | mark r => rw [hpc] at hm; exact hm
    | storeClient r => rw [hpc] at hm; exact hm
    | readUser r => rw [hpc] at hm; exact hm
    | addClient r q =>
      rw [hpc] at hm
      simp only []
      rcases hs : s.addSub q e.client with _ | ⟨b, s'⟩
      · trivial
      · cases b
        · exact hm
        · exact hm
    | storeUser r q => rw [hpc] at hm; exact hm
    | next r i =>
      rw [hpc] at hm
      simp only [] at hm
      subst hm
      obtain ⟨h1, h2⟩ := (lookup_eq _ _ _ _).1 hlc
      simp only [Store.obj, h2]
      cases ic.subordinate[i]? <;> simp
    | findUser r i x => rw [hpc] at hm; simp only [hu', hlu, hc', hcu, if_true]; exact hm
    | findClient r i x =>
      rw [hpc] at hm
      simp only [hu', hc', hlc]
      by_cases hx : x ∈ ic.subordinate
      · simp only [hx, if_true]; exact hm
      · simp only [hx, if_false]
    | findGrant r i x =>
      rw [hpc] at hm
      simp only []
      cases s.lookup (key3 e.user e.client x) with
      | none => trivial
      | some p => exact hm
    | revoke r i q => rw [hpc] at hm; exact hm
    | done => trivial
    | failed => trivial

theorem linked_end {u c : String} {ru rc : Nat} {s : Store} (hl : Linked u c ru rc s) {e : Ender} (h : GoodEnd u c ru rc e)
    (hn : (SKey.cli e.user e.client).Good (fun _ => True)) (hgood : (SKey.cli u c).Good (fun _ => True)) :
    Linked u c ru rc (endGo s e).1 := by
  have hle := endGo_grows s e
  have hgu : (SKey.usr u).Good (fun _ => True) := ⟨hgood.1, hgood.2.1⟩
  have hnu : (SKey.usr e.user).Good (fun _ => True) := ⟨hn.1, hn.2.1⟩
  have n12 : u ≠ key2 e.user e.client := fun x => by cases skey_str_inj (k := .usr u) (k' := .cli _ _) hgu hn x
  have n21 : key2 u c ≠ e.user := fun x => by cases skey_str_inj (k := .cli u c) (k' := .usr _) hgood hnu x
  refine ⟨?_, ?_, hl.lists.grows hle, ?_⟩
  · by_cases hst : ∃ r q, e.pc = .storeUser r q
    · by_cases hu : e.user = u
      · obtain ⟨r, q, hpc⟩ := hst
        have hm := h.mild hu
        unfold EndMild at hm
        rw [hpc] at hm
        have hm' : q = ru := hm
        subst hm'
        unfold endGo
        rw [hpc]
        simp [Store.bind, hu]
      · rw [endGo_db s e u (fun _ x => hu x.symm) (fun _ => n12)]
        exact hl.user
    · rw [endGo_db s e u (fun x => absurd x hst) (fun _ => n12)]
      exact hl.user
  · by_cases hst : ∃ r, e.pc = .storeClient r
    · by_cases hu : e.user = u ∧ e.client = c
      · obtain ⟨r, hpc⟩ := hst
        have hm := h.keeps hu.1 hu.2
        unfold EndKeeps at hm
        rw [hpc] at hm
        have hm' : r = rc := hm
        subst hm'
        unfold endGo
        rw [hpc]
        simp [Store.bind, hu.1, hu.2]
      · rw [endGo_db s e _ (fun _ => n21)
          (fun _ x => by cases skey_str_inj (k := .cli u c) (k' := .cli _ _) hgood hn x; exact hu ⟨rfl, rfl⟩)]
        exact hl.client
    · rw [endGo_db s e _ (fun _ => n21) (fun x => absurd x hst)]
      exact hl.client
  · obtain ⟨i, hi⟩ := hl.info
    obtain ⟨i', h1, -⟩ := (hle rc).2 i hi
    exact ⟨i', h1⟩

/-- Everything is where it does no harm. -/
structure EndsInv (u c : String) (ru rc : Nat) (s : EndWorld) : Prop where
  linked : Linked u c ru rc s.making.st
  good : ∀ m ∈ s.making.threads, Good2 u c ru rc s.making.st m
  goodEnds : ∀ e ∈ s.enders, GoodEnd u c ru rc e

theorem makes_cons (op : EndOp) (ops : List EndOp) : makesIn (op :: ops) = makesIn [op] ++ makesIn ops := by
  unfold makesIn
  rw [← List.filterMap_append]; rfl

theorem logouts_cons (op : EndOp) (ops : List EndOp) : logoutsIn (op :: ops) = logoutsIn [op] ++ logoutsIn ops := by
  unfold logoutsIn
  rw [← List.filterMap_append]; rfl

theorem loginsIn_append (a b : List MakeOp) : loginsIn (a ++ b) = loginsIn a ++ loginsIn b := by
  unfold loginsIn
  rw [List.filterMap_append]

/-- What a logout is for. -/
def Ender.what (e : Ender) : String × String := (e.user, e.client)

theorem endStep_what (s : EndWorld) (op : EndOp) :
    (endStep s op).making.threads.map Maker.what = s.making.threads.map Maker.what ++ loginsIn (makesIn [op]) ∧
    (endStep s op).enders.map Ender.what = s.enders.map Ender.what ++ logoutsIn [op] := by
  cases op with
  | make op => exact ⟨by simpa [endStep, makesIn] using makeStep_what s.making op, by simp [endStep, logoutsIn]⟩
  | logout u c => exact ⟨by simp [endStep, makesIn, loginsIn], by simp [endStep, logoutsIn, Ender.what]⟩
  | goEnd i =>
    simp only [endStep]
    cases hi : s.enders[i]? with
    | none => simp [makesIn, loginsIn, logoutsIn]
    | some e =>
      refine ⟨by simp [makesIn, loginsIn], ?_⟩
      simp only [logoutsIn, List.filterMap_cons, List.filterMap_nil, List.append_nil]
      apply List.ext_getElem?
      intro j
      simp only [List.getElem?_map, List.getElem?_set]
      by_cases hij : i = j
      · subst hij
        simp [(List.getElem?_eq_some_iff.1 hi).1, Ender.what]
        rw [(List.getElem?_eq_some_iff.1 hi).2]
        simp
      · simp [hij]

/-- The names in the threads are as the provider makes them, and the grants differ. -/
structure Proper (s : EndWorld) : Prop where
  named : ∀ m ∈ s.making.threads, Named m
  distinct : (s.making.threads.map (fun m => m.grant.id)).Nodup
  ends : ∀ e ∈ s.enders, (SKey.cli e.user e.client).Good (fun _ => True)

/-- A step of a login leaves the key of a grant alone that is not to be stored by it. -/
theorem makeGo_key3 {s : Store} {m : Maker} {u c gid : String} (hk : (SKey.gra u c gid).Good (fun _ => True)) (hn : Named m)
    (h : m.pc = .setGrant → key3 u c gid ≠ key3 m.user m.client m.grant.id) :
    (makeGo s m).1.db.get? (key3 u c gid) = s.db.get? (key3 u c gid) := by
  refine makeGo_db s m _ (fun _ e => ?_) (fun _ e => ?_) h
  · cases skey_str_inj (k := .gra u c gid) (k' := .usr _) hk (named_usr hn) e
  · cases skey_str_inj (k := .gra u c gid) (k' := .cli _ _) hk (named_cli hn) e

theorem endGo_key3 {s : Store} {e : Ender} {u c gid : String} (hk : (SKey.gra u c gid).Good (fun _ => True))
    (hn : (SKey.cli e.user e.client).Good (fun _ => True)) :
    (endGo s e).1.db.get? (key3 u c gid) = s.db.get? (key3 u c gid) := by
  refine endGo_db s e _ (fun _ x => ?_) (fun _ x => ?_)
  · cases skey_str_inj (k := .gra u c gid) (k' := .usr _) hk ⟨hn.1, hn.2.1⟩ x
  · cases skey_str_inj (k := .gra u c gid) (k' := .cli _ _) hk hn x

theorem endsInv_step {u c : String} {ru rc : Nat} (hgood : (SKey.cli u c).Good (fun _ => True)) {s : EndWorld}
    (h : EndsInv u c ru rc s) (hp : Proper s) (op : EndOp)
    (hfresh : ∀ u' c' g, op = .make (.login u' c' g) → s.making.st.db.get? (key3 u' c' g.id) = none) :
    EndsInv u c ru rc (endStep s op) := by
  cases op with
  | logout u' c' =>
    refine ⟨h.linked, h.good, fun e he => ?_⟩
    rcases List.mem_append.1 he with he | he
    · exact h.goodEnds e he
    · simp at he
      subst he
      exact ⟨fun _ => trivial, fun _ _ => trivial⟩
  | goEnd i =>
    cases hi : s.enders[i]? with
    | none => simp only [endStep, hi]; exact h
    | some e =>
      simp only [endStep, hi]
      have hmem := List.mem_of_getElem? hi
      refine ⟨linked_end h.linked (h.goodEnds e hmem) (hp.ends e hmem) hgood, fun m hm => ?_, fun e' he' => ?_⟩
      · have hg := h.good m hm
        exact ⟨hg.mild, hg.keeps, fun hx => by
          show (endGo s.making.st e).1.db.get? _ = none
          rw [endGo_key3 (hp.named m hm) (hp.ends e hmem)]; exact hg.early hx⟩
      · obtain ⟨j, hj⟩ := List.getElem?_of_mem he'
        by_cases hij : i = j
        · subst hij
          rw [List.getElem?_set_self (List.getElem?_eq_some_iff.1 hi).1] at hj
          cases hj
          exact goodEnd_self h.linked (h.goodEnds e hmem)
        · rw [List.getElem?_set_ne hij] at hj
          exact h.goodEnds e' (List.mem_of_getElem? hj)
  | make op =>
    cases op with
    | login u' c' g =>
      refine ⟨h.linked, fun m hm => ?_, h.goodEnds⟩
      rcases List.mem_append.1 hm with hm | hm
      · exact h.good m hm
      · simp at hm
        subst hm
        exact ⟨fun _ => trivial, fun _ _ => trivial, fun _ => hfresh u' c' g rfl⟩
    | go i =>
      cases hi : s.making.threads[i]? with
      | none => simp only [endStep, makeStep, hi]; exact h
      | some m =>
        simp only [endStep, makeStep, hi]
        have hmem := List.mem_of_getElem? hi
        have hn := hp.named m hmem
        have hg := h.good m hmem
        refine ⟨linked_step h.linked hg.mild hg.stays hn hgood, fun m' hm' => ?_, h.goodEnds⟩
        obtain ⟨j, hj⟩ := List.getElem?_of_mem hm'
        by_cases hij : i = j
        · subst hij
          rw [List.getElem?_set_self (List.getElem?_eq_some_iff.1 hi).1] at hj
          cases hj
          refine ⟨fun hu => mild_self h.linked hu (hg.mild hu), fun hu hc => keeps_self h.linked hu hc (hg.keeps hu hc), fun hx => ?_⟩
          obtain ⟨h1, h2⟩ := early_before _ _ hx
          show (makeGo s.making.st m).1.db.get? (key3 m.user m.client m.grant.id) = none
          rw [makeGo_key3 hn hn (fun e => absurd e h2)]
          exact hg.early h1
        · rw [List.getElem?_set_ne hij] at hj
          have hmem' := List.mem_of_getElem? hj
          have hn' := hp.named m' hmem'
          have hg' := h.good m' hmem'
          refine ⟨hg'.mild, hg'.keeps, fun hx => ?_⟩
          show (makeGo s.making.st m).1.db.get? (key3 m'.user m'.client m'.grant.id) = none
          rw [makeGo_key3 hn' hn]
          · exact hg'.early hx
          · intro _ e
            have he := skey_str_inj (k := .gra _ _ _) (k' := .gra _ _ _) hn' hn e
            simp only [SKey.gra.injEq] at he
            refine hij ?_
            have l1 := (List.getElem?_eq_some_iff.1 hi).1
            have hid : (s.making.threads.map (fun m => m.grant.id))[i]? = (s.making.threads.map (fun m => m.grant.id))[j]? := by
              rw [List.getElem?_map, List.getElem?_map, hi, hj]
              simp [he.2.2]
            exact (List.getElem?_inj (by simpa using l1) hp.distinct).1 hid

/-- What is yet to be stored is not there. -/
def Unseen (s : EndWorld) (ops : List EndOp) : Prop :=
  ∀ u c g, (u, c, g) ∈ loginsIn (makesIn ops) → s.making.st.db.get? (key3 u c g.id) = none

/-- The names in the threads and in what is to come are proper. -/
structure ProperAll (s : EndWorld) (ops : List EndOp) : Prop where
  clean : ∀ x ∈ s.making.threads.map Maker.what ++ loginsIn (makesIn ops), (SKey.gra x.1 x.2.1 x.2.2.id).Good (fun _ => True)
  distinct : ((s.making.threads.map Maker.what ++ loginsIn (makesIn ops)).map (fun x => x.2.2.id)).Nodup
  ends : ∀ x ∈ s.enders.map Ender.what ++ logoutsIn ops, (SKey.cli x.1 x.2).Good (fun _ => True)
  unseen : Unseen s ops

theorem ProperAll.now {s : EndWorld} {ops : List EndOp} (h : ProperAll s ops) : Proper s where
  named m hm := h.clean m.what (List.mem_append_left _ (List.mem_map_of_mem hm))
  distinct := by
    have := h.distinct
    rw [List.map_append, List.nodup_append] at this
    simpa [Maker.what, Function.comp_def] using this.1
  ends e he := h.ends e.what (List.mem_append_left _ (List.mem_map_of_mem he))

theorem ProperAll.step {s : EndWorld} {op : EndOp} {ops : List EndOp} (h : ProperAll s (op :: ops)) : ProperAll (endStep s op) ops := by
  obtain ⟨w1, w2⟩ := endStep_what s op
  have e1 : (endStep s op).making.threads.map Maker.what ++ loginsIn (makesIn ops) =
      s.making.threads.map Maker.what ++ loginsIn (makesIn (op :: ops)) := by
    rw [w1, List.append_assoc, ← loginsIn_append, ← makes_cons]
  have e2 : (endStep s op).enders.map Ender.what ++ logoutsIn ops = s.enders.map Ender.what ++ logoutsIn (op :: ops) := by
    rw [w2, List.append_assoc, ← logouts_cons]
  refine ⟨by rw [e1]; exact h.clean, by rw [e1]; exact h.distinct, by rw [e2]; exact h.ends, fun u c g hg => ?_⟩
  have hin : (u, c, g) ∈ loginsIn (makesIn (op :: ops)) := by
    rw [makes_cons, loginsIn_append]
    exact List.mem_append_right _ hg
  have hold := h.unseen u c g hin
  have hk : (SKey.gra u c g.id).Good (fun _ => True) := h.clean _ (List.mem_append_right _ hin)
  cases op with
  | logout u' c' => exact hold
  | goEnd i =>
    simp only [endStep]
    cases hi : s.enders[i]? with
    | none => exact hold
    | some e =>
      show (endGo s.making.st e).1.db.get? _ = none
      rw [endGo_key3 hk (h.now.ends e (List.mem_of_getElem? hi))]
      exact hold
  | make op =>
    cases op with
    | login u' c' g' => exact hold
    | go i =>
      simp only [endStep, makeStep]
      cases hi : s.making.threads[i]? with
      | none => exact hold
      | some m =>
        have hmem := List.mem_of_getElem? hi
        have hn := h.now.named m hmem
        show (makeGo s.making.st m).1.db.get? _ = none
        rw [makeGo_key3 hk hn]
        · exact hold
        · intro _ e
          have he := skey_str_inj (k := .gra _ _ _) (k' := .gra _ _ _) hk hn e
          simp only [SKey.gra.injEq] at he
          have hd := h.distinct
          rw [List.map_append, List.nodup_append] at hd
          exact hd.2.2 m.grant.id (List.mem_map.2 ⟨m.what, List.mem_map_of_mem hmem, rfl⟩) g.id (List.mem_map.2 ⟨_, hin, rfl⟩) he.2.2.symm

theorem endsInv_run {u c : String} {ru rc : Nat} (hgood : (SKey.cli u c).Good (fun _ => True)) (ops : List EndOp) :
    ∀ (s : EndWorld) (rest : List EndOp), EndsInv u c ru rc s → ProperAll s (ops ++ rest) →
      EndsInv u c ru rc (endRun s ops) ∧ ProperAll (endRun s ops) rest := by
  induction ops with
  | nil => exact fun s rest h hp => ⟨h, hp⟩
  | cons op ops ih =>
    intro s rest h hp
    refine ih _ rest (endsInv_step hgood h hp.now op (fun u' c' g e => ?_)) hp.step
    subst e
    exact hp.unseen u' c' g (by simp [makesIn, loginsIn])

/-! ### How far a logout has come -/

/-- If the session is among the first `i` of the client's list, it is revoked. -/
def UpTo (u c gid : String) (rc : Nat) (s : Store) (i : Nat) : Prop :=
  ∃ ci, s.heap[rc]? = some (.info ci) ∧ i ≤ ci.subordinate.length ∧ (gid ∈ ci.subordinate.take i → Stored s (key3 u c gid) true)

/-- `x` is in place `i` of the client's list. -/
def InPlace (rc : Nat) (s : Store) (i : Nat) (x : String) : Prop :=
  ∃ ci, s.heap[rc]? = some (.info ci) ∧ ci.subordinate[i]? = some x

/-- If the session is in place `i` of the client's list, its grant is behind `q`. -/
def PointsAt (u c gid : String) (rc : Nat) (s : Store) (i q : Nat) : Prop :=
  ∃ x, InPlace rc s i x ∧ (x = gid → s.db.get? (key3 u c gid) = some q)

/-- What a logout of the user at the client has done for the session. -/
def Prog (u c gid : String) (rc : Nat) (s : Store) (e : Ender) : Prop :=
  match e.pc with
  | .next _ i => UpTo u c gid rc s i
  | .findUser _ i x => UpTo u c gid rc s i ∧ InPlace rc s i x
  | .findClient _ i x => UpTo u c gid rc s i ∧ InPlace rc s i x
  | .findGrant _ i x => UpTo u c gid rc s i ∧ InPlace rc s i x
  | .revoke _ i q => UpTo u c gid rc s i ∧ PointsAt u c gid rc s i q
  | .done => Stored s (key3 u c gid) true
  | _ => True

theorem UpTo.grows {u c gid : String} {rc : Nat} {s s' : Store} {i : Nat} (h : UpTo u c gid rc s i) (hle : HeapGrows s.heap s'.heap)
    (hdb : s'.db.get? (key3 u c gid) = s.db.get? (key3 u c gid)) : UpTo u c gid rc s' i := by
  obtain ⟨ci, h1, h2, h3⟩ := h
  obtain ⟨ci', h4, t, ht⟩ := (hle rc).2 ci h1
  refine ⟨ci', h4, ?_, fun hx => ?_⟩
  · rw [← ht, List.length_append]; omega
  · rw [← ht, List.take_append_of_le_length h2] at hx
    exact (h3 hx).grows hle hdb

theorem InPlace.grows {rc : Nat} {s s' : Store} {i : Nat} {x : String} (h : InPlace rc s i x) (hle : HeapGrows s.heap s'.heap) :
    InPlace rc s' i x := by
  obtain ⟨ci, h1, h2⟩ := h
  obtain ⟨ci', h4, t, ht⟩ := (hle rc).2 ci h1
  refine ⟨ci', h4, ?_⟩
  rw [← ht, List.getElem?_append_left (List.getElem?_eq_some_iff.1 h2).1]
  exact h2

theorem PointsAt.grows {u c gid : String} {rc : Nat} {s s' : Store} {i q : Nat} (h : PointsAt u c gid rc s i q)
    (hle : HeapGrows s.heap s'.heap) (hdb : s'.db.get? (key3 u c gid) = s.db.get? (key3 u c gid)) : PointsAt u c gid rc s' i q := by
  obtain ⟨x, h1, h2⟩ := h
  exact ⟨x, h1.grows hle, fun hx => by rw [hdb]; exact h2 hx⟩

theorem Prog.grows {u c gid : String} {rc : Nat} {s s' : Store} {e : Ender} (h : Prog u c gid rc s e) (hle : HeapGrows s.heap s'.heap)
    (hdb : s'.db.get? (key3 u c gid) = s.db.get? (key3 u c gid)) : Prog u c gid rc s' e := by
  unfold Prog at h ⊢
  cases hpc : e.pc <;> rw [hpc] at h <;> simp only [] at h ⊢
  · exact h.grows hle hdb
  · exact ⟨h.1.grows hle hdb, h.2.grows hle⟩
  · exact ⟨h.1.grows hle hdb, h.2.grows hle⟩
  · exact ⟨h.1.grows hle hdb, h.2.grows hle⟩
  · exact ⟨h.1.grows hle hdb, h.2.grows hle hdb⟩
  · exact Stored.grows h hle hdb

theorem upTo_zero {u c gid : String} {ru rc : Nat} {s : Store} (hl : Linked u c ru rc s) : UpTo u c gid rc s 0 := by
  obtain ⟨ci, h⟩ := hl.info
  exact ⟨ci, h, Nat.zero_le _, fun hx => by simp at hx⟩

/-- Revoking what is in the next place. -/
theorem upTo_succ {u c gid : String} {rc : Nat} {s : Store} {i q : Nat} (h : UpTo u c gid rc s i) (hq : PointsAt u c gid rc s i q)
    (hs : Stored s (key3 u c gid) false) : UpTo u c gid rc (s.mutate q Obj.revoke) (i + 1) := by
  have hle := mutate_grows s q
  have hdb : (s.mutate q Obj.revoke).db.get? (key3 u c gid) = s.db.get? (key3 u c gid) := by rw [mutate_db]
  obtain ⟨ci, h1, h2, h3⟩ := h.grows hle hdb
  obtain ⟨x, ⟨ci', h1', h4⟩, h5⟩ := hq.grows hle hdb
  rw [h1] at h1'
  cases h1'
  have hlt := (List.getElem?_eq_some_iff.1 h4).1
  refine ⟨ci, h1, hlt, fun hx => ?_⟩
  rw [List.take_add_one, h4] at hx
  rcases List.mem_append.1 hx with hx | hx
  · exact h3 hx
  · have hx' : gid = x := by simpa using hx
    have hq' := h5 hx'.symm
    rw [hdb] at hq'
    obtain ⟨r, g, a1, a2, -⟩ := hs
    rw [hq'] at a1
    cases a1
    refine ⟨q, g.revoke, by rw [hdb]; exact hq', ?_, fun _ => rfl⟩
    unfold Store.mutate Store.obj
    rw [a2]
    simp [Store.put, (List.getElem?_eq_some_iff.1 a2).1, Obj.revoke]

/-- The logout makes a step. -/
theorem prog_self {u c gid : String} {ru rc : Nat} {s : Store} {e : Ender} (hl : Linked u c ru rc s)
    (hl' : Linked u c ru rc (endGo s e).1) (hk : EndKeeps rc e) (hs : Stored s (key3 u c gid) false) (hli : Lists s rc gid)
    (hu : e.user = u) (hc : e.client = c) (h : Prog u c gid rc s e) :
    Prog u c gid rc (endGo s e).1 { e with pc := (endGo s e).2 } := by
  obtain ⟨iu, hlu, hcu⟩ := hl.lookupUser
  obtain ⟨ic, hlc⟩ := hl.lookupClient
  have hic := ((lookup_eq _ _ _ _).1 hlc).2
  unfold Prog at h ⊢
  unfold EndKeeps at hk
  revert hl'
  unfold endGo
  cases hpc : e.pc with
  | getListed => simp only [hu, hlu, hc, hcu, if_true]; exact fun _ => trivial
  | getClient => simp only [hu, hc, hlc]; exact fun _ => trivial
  | mark r => exact fun _ => trivial
  | storeClient r => exact fun _ => trivial
  | readUser r => exact fun _ => trivial
  | addClient r q =>
    simp only []
    rcases hx : s.addSub q e.client with _ | ⟨b, s'⟩
    · exact fun _ => trivial
    · cases b
      · exact fun hl' => upTo_zero hl'
      · exact fun _ => trivial
  | storeUser r q => exact fun hl' => upTo_zero hl'
  | next r i =>
    intro _
    rw [hpc] at h hk
    simp only [] at h hk
    subst hk
    simp only [Store.obj, hic]
    cases hx : ic.subordinate[i]? with
    | none =>
      obtain ⟨ci, h1, h2, h3⟩ := h
      rw [hic] at h1
      cases h1
      obtain ⟨ci, h4, h5⟩ := hli
      rw [hic] at h4
      cases h4
      refine h3 ?_
      rw [List.take_of_length_le (List.getElem?_eq_none_iff.1 hx)]
      exact h5
    | some x => exact ⟨h, ic, hic, hx⟩
  | findUser r i x =>
    rw [hpc] at h
    simp only [hu, hlu, hc, hcu, if_true]
    exact fun _ => h
  | findClient r i x =>
    rw [hpc] at h
    simp only [hu, hc, hlc]
    intro _
    by_cases hx : x ∈ ic.subordinate
    · simp only [hx, if_true]; exact h
    · simp only [hx, if_false]
  | findGrant r i x =>
    rw [hpc] at h
    simp only [hu, hc]
    intro _
    cases hx : s.lookup (key3 u c x) with
    | none => trivial
    | some p =>
      obtain ⟨q, o⟩ := p
      exact ⟨h.1, x, h.2, fun e => by subst e; exact ((lookup_eq _ _ _ _).1 hx).1⟩
  | revoke r i q =>
    rw [hpc] at h
    exact fun _ => upTo_succ h.1 h.2 hs
  | done => rw [hpc] at h; exact fun _ => h
  | failed => exact fun _ => trivial

/-- The session is there, and the logout has done its work up to where it is. -/
structure EndProg (u c gid : String) (rc k : Nat) (s : EndWorld) : Prop where
  there : Stored s.making.st (key3 u c gid) false
  listed : Lists s.making.st rc gid
  prog : ∀ e, s.enders[k]? = some e → e.user = u → e.client = c → Prog u c gid rc s.making.st e

theorem endProg_step {u c gid : String} {ru rc k : Nat} (hgood : (SKey.gra u c gid).Good (fun _ => True)) {s : EndWorld}
    (hi : EndsInv u c ru rc s) (hp : Proper s) (h : EndProg u c gid rc k s) (op : EndOp) : EndProg u c gid rc k (endStep s op) := by
  have hcli : (SKey.cli u c).Good (fun _ => True) := ⟨hgood.1, hgood.2.1, hgood.2.2.1⟩
  cases op with
  | logout u' c' =>
    refine ⟨h.there, h.listed, fun e he hu hc => ?_⟩
    simp only [endStep] at he
    by_cases hk : k < s.enders.length
    · rw [List.getElem?_append_left hk] at he
      exact h.prog e he hu hc
    · rw [List.getElem?_append_right (Nat.le_of_not_lt hk)] at he
      have hmem := List.mem_of_getElem? he
      simp at hmem
      subst hmem
      trivial
  | goEnd i =>
    cases hx : s.enders[i]? with
    | none => simp only [endStep, hx]; exact h
    | some e =>
      simp only [endStep, hx]
      have hmem := List.mem_of_getElem? hx
      have hle := endGo_grows s.making.st e
      have hdb := endGo_key3 (s := s.making.st) hgood (hp.ends e hmem)
      refine ⟨h.there.grows hle hdb, h.listed.grows hle, fun e' he' hu hc => ?_⟩
      by_cases hik : i = k
      · subst hik
        rw [List.getElem?_set_self (List.getElem?_eq_some_iff.1 hx).1] at he'
        cases he'
        exact prog_self hi.linked (linked_end hi.linked (hi.goodEnds e hmem) (hp.ends e hmem) hcli) ((hi.goodEnds e hmem).keeps hu hc)
          h.there h.listed hu hc (h.prog e hx hu hc)
      · rw [List.getElem?_set_ne hik] at he'
        exact (h.prog e' he' hu hc).grows hle hdb
  | make op =>
    cases op with
    | login u' c' g => exact ⟨h.there, h.listed, h.prog⟩
    | go i =>
      cases hx : s.making.threads[i]? with
      | none => simp only [endStep, makeStep, hx]; exact h
      | some m =>
        simp only [endStep, makeStep, hx]
        have hmem := List.mem_of_getElem? hx
        have hle := (makeGo_le s.making.st m).grows
        have hdb : (makeGo s.making.st m).1.db.get? (key3 u c gid) = s.making.st.db.get? (key3 u c gid) := by
          refine makeGo_key3 hgood (hp.named m hmem) (fun hpc e => ?_)
          have hnone := (hi.good m hmem).early (by rw [hpc]; rfl)
          obtain ⟨r, g, h1, -⟩ := h.there
          rw [← e, h1] at hnone
          cases hnone
        exact ⟨h.there.grows hle hdb, h.listed.grows hle, fun e he hu hc => (h.prog e he hu hc).grows hle hdb⟩

theorem endProg_run {u c gid : String} {ru rc k : Nat} (hgood : (SKey.gra u c gid).Good (fun _ => True)) (ops : List EndOp) :
    ∀ s : EndWorld, EndsInv u c ru rc s → ProperAll s ops → EndProg u c gid rc k s →
      EndsInv u c ru rc (endRun s ops) ∧ EndProg u c gid rc k (endRun s ops) := by
  have hcli : (SKey.cli u c).Good (fun _ => True) := ⟨hgood.1, hgood.2.1, hgood.2.2.1⟩
  induction ops with
  | nil => exact fun s h _ h' => ⟨h, h'⟩
  | cons op ops ih =>
    intro s h hp h'
    have hp' : ProperAll s ([op] ++ ops) := hp
    obtain ⟨i1, p1⟩ := endsInv_run hcli [op] s ops h hp'
    exact ih _ i1 p1 (endProg_step hgood h hp.now h' op)

theorem properAll_start {s : Store} {ops : List EndOp} (h : OwnEnds s ops) : ProperAll { making := { st := s } } ops where
  clean x hx := h.logins.clean _ _ _ (by simpa using hx)
  distinct := by simpa using h.logins.distinct
  ends x hx := h.logouts _ _ (by simpa using hx)
  unseen u c g hg := by
    have := h.logins.fresh u c g hg
    unfold Dict.has at this
    cases hq : s.db.get? (key3 u c g.id) with
    | none => rfl
    | some r => rw [hq] at this; cases this

/-! ### C129 -/

/-- C129, what is true of it: when the user has been logged in at the client before, a logout ends every session of theirs there that
can be read when it begins, whatever logins and logouts are served at the same time, and however the threads take turns. -/
theorem C129_ended_partial (u c gid : String) (s : Store) (before after : List EndOp) (hgood : (SKey.gra u c gid).Good (fun _ => True))
    (hbefore : ∃ i, found s (.cli u c) = some (.info i)) (hn : OwnEnds s (before ++ .logout u c :: after)) (g : Grant)
    (hthere : found (endRun { making := { st := s } } before).making.st (.gra u c gid) = some (.grant g))
    (hover : Over (endRun { making := { st := s } } (before ++ .logout u c :: after))
      (endRun { making := { st := s } } before).enders.length u c) :
    IsRevoked (endRun { making := { st := s } } (before ++ .logout u c :: after)).making.st u c gid := by
  have hcli : (SKey.cli u c).Good (fun _ => True) := ⟨hgood.1, hgood.2.1, hgood.2.2.1⟩
  obtain ⟨i, hi⟩ := hbefore
  obtain ⟨ru, rc, hl⟩ := found_linked hi
  have start : EndsInv u c ru rc { making := { st := s } } := ⟨hl, fun _ h => (by cases h), fun _ h => (by cases h)⟩
  obtain ⟨i1, p1⟩ := endsInv_run hcli before _ _ start (properAll_start hn)
  obtain ⟨ru', rc', hl', hh, hls⟩ := found_holds hthere
  have hrc : rc' = rc := by
    have a := hl'.client
    rw [i1.linked.client] at a
    cases a
    rfl
  subst hrc
  have prog0 : EndProg u c gid rc' (endRun { making := { st := s } } before).enders.length
      (endRun { making := { st := s } } before) := by
    obtain ⟨r, h1, h2⟩ := hh
    refine ⟨⟨r, g, h1, h2, nofun⟩, hls, fun e he => ?_⟩
    rw [List.getElem?_eq_none_iff.2 (Nat.le_refl _)] at he
    cases he
  have hrun : endRun { making := { st := s } } (before ++ .logout u c :: after) =
      endRun (endRun { making := { st := s } } before) (.logout u c :: after) := by
    unfold endRun
    rw [List.foldl_append]
  rw [hrun] at hover ⊢
  obtain ⟨i2, p2⟩ := endProg_run hgood _ _ i1 p1 prog0
  obtain ⟨r, g', h1, h2, h3⟩ := p2.prog _ hover rfl rfl
  exact ⟨g', holds_found i2.linked ⟨r, h1, h2⟩ p2.listed, h3 rfl⟩

namespace Ex

/-- A user who is known at another client logs in three times at a client that is new for them: two threads find no record of the client,
the first makes one and is about to store it once more; the third login finds it and comes to its end. -/
def thirdLogin : List EndOp :=
  ([.login "diana" "c1" (grantOf "g1"), .login "diana" "c1" (grantOf "g2"), .go 0, .go 1, .go 0, .go 1] ++ List.replicate 7 (.go 0) ++
    .login "diana" "c1" (grantOf "g3") :: List.replicate 14 (.go 2) : List MakeOp).map .make

/-- While the user logs out, the second thread puts its new record in the place of the first; after that the first thread puts its own
back. -/
def lateStore : List EndOp :=
  [.goEnd 0, .make (.go 1)] ++ List.replicate 14 (.goEnd 0) ++ [.make (.go 0)]

/-- A logout at a client where the user has been before, while a login is served: the login finds the record before the logout and adds its
grant to it afterwards. -/
def besides : List EndOp :=
  [.make (.login "diana" "c1" (grantOf "g1")), .make (.go 0), .make (.go 0), .make (.go 0)]

def besides2 : List EndOp := List.replicate 12 (.goEnd 0) ++ List.replicate 12 (.make (.go 0))

end Ex

instance (s : EndWorld) (k : Nat) (u c : String) : Decidable (Over s k u c) := by unfold Over; infer_instance

/-- C129 is not true of a client that is new for the user: a session that was created to the end, and can be read, outlives a logout that
began after that and is over. -/
theorem C129_new_client_refuted : ∃ (s : Store) (before after : List EndOp) (u c : String) (g : Grant),
    OwnEnds s (before ++ .logout u c :: after) ∧ Made (endRun { making := { st := s } } before).making u c g ∧
    found (endRun { making := { st := s } } before).making.st (.gra u c g.id) = some (.grant g) ∧
    Over (endRun { making := { st := s } } (before ++ .logout u c :: after)) (endRun { making := { st := s } } before).enders.length u c ∧
    found (endRun { making := { st := s } } (before ++ .logout u c :: after)).making.st (.gra u c g.id) = some (.grant g) ∧
    g.revoked = false :=
  ⟨Ex.knownAt "c0", Ex.thirdLogin, Ex.lateStore, "diana", "c1", Ex.grantOf "g3",
    ⟨⟨fun u c g h => by
      simp [Ex.thirdLogin, Ex.lateStore, makesIn, loginsIn] at h
      rcases h with ⟨rfl, rfl, rfl⟩ | ⟨rfl, rfl, rfl⟩ | ⟨rfl, rfl, rfl⟩ <;> exact ⟨trivial, by decide, by decide, by decide⟩,
      by decide +kernel, fun u c g h => by
      simp [Ex.thirdLogin, Ex.lateStore, makesIn, loginsIn] at h
      rcases h with ⟨rfl, rfl, rfl⟩ | ⟨rfl, rfl, rfl⟩ | ⟨rfl, rfl, rfl⟩ <;> decide +kernel⟩,
      fun u c h => by
      simp [Ex.thirdLogin, Ex.lateStore, logoutsIn] at h
      obtain ⟨rfl, rfl⟩ := h
      exact ⟨trivial, by decide, by decide⟩⟩,
    by decide +kernel, by decide +kernel, by decide +kernel, by decide +kernel, by decide +kernel⟩

/-- The hypotheses of `C129_ended_partial` are met: the user has a session at the client, logs in there once more and out at the same time; the
session is revoked, and the new one, which was not there when the logout began, is not. -/
example : OwnEnds (Ex.knownAt "c1") (Ex.besides ++ .logout "diana" "c1" :: Ex.besides2) ∧
    (∃ i, found (Ex.knownAt "c1") (.cli "diana" "c1") = some (.info i)) ∧
    found (endRun { making := { st := Ex.knownAt "c1" } } Ex.besides).making.st (.gra "diana" "c1" "g0") = some (.grant (Ex.grantOf "g0")) ∧
    Over (endRun { making := { st := Ex.knownAt "c1" } } (Ex.besides ++ .logout "diana" "c1" :: Ex.besides2)) 0 "diana" "c1" ∧
    found (endRun { making := { st := Ex.knownAt "c1" } } (Ex.besides ++ .logout "diana" "c1" :: Ex.besides2)).making.st
      (.gra "diana" "c1" "g0") = some (.grant (Ex.grantOf "g0").revoke) ∧
    found (endRun { making := { st := Ex.knownAt "c1" } } (Ex.besides ++ .logout "diana" "c1" :: Ex.besides2)).making.st
      (.gra "diana" "c1" "g1") = some (.grant (Ex.grantOf "g1")) :=
  ⟨⟨⟨fun u c g h => by
      simp [Ex.besides, Ex.besides2, makesIn, loginsIn] at h
      obtain ⟨rfl, rfl, rfl⟩ := h
      exact ⟨trivial, by decide, by decide, by decide⟩,
      by decide +kernel, fun u c g h => by
      simp [Ex.besides, Ex.besides2, makesIn, loginsIn] at h
      obtain ⟨rfl, rfl, rfl⟩ := h
      decide +kernel⟩,
      fun u c h => by
      simp [Ex.besides, Ex.besides2, logoutsIn] at h
      obtain ⟨rfl, rfl⟩ := h
      exact ⟨trivial, by decide, by decide⟩⟩,
    ⟨_, (by decide +kernel : found (Ex.knownAt "c1") (.cli "diana" "c1") = some (.info { isUser := false, ident := "c1", subordinate := ["g0"] }))⟩,
    by decide +kernel, by decide +kernel, by decide +kernel, by decide +kernel⟩

/-! ### A logout that runs alone -/

/-- From one place to another, in some number of steps. -/
def EndLeads (u c : String) (s : Store) (a : EndAt) (s' : Store) (a' : EndAt) : Prop :=
  ∃ n, ∀ k, endAlone s ⟨u, c, a⟩ (n + k) = endAlone s' ⟨u, c, a'⟩ k

theorem EndLeads.trans {u c : String} {s1 s2 s3 : Store} {a1 a2 a3 : EndAt} (h : EndLeads u c s1 a1 s2 a2)
    (h' : EndLeads u c s2 a2 s3 a3) : EndLeads u c s1 a1 s3 a3 := by
  obtain ⟨n, hn⟩ := h
  obtain ⟨n', hn'⟩ := h'
  exact ⟨n + n', fun k => by rw [Nat.add_assoc, hn, hn']⟩

theorem EndLeads.one {u c : String} {s s' : Store} {a a' : EndAt} (h : endGo s ⟨u, c, a⟩ = (s', a')) : EndLeads u c s a s' a' := by
  refine ⟨1, fun k => ?_⟩
  rw [Nat.add_comm]
  conv => lhs; unfold endAlone
  simp only [h]

/-- Where a logout is after a part of the work that returned or raised. -/
def endAfter : Except Exc α → EndAt
  | .ok _ => .done
  | .error _ => .failed

theorem mutate_list {s : Store} {r q : Nat} {ci : SInfo} (h : s.heap[r]? = some (.info ci)) :
    ∃ ci', (s.mutate q Obj.revoke).heap[r]? = some (.info ci') ∧ ci'.subordinate = ci.subordinate := by
  unfold Store.mutate Store.obj
  cases hq : s.heap[q]? with
  | none => exact ⟨ci, h, rfl⟩
  | some o =>
    by_cases he : q = r
    · subst he
      rw [h] at hq
      cases hq
      exact ⟨{ ci with revoked := true }, by simp [Store.put, (List.getElem?_eq_some_iff.1 h).1, Obj.revoke], rfl⟩
    · simp only [Store.put]
      rw [List.getElem?_set_ne he]
      exact ⟨ci, h, rfl⟩

theorem linked_mutate {u c : String} {ru rc : Nat} {s : Store} (hl : Linked u c ru rc s) (q : Nat) :
    Linked u c ru rc (s.mutate q Obj.revoke) := by
  refine ⟨by rw [mutate_db]; exact hl.user, by rw [mutate_db]; exact hl.client, hl.lists.grows (mutate_grows s q), ?_⟩
  obtain ⟨i, hi⟩ := hl.info
  obtain ⟨i', h1, -⟩ := mutate_list (q := q) hi
  exact ⟨i', h1⟩

theorem leads_loop (u c : String) (ru rc : Nat) (l : List String) : ∀ (gs : List String) (i : Nat) (t : Store), Linked u c ru rc t →
    (∃ ci, t.heap[rc]? = some (.info ci) ∧ ci.subordinate = l) → l.drop i = gs →
    EndLeads u c t (.next rc i) (revokeGrants u c gs t).2 (endAfter (revokeGrants u c gs t).1) := by
  intro gs
  induction gs with
  | nil =>
    intro i t hl hci hd
    obtain ⟨ci, h1, rfl⟩ := hci
    refine .one ?_
    have : ci.subordinate[i]? = none := by
      rw [List.getElem?_eq_none_iff]
      exact List.drop_eq_nil_iff.1 hd
    simp [endGo, Store.obj, h1, this, revokeGrants, endAfter]
  | cons x gs ih =>
    intro i t hl hci hd
    obtain ⟨ci, h1, hcl⟩ := hci
    obtain ⟨iu, hlu, hcu⟩ := hl.lookupUser
    have hlc : t.lookup (key2 u c) = some (rc, .info ci) := (lookup_eq _ _ _ _).2 ⟨hl.client, h1⟩
    have hx : ci.subordinate[i]? = some x := by
      rw [hcl, ← List.head?_drop, hd]
      rfl
    have hmem : x ∈ ci.subordinate := List.mem_of_getElem? hx
    refine .trans (.one (s' := t) (a' := .findUser rc i x) (by simp [endGo, Store.obj, h1, hx])) ?_
    refine .trans (.one (s' := t) (a' := .findClient rc i x) (by simp [endGo, hlu, hcu])) ?_
    refine .trans (.one (s' := t) (a' := .findGrant rc i x) (by simp [endGo, hlc, hmem])) ?_
    have hget : dbGet ⟨u, some c, some x⟩ t = match t.lookup (key3 u c x) with
        | none => .error .noSuchGrant
        | some (r3, _) => .ok r3 := by
      simp only [dbGet, hlu, subordinateOf, hcu, hlc, hmem, not_true, if_false]
      cases t.lookup (key3 u c x) <;> rfl
    unfold revokeGrants
    rw [hget]
    cases hq : t.lookup (key3 u c x) with
    | none => exact .one (by simp [endGo, hq, endAfter])
    | some p =>
      obtain ⟨q, o⟩ := p
      refine .trans (.one (s' := t) (a' := .revoke rc i q) (by simp [endGo, hq])) ?_
      refine .trans (.one (s' := t.mutate q Obj.revoke) (a' := .next rc (i + 1)) (by simp [endGo])) ?_
      obtain ⟨ci', h2, h3⟩ := mutate_list (q := q) h1
      refine ih (i + 1) _ (linked_mutate hl q) ⟨ci', h2, by rw [h3, hcl]⟩ ?_
      rw [← List.drop_drop, hd]
      rfl

/-- C129: the steps of a logout, one after the other, are what the model of `revoke_client_session` has as one: the same database, and
the thread has come to its end if and only if `revoke_client_session` returns. -/
theorem C129_alone (u c : String) (s : Store) (hgood : (SKey.cli u c).Good (fun _ => True)) (hc : c ≠ "") :
    ∃ n, endAlone s { user := u, client := c } n = ((revokeClientSession u c s).2,
      match (revokeClientSession u c s).1 with
        | .ok _ => .done
        | .error _ => .failed) := by
  suffices h : EndLeads u c s .getListed (revokeClientSession u c s).2 (endAfter (revokeClientSession u c s).1) by
    obtain ⟨n, hn⟩ := h
    have := hn 0
    rw [Nat.add_zero] at this
    refine ⟨n, ?_⟩
    rw [this]
    cases (revokeClientSession u c s).1 <;> rfl
  unfold revokeClientSession
  cases hu : s.lookup u with
  | none => exact .one (by simp [endGo, dbGet, hu, endAfter])
  | some p =>
    obtain ⟨ru, o⟩ := p
    cases o with
    | grant g => exact .one (by simp [endGo, dbGet, hu, subordinateOf, endAfter])
    | info iu =>
      by_cases hcu : c ∈ iu.subordinate
      · refine .trans (.one (s' := s) (a' := .getClient) (by simp [endGo, hu, hcu])) ?_
        cases hk : s.lookup (key2 u c) with
        | none => exact .one (by simp [endGo, dbGet, hu, subordinateOf, hcu, hk, endAfter])
        | some p =>
          obtain ⟨rc, o⟩ := p
          have hget : dbGet ⟨u, some c, none⟩ s = .ok rc := by simp [dbGet, hu, subordinateOf, hcu, hk]
          have ho := obj_of_lookup hk
          rw [hget]
          simp only [ho]
          cases o with
          | grant g => exact .one (by simp [endGo, hk, endAfter])
          | info ci =>
            have hl : Linked u c ru rc s :=
              ⟨((lookup_eq _ _ _ _).1 hu).1, ((lookup_eq _ _ _ _).1 hk).1, ⟨iu, ((lookup_eq _ _ _ _).1 hu).2, hcu⟩, ci, ho⟩
            have hl1 := linked_mutate hl rc
            have hne : u ≠ key2 u c := fun e => by
              cases skey_str_inj (k := .usr u) (k' := .cli u c) ⟨hgood.1, hgood.2.1⟩ hgood e
            obtain ⟨ci1, h1, h2⟩ := mutate_list (q := rc) (show s.heap[rc]? = some (.info ci) from ho)
            have hl2 : Linked u c ru rc ((s.mutate rc Obj.revoke).bind (key2 u c) rc) := by
              refine ⟨?_, by simp [Store.bind], hl1.lists, hl1.info⟩
              show ((s.mutate rc Obj.revoke).db.set (key2 u c) rc).get? u = _
              rw [Dict.get?_set_ne _ _ (Ne.symm hne)]
              exact hl1.user
            obtain ⟨iu2, hlu2, hcu2⟩ := hl2.lookupUser
            have hset : dbSet ⟨u, some c, none⟩ rc (s.mutate rc Obj.revoke) =
                (.ok (), (s.mutate rc Obj.revoke).bind (key2 u c) rc) := by
              rw [dbSet_two u rc _ hc]
              unfold setUser
              simp [hlu2, hcu2]
            rw [hset]
            simp only []
            refine .trans (.one (s' := s) (a' := .mark rc) (by simp [endGo, hk])) ?_
            refine .trans (.one (s' := s.mutate rc Obj.revoke) (a' := .storeClient rc) (by simp [endGo])) ?_
            refine .trans (.one (s' := (s.mutate rc Obj.revoke).bind (key2 u c) rc) (a' := .readUser rc) (by simp [endGo])) ?_
            refine .trans (.one (s' := (s.mutate rc Obj.revoke).bind (key2 u c) rc) (a' := .addClient rc ru)
              (by simp [endGo, Store.getOr, hlu2])) ?_
            refine .trans (.one (s' := (s.mutate rc Obj.revoke).bind (key2 u c) rc) (a' := .next rc 0)
              (by simp [endGo, Store.addSub, obj_of_lookup hlu2, hcu2])) ?_
            exact leads_loop u c ru rc ci.subordinate ci.subordinate 0 _ hl2 ⟨ci1, h1, h2⟩ rfl
      · exact .one (by simp [endGo, dbGet, hu, subordinateOf, hcu, endAfter])

end OidcOp
