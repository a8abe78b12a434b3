/-
The effect of the session manager's operations on the view of the session database.
-/
import Verif.Lemmas.Database

namespace OidcOp
open Spec

/-- Append unless present. -/
def addS (x : String) (l : List String) : List String := if x ∈ l then l else l ++ [x]

theorem mem_addS (x y : String) (l : List String) : y ∈ addS x l ↔ y ∈ l ∨ y = x := by
  unfold addS; split
  · constructor
    · exact .inl
    · rintro (h | rfl)
      · exact h
      · assumption
  · simp

theorem nodup_addS {x : String} {l : List String} (h : l.Nodup) : (addS x l).Nodup := by
  unfold addS; split
  · exact h
  · rename_i hx
    rw [List.nodup_append]
    refine ⟨h, by simp, ?_⟩
    intro a ha b hb
    simp at hb; subst hb
    intro e; subst e; exact hx ha

/-- Grants keep their place and contents. -/
def GrantsKept (s s' : Store) : Prop :=
  s.heap.length ≤ s'.heap.length ∧ ∀ (r : Nat) (g : Grant), s.heap[r]? = some (Obj.grant g) → s'.heap[r]? = some (Obj.grant g)

theorem GrantsKept.refl (s : Store) : GrantsKept s s := ⟨Nat.le_refl _, fun _ _ h => h⟩
theorem GrantsKept.trans {a b c : Store} (h1 : GrantsKept a b) (h2 : GrantsKept b c) : GrantsKept a c :=
  ⟨Nat.le_trans h1.1 h2.1, fun _ _ h => h2.2 _ _ (h1.2 _ _ h)⟩
theorem GrantsKept.bind (s : Store) (k : String) (r : Nat) : GrantsKept s (s.bind k r) :=
  ⟨Nat.le_refl _, fun _ _ h => h⟩
theorem GrantsKept.unbind (s : Store) (k : String) : GrantsKept s (s.unbind k) :=
  ⟨Nat.le_refl _, fun _ _ h => h⟩
theorem GrantsKept.alloc (s : Store) (o : Obj) : GrantsKept s (s.alloc o).2 := by
  refine ⟨by simp [Store.alloc], fun r g h => ?_⟩
  simp only [Store.alloc]
  have := (List.getElem?_eq_some_iff.1 h).1
  rw [List.getElem?_append_left this]; exact h
theorem GrantsKept.put {s : Store} {r : Nat} {i : SInfo} (h : s.heap[r]? = some (.info i)) (o : Obj) :
    GrantsKept s (s.put r o) := by
  refine ⟨by simp [Store.put], fun r' g h' => ?_⟩
  simp only [Store.put]
  by_cases e : r = r'
  · subst e; rw [h] at h'; cases h'
  · rw [List.getElem?_set_ne e]; exact h'

/-- The common form of the client and the user part of `Database.set`. -/
def addSub (k : String) (isUser : Bool) (x : String) : SE Store Unit := fun s =>
  match s.lookup k with
  | none =>
    let (r, s1) := s.alloc (.info { isUser := isUser, subordinate := [x] })
    (.ok (), s1.bind k r)
  | some (_, .grant _) => (.error .attributeError, s)
  | some (r, .info i) =>
    if x ∈ i.subordinate then (.ok (), s)
    else (.ok (), (s.put r (.info { i with subordinate := i.subordinate ++ [x] })).bind k r)

theorem setClient_some (u c g : String) (val : Nat) : setClient u c (some g) val = addSub (key2 u c) false g := rfl
theorem setUser_some (u c : String) (b : Bool) (val : Nat) : setUser u (some c) b val = addSub u true c := rfl

/-- The record that `set` starts from: the stored one or a new empty one. -/
def FromV (V : SKey → Option (Nat × Obj)) (n : Nat) (k : SKey) (isUser : Bool) (r : Nat) (i : SInfo) : Prop :=
  V k = some (r, .info i) ∨ (V k = none ∧ i = { isUser := isUser } ∧ n ≤ r)

theorem upd_same {β : Type} (V : SKey → β) (k : SKey) (x : β) (h : V k = x) : upd V k x = V := by
  funext k'; unfold upd; split
  · rename_i e; rw [e, h]
  · rfl

theorem addSub_spec {U : String → Prop} {s : Store} (hw : WF U s) {k : SKey} (hk : k.Good U)
    (hty : ∀ r o, view U s k = some (r, o) → ∃ i, o = .info i) (isUser : Bool) (x : String) :
    ∃ s' r i, addSub (SKey.str k) isUser x s = (.ok (), s') ∧ WF U s' ∧
      view U s' = upd (view U s) k (some (r, .info { i with subordinate := addS x i.subordinate })) ∧
      FromV (view U s) s.heap.length k isUser r i ∧ GrantsKept s s' := by
  have hv := view_good s hk
  unfold addSub
  rw [← hv]
  cases hx : view U s k with
  | none =>
    refine ⟨_, s.heap.length, { isUser := isUser }, rfl, ?_, ?_, .inr ⟨hx, rfl, Nat.le_refl _⟩, ?_⟩
    · refine (hw.alloc _).bind hk (o := .info { isUser := isUser, subordinate := [x] }) ?_ ?_
      · simp [Store.alloc]
      · rw [view_alloc hw.valid]; exact freeFor_new s k
    · rw [view_bind _ hk (o := .info { isUser := isUser, subordinate := [x] }) (by simp)]
      show upd (view U (s.alloc _).2) _ _ = _
      rw [view_alloc hw.valid]
      simp [addS]
    · exact (GrantsKept.alloc s _).trans (GrantsKept.bind _ _ _)
  | some p =>
    obtain ⟨r, o⟩ := p
    obtain ⟨i, rfl⟩ := hty r o hx
    have hobj := view_some_obj hx
    by_cases hm : x ∈ i.subordinate
    · simp only [hm, if_true]
      refine ⟨s, r, i, rfl, hw, ?_, .inl hx, GrantsKept.refl s⟩
      have : ({ i with subordinate := addS x i.subordinate } : SInfo) = i := by
        simp [addS, hm]
      rw [this, upd_same _ _ _ hx]
    · simp only [hm, if_false]
      have hlt := view_lt hx
      refine ⟨_, r, i, rfl, ?_, ?_, .inl hx, ?_⟩
      · refine (hw.put _ hx).bind hk (o := .info { i with subordinate := i.subordinate ++ [x] }) ?_ ?_
        · simp [Store.put, hlt]
        · rw [view_put hw.noalias hx]
          intro k' o' h'
          unfold upd at h'
          split at h'
          · assumption
          · exact hw.noalias _ _ _ _ _ h' hx
      · rw [view_bind _ hk (o := .info { i with subordinate := i.subordinate ++ [x] }) (by simp [Store.put, hlt]),
          view_put hw.noalias hx]
        funext k'
        simp only [upd, addS, hm, if_false]
        split <;> simp_all
      · exact (GrantsKept.put hobj _).trans (GrantsKept.bind _ _ _)

theorem fromV_free {U : String → Prop} {s : Store} (hw : WF U s) {k : SKey} {b : Bool} {r : Nat} {i : SInfo}
    (h : FromV (view U s) s.heap.length k b r i) : FreeFor (view U s) k r := by
  intro k' o h'
  rcases h with h | ⟨_, _, h⟩
  · exact hw.noalias _ _ _ _ _ h' h
  · have := view_lt h'; omega

/-- The effect of `set` on the records, for a path with a user, a client and a grant. -/
structure SetGrant (U : String → Prop) (s s' : Store) (u c g : String) (rv : Nat) (gr : Grant) : Prop where
  inv : DbInv U s'
  kept : GrantsKept s s'
  view : ∃ rc ci ru ui, FromV (view U s) s.heap.length (.cli u c) false rc ci ∧
    FromV (view U s) s.heap.length (.usr u) true ru ui ∧
    view U s' = upd (upd (upd (OidcOp.view U s) (.gra u c g) (some (rv, .grant gr)))
      (.cli u c) (some (rc, .info { ci with subordinate := addS g ci.subordinate })))
      (.usr u) (some (ru, .info { ui with subordinate := addS c ui.subordinate }))

theorem clean_truthy {x : String} (h : CleanId x) : truthyId (some x) = some x := by
  simp [truthyId, h.1]

theorem good_cli_of_gra {U : String → Prop} {u c g : String} (h : (SKey.gra u c g).Good U) : (SKey.cli u c).Good U :=
  ⟨h.1, h.2.1, h.2.2.1⟩
theorem good_usr_of_cli {U : String → Prop} {u c : String} (h : (SKey.cli u c).Good U) : (SKey.usr u).Good U :=
  ⟨h.1, h.2.1⟩

theorem dbSet_grant {U : String → Prop} {s : Store} (hi : DbInv U s) {u c g : String}
    (hk : (SKey.gra u c g).Good U) {rv : Nat} {gr : Grant} (hr : s.heap[rv]? = some (.grant gr))
    (hf : FreeFor (view U s) (.gra u c g) rv) :
    ∃ s', dbSet ⟨u, some c, some g⟩ rv s = (.ok (), s') ∧ SetGrant U s s' u c g rv gr := by
  have hkc := good_cli_of_gra hk
  have hku := good_usr_of_cli hkc
  -- the grant
  have hw1 : WF U (s.bind (key3 u c g) rv) := hi.wf.bind (k := .gra u c g) hk hr hf
  have hv1 : view U (s.bind (key3 u c g) rv) = upd (view U s) (.gra u c g) (some (rv, .grant gr)) :=
    view_bind s (k := .gra u c g) hk hr
  -- the client
  obtain ⟨s2, rc, ci, he2, hw2, hv2, hfrom2, hk2⟩ := addSub_spec hw1 (k := .cli u c) hkc
    (by rw [hv1]; intro r o h; exact hi.links.typedC u c r o (by simpa [upd] using h)) false g
  -- the user
  obtain ⟨s3, ru, ui, he3, hw3, hv3, hfrom3, hk3⟩ := addSub_spec hw2 (k := .usr u) hku
    (by rw [hv2, hv1]; intro r o h; exact hi.links.typedU u r o (by simpa [upd] using h)) true c
  have hfc : FromV (view U s) s.heap.length (.cli u c) false rc ci := by
    rw [hv1] at hfrom2
    simpa [FromV, upd, Store.bind] using hfrom2
  have hfu : FromV (view U s) s.heap.length (.usr u) true ru ui := by
    rw [hv2, hv1] at hfrom3
    rcases hfrom3 with h | ⟨h1, h2, h3⟩
    · exact .inl (by simpa [upd] using h)
    · refine .inr ⟨by simpa [upd] using h1, h2, ?_⟩
      have := hk2.1
      have h4 : (s.bind (key3 u c g) rv).heap.length = s.heap.length := rfl
      omega
  have hview : view U s3 = upd (upd (upd (OidcOp.view U s) (.gra u c g) (some (rv, .grant gr)))
      (.cli u c) (some (rc, .info { ci with subordinate := addS g ci.subordinate })))
      (.usr u) (some (ru, .info { ui with subordinate := addS c ui.subordinate })) := by
    rw [hv3, hv2, hv1]
  refine ⟨s3, ?_, ⟨hw3, ?_⟩, ((GrantsKept.bind _ _ _).trans hk2).trans hk3, rc, ci, ru, ui, hfc, hfu, hview⟩
  · show dbSet ⟨u, some c, some g⟩ rv s = _
    unfold dbSet
    simp only [clean_truthy hk.2.2.2.1, clean_truthy hk.2.2.1, setClient_some, setUser_some]
    have he2' : addSub (key2 u c) false g (s.bind (key3 u c g) rv) = (.ok (), s2) := he2
    have he3' : addSub u true c s2 = (.ok (), s3) := he3
    simp only [SE.bind_apply, SE.modify, he2', he3']
  · rw [hview]
    rcases hfc with hfc | ⟨hcn, hci, _⟩
    · -- the client exists, so the user exists and lists it
      obtain ⟨r, i, hr', hm⟩ := hi.links.up1 u c _ hfc
      have : ru = r ∧ ui = i := by
        rcases hfu with h | ⟨h, _⟩
        · rw [hr'] at h; cases h; exact ⟨rfl, rfl⟩
        · rw [hr'] at h; cases h
      obtain ⟨rfl, rfl⟩ := this
      have h1 := vinv_addGrant hi.links hfc rv gr { ci with subordinate := addS g ci.subordinate }
        (fun x => mem_addS g x _)
      exact vinv_replace h1 (k := .usr u) (r := ru) (o := .info ui) (by simpa [upd] using hr')
        (.inl ⟨_, _, rfl, rfl, fun x => by
          rw [mem_addS]
          exact ⟨fun h => h.elim id (fun e => e ▸ hm), .inl⟩⟩)
    · -- new client session
      subst hci
      have hgn : ∀ g', view U s (.gra u c g') = none := by
        intro g'
        cases hx : view U s (.gra u c g') with
        | none => rfl
        | some x =>
          obtain ⟨r, i, h, _⟩ := hi.links.up2 _ _ _ _ hx
          rw [hcn] at h; cases h
      -- the user record first
      have key : ∀ V0 : SKey → Option (Nat × Obj), VInv V0 → V0 (.usr u) = some (ru, .info ui) →
          (∀ k, k ≠ .usr u → V0 k = view U s k) →
          VInv (upd (upd (upd (OidcOp.view U s) (.gra u c g) (some (rv, .grant gr)))
            (.cli u c) (some (rc, .info { isUser := false, subordinate := addS g [] })))
            (.usr u) (some (ru, .info { ui with subordinate := addS c ui.subordinate }))) := by
        intro V0 h0 hu0 hsame
        have hc0 : V0 (.cli u c) = none := by rw [hsame _ (by simp)]; exact hcn
        have h1 := vinv_addClient h0 hu0 hc0 rc { isUser := false } rfl
          { ui with subordinate := addS c ui.subordinate } (fun x => mem_addS c x _)
        have h2 := vinv_addGrant h1 (u := u) (c := c) (g := g) (rc := rc) (ci := { isUser := false })
          (by simp [upd]) rv gr { isUser := false, subordinate := addS g [] } (fun x => mem_addS g x [])
        refine cast (congrArg VInv ?_) h2
        funext k
        by_cases e1 : k = .usr u
        · subst e1; simp [upd]
        · by_cases e2 : k = .cli u c
          · subst e2; simp [upd]
          · by_cases e3 : k = .gra u c g
            · subst e3; simp [upd]
            · simp [upd, e1, e2, e3, hsame k e1]
      rcases hfu with hfu | ⟨hun, hui, _⟩
      · exact key _ hi.links hfu (fun _ _ => rfl)
      · subst hui
        exact key _ (vinv_addUser hi.links hun ru { isUser := true } rfl) (by simp)
          (fun k hk' => upd_ne _ _ hk')

/-! ### `get` -/

theorem dbGet_iff {U : String → Prop} {s : Store} (hi : DbInv U s) {k : SKey} (hk : k.Good U) (r : Nat) :
    dbGet k.path s = .ok r ↔ ∃ o, view U s k = some (r, o) := by
  cases k with
  | usr u =>
    simp only [SKey.path, dbGet_usr]
    rw [view_good s hk]
    simp only [SKey.str]
    cases s.lookup u with
    | none => simp
    | some p =>
      obtain ⟨r', o⟩ := p
      simp
  | cli u c =>
    have hku := good_usr_of_cli hk
    have h1 : s.lookup u = view U s (.usr u) := (view_good s hku).symm
    have h2 : s.lookup (key2 u c) = view U s (.cli u c) := (view_good s hk).symm
    simp only [SKey.path, dbGet, h1, h2]
    constructor
    · intro h
      cases hu : view U s (.usr u) with
      | none => simp [hu] at h
      | some p =>
        obtain ⟨ru, ou⟩ := p
        obtain ⟨i, rfl⟩ := hi.links.typedU _ _ _ hu
        simp only [hu, subordinateOf] at h
        split at h
        · cases h
        · cases hc : view U s (.cli u c) with
          | none => simp [hc] at h
          | some q => simp only [hc, Except.ok.injEq] at h; subst h; exact ⟨q.2, rfl⟩
    · rintro ⟨o, h⟩
      obtain ⟨ru, i, hu, hm⟩ := hi.links.up1 _ _ _ h
      simp [hu, subordinateOf, hm, h]
  | gra u c g =>
    have hkc := good_cli_of_gra hk
    have hku := good_usr_of_cli hkc
    have h1 : s.lookup u = view U s (.usr u) := (view_good s hku).symm
    have h2 : s.lookup (key2 u c) = view U s (.cli u c) := (view_good s hkc).symm
    have h3 : s.lookup (key3 u c g) = view U s (.gra u c g) := (view_good s hk).symm
    simp only [SKey.path, dbGet, h1, h2, h3]
    constructor
    · intro h
      cases hu : view U s (.usr u) with
      | none => simp [hu] at h
      | some p =>
        obtain ⟨ru, ou⟩ := p
        obtain ⟨i, rfl⟩ := hi.links.typedU _ _ _ hu
        simp only [hu, subordinateOf] at h
        split at h
        · cases h
        · cases hc : view U s (.cli u c) with
          | none => simp [hc] at h
          | some q =>
            obtain ⟨rc, oc⟩ := q
            obtain ⟨j, rfl⟩ := hi.links.typedC _ _ _ _ hc
            simp only [hc] at h
            split at h
            · cases h
            · cases hg : view U s (.gra u c g) with
              | none => simp [hg] at h
              | some q => simp only [hg, Except.ok.injEq] at h; subst h; exact ⟨q.2, rfl⟩
    · rintro ⟨o, h⟩
      obtain ⟨rc, j, hc, hmg⟩ := hi.links.up2 _ _ _ _ h
      obtain ⟨ru, i, hu, hm⟩ := hi.links.up1 _ _ _ hc
      simp [hu, subordinateOf, hm, hc, hmg, h]

theorem found_view {U : String → Prop} {s : Store} (hi : DbInv U s) {k : SKey} (hk : k.Good U) :
    found s k = (view U s k).map Prod.snd := by
  unfold found
  cases hg : dbGet k.path s with
  | ok r =>
    obtain ⟨o, ho⟩ := (dbGet_iff hi hk r).1 hg
    simp [ho, view_some_obj ho]
  | error e =>
    cases hv : view U s k with
    | none => rfl
    | some p =>
      have := (dbGet_iff hi hk p.1).2 ⟨p.2, hv⟩
      rw [this] at hg; cases hg

/-- `get` of a client session for a stored user and an unknown client: ValueError. -/
theorem dbGet_cli_error {U : String → Prop} {s : Store} (hi : DbInv U s) {u c : String}
    (hk : (SKey.cli u c).Good U) {x : Nat × Obj} (hu : view U s (.usr u) = some x)
    (hc : view U s (.cli u c) = none) : dbGet ⟨u, some c, none⟩ s = .error .valueError := by
  have hku := good_usr_of_cli hk
  have h1 : s.lookup u = view U s (.usr u) := (view_good s hku).symm
  obtain ⟨ru, ou⟩ := x
  obtain ⟨i, rfl⟩ := hi.links.typedU _ _ _ hu
  have hm : c ∉ i.subordinate := by
    intro h
    obtain ⟨x, hx⟩ := hi.links.down1 _ _ _ _ hu h
    rw [hc] at hx; cases hx
  simp [dbGet, h1, hu, subordinateOf, hm]

/-- The invariant implies consistency as seen from outside. -/
theorem consistent_of_inv {U : String → Prop} (hU : ∀ u, U u → CleanId u) {s : Store} (hi : DbInv U s) :
    Consistent U s := by
  constructor
  · intro u i c hu hf hm
    have hk : (SKey.usr u).Good U := ⟨hu, hU u hu⟩
    rw [found_view hi hk] at hf
    cases hv : view U s (.usr u) with
    | none => rw [hv] at hf; cases hf
    | some p =>
      obtain ⟨r, o⟩ := p
      rw [hv] at hf; cases hf
      obtain ⟨x, hx⟩ := hi.links.down1 _ _ _ _ hv hm
      obtain ⟨j, hj⟩ := hi.links.typedC _ _ x.1 x.2 hx
      exact ⟨j, by rw [found_view hi (view_some hx).1, hx]; simp [hj]⟩
  · intro u c ci g hu hf hm
    by_cases hc : CleanId c
    · have hk : (SKey.cli u c).Good U := ⟨hu, hU u hu, hc⟩
      rw [found_view hi hk] at hf
      cases hv : view U s (.cli u c) with
      | none => rw [hv] at hf; cases hf
      | some p =>
        obtain ⟨r, o⟩ := p
        rw [hv] at hf; cases hf
        obtain ⟨x, hx⟩ := hi.links.down2 _ _ _ _ _ hv hm
        obtain ⟨j, hj⟩ := hi.links.typedG _ _ _ x.1 x.2 hx
        exact ⟨j, by rw [found_view hi (view_some hx).1, hx]; simp [hj]⟩
    · -- a client id that is not clean is never listed
      exfalso
      have hku : (SKey.usr u).Good U := ⟨hu, hU u hu⟩
      unfold found at hf
      simp only [SKey.path, dbGet, show s.lookup u = view U s (.usr u) from (view_good s hku).symm] at hf
      cases hv : view U s (.usr u) with
      | none => simp [hv] at hf
      | some p =>
        obtain ⟨r, o⟩ := p
        obtain ⟨i, rfl⟩ := hi.links.typedU _ _ _ hv
        simp only [hv, subordinateOf] at hf
        by_cases hm' : c ∈ i.subordinate
        · obtain ⟨x, hx⟩ := hi.links.down1 _ _ _ _ hv hm'
          exact hc (view_some hx).1.2.2
        · simp [hm'] at hf
  · intro u c hk hh
    obtain ⟨r, hr⟩ := Option.isSome_iff_exists.1 hh
    obtain ⟨o, ho⟩ := lookup_isSome_of_valid hi.wf.valid hr
    have hv : view U s (.cli u c) = some (r, o) := by rw [view_good s hk]; exact ho
    obtain ⟨ru, i, h, hm⟩ := hi.links.up1 _ _ _ hv
    exact ⟨i, by rw [found_view hi (view_some h).1, h]; rfl, hm⟩
  · intro u c g hk hh
    obtain ⟨r, hr⟩ := Option.isSome_iff_exists.1 hh
    obtain ⟨o, ho⟩ := lookup_isSome_of_valid hi.wf.valid hr
    have hv : view U s (.gra u c g) = some (r, o) := by rw [view_good s hk]; exact ho
    obtain ⟨ru, i, h, hm⟩ := hi.links.up2 _ _ _ _ hv
    exact ⟨i, by rw [found_view hi (view_some h).1, h]; rfl, hm⟩

/-! ### `set` with shorter paths -/

theorem dbSet_usr (u : String) (rv : Nat) (s : Store) : dbSet ⟨u, none, none⟩ rv s = (.ok (), s.bind u rv) := rfl

theorem dbSet_cli {u c : String} (hc : CleanId c) (rv : Nat) (s : Store) :
    dbSet ⟨u, some c, none⟩ rv s = addSub u true c (s.bind (key2 u c) rv) := by
  unfold dbSet
  simp only [clean_truthy hc, show truthyId (none : Option String) = none from rfl, setUser_some]
  rfl

/-- A new user record. -/
theorem inv_newUser {U : String → Prop} {s : Store} (hi : DbInv U s) {u : String} (hk : (SKey.usr u).Good U)
    (hn : view U s (.usr u) = none) (i : SInfo) (hsub : i.subordinate = []) :
    DbInv U ((s.alloc (.info i)).2.bind u s.heap.length) ∧
      view U ((s.alloc (.info i)).2.bind u s.heap.length) =
        upd (view U s) (.usr u) (some (s.heap.length, .info i)) := by
  have hr : (s.alloc (.info i)).2.heap[s.heap.length]? = some (.info i) := by simp [Store.alloc]
  have hv : view U ((s.alloc (.info i)).2.bind u s.heap.length) =
        upd (view U s) (.usr u) (some (s.heap.length, .info i)) := by
    have := view_bind (s.alloc (.info i)).2 (k := .usr u) hk hr
    rw [view_alloc hi.wf.valid] at this; exact this
  refine ⟨⟨(hi.wf.alloc _).bind (k := .usr u) hk hr ?_, ?_⟩, hv⟩
  · rw [view_alloc hi.wf.valid]; exact freeFor_new s _
  · rw [hv]; exact vinv_addUser hi.links hn _ _ hsub

theorem ensureUser_spec {U : String → Prop} {s : Store} (hi : DbInv U s) {u : String} (hk : (SKey.usr u).Good U) :
    ∃ s' r i, ensureUser u s = (.ok (), s') ∧ DbInv U s' ∧ GrantsKept s s' ∧
      view U s' = upd (view U s) (.usr u) (some (r, .info i)) ∧
      (view U s (.usr u) = some (r, .info i) ∨ (view U s (.usr u) = none ∧ i = { isUser := true, ident := u })) := by
  unfold ensureUser
  cases hv : view U s (.usr u) with
  | none =>
    have hg : dbGet ⟨u, none, none⟩ s = .error .keyError := by
      rw [dbGet_usr, show s.lookup u = view U s (.usr u) from (view_good s hk).symm, hv]
    simp only [hg, Exc.isKeyError, if_true, dbSet_usr]
    have := inv_newUser hi hk hv { isUser := true, ident := u } rfl
    exact ⟨_, _, _, rfl, this.1, (GrantsKept.alloc _ _).trans (GrantsKept.bind _ _ _), this.2, by simp⟩
  | some p =>
    obtain ⟨r, o⟩ := p
    obtain ⟨i, rfl⟩ := hi.links.typedU _ _ _ hv
    have hg : dbGet ⟨u, none, none⟩ s = .ok r := (dbGet_iff hi hk r).2 ⟨_, hv⟩
    simp only [hg]
    exact ⟨s, r, i, rfl, hi, GrantsKept.refl s, (upd_same _ _ _ hv).symm, .inl rfl⟩

/-- A new client session. -/
theorem inv_newClient {U : String → Prop} {s : Store} (hi : DbInv U s) {u c : String} (hk : (SKey.cli u c).Good U)
    {ru : Nat} {ui : SInfo} (hu : view U s (.usr u) = some (ru, .info ui))
    (hn : view U s (.cli u c) = none) (i : SInfo) (hsub : i.subordinate = []) :
    ∃ s', dbSet ⟨u, some c, none⟩ s.heap.length (s.alloc (.info i)).2 = (.ok (), s') ∧ DbInv U s' ∧
      GrantsKept s s' ∧
      view U s' = upd (upd (view U s) (.cli u c) (some (s.heap.length, .info i)))
        (.usr u) (some (ru, .info { ui with subordinate := addS c ui.subordinate })) := by
  have hku := good_usr_of_cli hk
  have hr : (s.alloc (.info i)).2.heap[s.heap.length]? = some (.info i) := by simp [Store.alloc]
  have hw1 : WF U ((s.alloc (.info i)).2.bind (key2 u c) s.heap.length) := by
    refine (hi.wf.alloc _).bind (k := .cli u c) hk hr ?_
    rw [view_alloc hi.wf.valid]; exact freeFor_new s _
  have hv1 : view U ((s.alloc (.info i)).2.bind (key2 u c) s.heap.length) =
        upd (view U s) (.cli u c) (some (s.heap.length, .info i)) := by
    have := view_bind (s.alloc (.info i)).2 (k := .cli u c) hk hr
    rw [view_alloc hi.wf.valid] at this; exact this
  obtain ⟨s2, r, ui', he, hw2, hv2, hfrom, hkept⟩ := addSub_spec hw1 (k := .usr u) hku
    (by rw [hv1]; intro r o h; exact hi.links.typedU u r o (by simpa [upd] using h)) true c
  have : r = ru ∧ ui' = ui := by
    rw [hv1] at hfrom
    rcases hfrom with h | ⟨h, _⟩
    · simp [upd, hu] at h; exact ⟨h.1.symm, h.2.symm⟩
    · simp [upd, hu] at h
  obtain ⟨rfl, rfl⟩ := this
  refine ⟨s2, ?_, ⟨hw2, ?_⟩, ((GrantsKept.alloc _ _).trans (GrantsKept.bind _ _ _)).trans hkept, ?_⟩
  · rw [dbSet_cli hk.2.2]; exact he
  · rw [hv2, hv1]
    exact vinv_addClient hi.links hu hn _ i hsub _ (fun x => mem_addS c x _)
  · rw [hv2, hv1]

theorem ensureClient_spec {U : String → Prop} {s : Store} (hi : DbInv U s) {u c : String}
    (hk : (SKey.cli u c).Good U) {ru : Nat} {ui : SInfo} (hu : view U s (.usr u) = some (ru, .info ui)) :
    ∃ s' rc ci, ensureClient u c s = (.ok (), s') ∧ DbInv U s' ∧ GrantsKept s s' ∧
      view U s' = upd (upd (view U s) (.cli u c) (some (rc, .info ci)))
        (.usr u) (some (ru, .info { ui with subordinate := addS c ui.subordinate })) ∧
      (view U s (.cli u c) = some (rc, .info ci) ∨
        (view U s (.cli u c) = none ∧ ci = { isUser := false, ident := c })) := by
  unfold ensureClient
  cases hv : view U s (.cli u c) with
  | none =>
    have hg := dbGet_cli_error hi hk hu hv
    simp only [hg, reduceCtorEq, false_or, or_true, if_true]
    obtain ⟨s', he, h1, h2, h3⟩ := inv_newClient hi hk hu hv { isUser := false, ident := c } rfl
    exact ⟨s', _, _, he, h1, h2, h3, by simp⟩
  | some p =>
    obtain ⟨r, o⟩ := p
    obtain ⟨i, rfl⟩ := hi.links.typedC _ _ _ _ hv
    have hg : dbGet ⟨u, some c, none⟩ s = .ok r := (dbGet_iff hi hk r).2 ⟨_, hv⟩
    simp only [hg]
    obtain ⟨r', i', h, hm⟩ := hi.links.up1 _ _ _ hv
    rw [hu] at h; cases h
    refine ⟨s, r, i, rfl, hi, GrantsKept.refl s, ?_, .inl rfl⟩
    have e : ({ ui with subordinate := addS c ui.subordinate } : SInfo) = ui := by simp [addS, hm]
    rw [e, upd_same _ _ _ hv, upd_same _ _ _ hu]

/-- What a write for the session (u, c, g) leaves untouched. -/
structure Outside (V V' : SKey → Option (Nat × Obj)) (u c g : String) : Prop where
  other : ∀ k, k ≠ .usr u → k ≠ .cli u c → k ≠ .gra u c g → V' k = V k
  usr : ∀ r i, V (.usr u) = some (r, .info i) → V' (.usr u) = some (r, .info { i with subordinate := addS c i.subordinate })
  cli : ∀ r i, V (.cli u c) = some (r, .info i) → V' (.cli u c) = some (r, .info { i with subordinate := addS g i.subordinate })
  usrNew : V (.usr u) = none → ∃ r i, V' (.usr u) = some (r, .info i) ∧ i.subordinate = [c]
  cliNew : V (.cli u c) = none → ∃ r i, V' (.cli u c) = some (r, .info i) ∧ i.subordinate = [g]

theorem addS_addS (x : String) (l : List String) : addS x (addS x l) = addS x l := by
  have : x ∈ addS x l := by rw [mem_addS]; exact .inr rfl
  unfold addS at this ⊢
  split <;> simp_all

theorem SetGrant.outside {U : String → Prop} {s s' : Store} {u c g : String} {rv : Nat} {gr : Grant}
    (h : SetGrant U s s' u c g rv gr) : Outside (OidcOp.view U s) (OidcOp.view U s') u c g := by
  obtain ⟨rc, ci, ru, ui, hfc, hfu, hv⟩ := h.view
  rw [hv]
  refine ⟨fun k h1 h2 h3 => by simp [upd, h1, h2, h3], ?_, ?_, ?_, ?_⟩
  · intro r i hx
    rcases hfu with h' | ⟨h', _⟩
    · rw [hx] at h'; cases h'; simp
    · rw [hx] at h'; cases h'
  · intro r i hx
    rcases hfc with h' | ⟨h', _⟩
    · rw [hx] at h'; cases h'; simp [upd]
    · rw [hx] at h'; cases h'
  · intro hx
    rcases hfu with h' | ⟨_, h', _⟩
    · rw [hx] at h'; cases h'
    · subst h'; exact ⟨ru, _, upd_self _ _ _, by simp [addS]⟩
  · intro hx
    rcases hfc with h' | ⟨_, h', _⟩
    · rw [hx] at h'; cases h'
    · subst h'; exact ⟨rc, { isUser := false, subordinate := addS g [] }, by simp [upd], by simp [addS]⟩

theorem createGrant_spec {U : String → Prop} {s : Store} (hi : DbInv U s) {u c : String} {g : Grant}
    (hk : (SKey.gra u c g.id).Good U) :
    ∃ s', createGrant u c g s = (.ok s.heap.length, s') ∧
      SetGrant U (s.alloc (.grant g)).2 s' u c g.id s.heap.length g := by
  have hi1 : DbInv U (s.alloc (.grant g)).2 := ⟨hi.wf.alloc _, by rw [view_alloc hi.wf.valid]; exact hi.links⟩
  have hr : (s.alloc (.grant g)).2.heap[s.heap.length]? = some (.grant g) := by simp [Store.alloc]
  obtain ⟨s', he, hs⟩ := dbSet_grant hi1 hk hr (by rw [view_alloc hi.wf.valid]; exact freeFor_new s _)
  refine ⟨s', ?_, hs⟩
  unfold createGrant
  show (match dbSet ⟨u, some c, some g.id⟩ s.heap.length (s.alloc (.grant g)).2 with
    | (.ok _, s2) => (Except.ok s.heap.length, s2)
    | (.error e, s2) => (.error e, s2)) = _
  rw [he]

theorem createGrant_outside {U : String → Prop} {s : Store} (hi : DbInv U s) {u c : String} {g : Grant}
    (hk : (SKey.gra u c g.id).Good U) :
    ∃ s', createGrant u c g s = (.ok s.heap.length, s') ∧ DbInv U s' ∧ GrantsKept s s' ∧
      Outside (view U s) (view U s') u c g.id ∧
      view U s' (.gra u c g.id) = some (s.heap.length, .grant g) := by
  obtain ⟨s', he, hs⟩ := createGrant_spec hi hk
  have hv := view_alloc (U := U) hi.wf.valid (.grant g)
  refine ⟨s', he, hs.inv, (GrantsKept.alloc _ _).trans hs.kept, ?_, ?_⟩
  · have := hs.outside; rw [hv] at this; exact this
  · obtain ⟨rc, ci, ru, ui, _, _, h⟩ := hs.view
    rw [h]; simp [upd]

theorem createSession_spec {U : String → Prop} {s : Store} (hi : DbInv U s) {u c : String} {g : Grant}
    (hk : (SKey.gra u c g.id).Good U) :
    ∃ s' r, createSession u c g s = (.ok r, s') ∧ DbInv U s' ∧ GrantsKept s s' ∧
      Outside (view U s) (view U s') u c g.id ∧
      view U s' (.gra u c g.id) = some (r, .grant g) ∧ s.heap.length ≤ r := by
  have hkc := good_cli_of_gra hk
  have hku := good_usr_of_cli hkc
  obtain ⟨s1, ru, ui, he1, hi1, hk1, hv1, hf1⟩ := ensureUser_spec hi hku
  obtain ⟨s2, rc, ci, he2, hi2, hk2, hv2, hf2⟩ := ensureClient_spec hi1 hkc (ru := ru) (ui := ui) (by rw [hv1]; simp)
  obtain ⟨s3, he3, hi3, hk3, ho, hg⟩ := createGrant_outside hi2 hk
  refine ⟨s3, _, ?_, hi3, (hk1.trans hk2).trans hk3, ?_, hg, Nat.le_trans hk1.1 hk2.1⟩
  · unfold createSession
    simp only [SE.bind_apply, he1, he2, he3]
  · refine ⟨?_, ?_, ?_, ?_, ?_⟩
    · intro k h1 h2 h3
      rw [ho.other k h1 h2 h3, hv2, hv1]; simp [upd, h1, h2]
    · intro r i h
      have e : ru = r ∧ ui = i := by
        rcases hf1 with h' | ⟨h', _⟩
        · rw [h] at h'; cases h'; exact ⟨rfl, rfl⟩
        · rw [h] at h'; cases h'
      obtain ⟨rfl, rfl⟩ := e
      rw [ho.usr ru { ui with subordinate := addS c ui.subordinate } (by rw [hv2]; simp)]
      simp [addS_addS]
    · intro r i h
      have e : rc = r ∧ ci = i := by
        rw [hv1] at hf2
        rcases hf2 with h' | ⟨h', _⟩
        · simp [upd, h] at h'; exact ⟨h'.1.symm, h'.2.symm⟩
        · simp [upd, h] at h'
      obtain ⟨rfl, rfl⟩ := e
      exact ho.cli rc ci (by rw [hv2]; simp [upd])
    · intro h
      have e : ui = { isUser := true, ident := u } := by
        rcases hf1 with h' | ⟨_, h'⟩
        · rw [h] at h'; cases h'
        · exact h'
      subst e
      exact ⟨_, _, ho.usr ru { isUser := true, ident := u, subordinate := addS c [] } (by rw [hv2]; simp),
        by simp [addS]⟩
    · intro h
      have e : ci = { isUser := false, ident := c } := by
        rw [hv1] at hf2
        rcases hf2 with h' | ⟨_, h'⟩
        · simp [upd, h] at h'
        · exact h'
      subst e
      exact ⟨_, _, ho.cli rc { isUser := false, ident := c } (by rw [hv2]; simp [upd]), by simp [addS]⟩

/-! ### Mutating records -/

theorem inv_put_grant {U : String → Prop} {s : Store} (hi : DbInv U s) {u c g : String} {r : Nat} {gr : Grant}
    (hv : view U s (.gra u c g) = some (r, .grant gr)) (gr' : Grant) :
    DbInv U (s.put r (.grant gr')) ∧
      view U (s.put r (.grant gr')) = upd (view U s) (.gra u c g) (some (r, .grant gr')) := by
  have h := view_put hi.wf.noalias hv (o := .grant gr')
  refine ⟨⟨hi.wf.put _ hv, ?_⟩, h⟩
  rw [h]
  exact vinv_replace hi.links hv (.inr ⟨_, _, rfl, rfl⟩)

theorem inv_put_info {U : String → Prop} {s : Store} (hi : DbInv U s) {k : SKey} {r : Nat} {i : SInfo}
    (hv : view U s k = some (r, .info i)) (i' : SInfo) (hs : ∀ x, x ∈ i'.subordinate ↔ x ∈ i.subordinate) :
    DbInv U (s.put r (.info i')) ∧
      view U (s.put r (.info i')) = upd (view U s) k (some (r, .info i')) := by
  have h := view_put hi.wf.noalias hv (o := .info i')
  refine ⟨⟨hi.wf.put _ hv, ?_⟩, h⟩
  rw [h]
  exact vinv_replace hi.links hv (.inl ⟨_, _, rfl, rfl, hs⟩)

/-- Storing a grant again under its own path changes nothing that can be read. -/
theorem dbSet_grant_same {U : String → Prop} {s : Store} (hi : DbInv U s) {u c g : String} {r : Nat} {gr : Grant}
    (hv : view U s (.gra u c g) = some (r, .grant gr)) :
    ∃ s', dbSet ⟨u, some c, some g⟩ r s = (.ok (), s') ∧ DbInv U s' ∧ view U s' = view U s ∧ GrantsKept s s' := by
  have hk := (view_some hv).1
  obtain ⟨s', he, hs⟩ := dbSet_grant hi hk (rv := r) (gr := gr) (view_some_obj hv)
    (fun k o h => hi.wf.noalias _ _ _ _ _ h hv)
  refine ⟨s', he, hs.inv, ?_, hs.kept⟩
  obtain ⟨rc, ci, ru, ui, hfc, hfu, h⟩ := hs.view
  obtain ⟨rc', ci', hc, hm⟩ := hi.links.up2 _ _ _ _ hv
  obtain ⟨ru', ui', hu, hm'⟩ := hi.links.up1 _ _ _ hc
  have e1 : rc = rc' ∧ ci = ci' := by
    rcases hfc with h' | ⟨h', _⟩ <;> rw [hc] at h' <;> cases h'
    exact ⟨rfl, rfl⟩
  have e2 : ru = ru' ∧ ui = ui' := by
    rcases hfu with h' | ⟨h', _⟩ <;> rw [hu] at h' <;> cases h'
    exact ⟨rfl, rfl⟩
  obtain ⟨rfl, rfl⟩ := e1
  obtain ⟨rfl, rfl⟩ := e2
  rw [h]
  have e3 : ({ ci with subordinate := addS g ci.subordinate } : SInfo) = ci := by simp [addS, hm]
  have e4 : ({ ui with subordinate := addS c ui.subordinate } : SInfo) = ui := by simp [addS, hm']
  rw [e3, e4, upd_same _ _ _ hv, upd_same _ _ _ hc, upd_same _ _ _ hu]

/-- Storing a client session again under its own path changes nothing that can be read. -/
theorem dbSet_cli_same {U : String → Prop} {s : Store} (hi : DbInv U s) {u c : String} {r : Nat} {ci : SInfo}
    (hv : view U s (.cli u c) = some (r, .info ci)) :
    ∃ s', dbSet ⟨u, some c, none⟩ r s = (.ok (), s') ∧ DbInv U s' ∧ view U s' = view U s ∧ GrantsKept s s' := by
  have hk := (view_some hv).1
  have hku := good_usr_of_cli hk
  have hr := view_some_obj hv
  have hv1 : view U (s.bind (key2 u c) r) = view U s := by
    have := view_bind s (k := .cli u c) hk hr
    rw [upd_same _ _ _ hv] at this; exact this
  have hi1 : DbInv U (s.bind (key2 u c) r) :=
    ⟨hi.wf.bind (k := .cli u c) hk hr (fun k o h => hi.wf.noalias _ _ _ _ _ h hv), by rw [hv1]; exact hi.links⟩
  obtain ⟨s2, ru, ui, he, hw2, hv2, hfrom, hkept⟩ := addSub_spec hi1.wf (k := .usr u) hku
    (by rw [hv1]; intro r o h; exact hi.links.typedU u r o h) true c
  obtain ⟨ru', ui', hu, hm'⟩ := hi.links.up1 _ _ _ hv
  rw [hv1] at hfrom hv2
  have e2 : ru = ru' ∧ ui = ui' := by
    rcases hfrom with h' | ⟨h', _⟩ <;> rw [hu] at h' <;> cases h'
    exact ⟨rfl, rfl⟩
  obtain ⟨rfl, rfl⟩ := e2
  have e4 : ({ ui with subordinate := addS c ui.subordinate } : SInfo) = ui := by simp [addS, hm']
  rw [e4, upd_same _ _ _ hu] at hv2
  refine ⟨s2, ?_, ⟨hw2, by rw [hv2]; exact hi.links⟩, hv2, (GrantsKept.bind _ _ _).trans hkept⟩
  rw [dbSet_cli hk.2.2]; exact he

theorem mutate_eq {s : Store} {r : Nat} {o : Obj} (h : s.obj r = some o) (f : Obj → Obj) :
    s.mutate r f = s.put r (f o) := by simp [Store.mutate, h]

theorem revokeGrant_spec {U : String → Prop} {s : Store} (hi : DbInv U s) {u c g : String} {r : Nat} {gr : Grant}
    (hv : view U s (.gra u c g) = some (r, .grant gr)) :
    ∃ s', revokeGrant ⟨u, some c, some g⟩ s = (.ok (), s') ∧ DbInv U s' ∧
      view U s' = upd (view U s) (.gra u c g) (some (r, .grant gr.revoke)) ∧ s.heap.length ≤ s'.heap.length := by
  have hk := (view_some hv).1
  have hg : dbGet ⟨u, some c, some g⟩ s = .ok r := (dbGet_iff hi hk r).2 ⟨_, hv⟩
  have hm := mutate_eq (view_some_obj hv) Obj.revoke
  have hp := inv_put_grant hi hv gr.revoke
  have hvp : view U (s.put r (.grant gr.revoke)) (.gra u c g) = some (r, .grant gr.revoke) := by rw [hp.2]; simp
  obtain ⟨s', he, hi', hv', hk'⟩ := dbSet_grant_same hp.1 hvp
  refine ⟨s', ?_, hi', by rw [hv', hp.2], ?_⟩
  · unfold revokeGrant
    simp only [hg, hm, Obj.revoke]; exact he
  · have := hk'.1; simpa [Store.put] using this

theorem obj_revoke_revoke (o : Obj) : o.revoke.revoke = o.revoke := by
  cases o <;> simp [Obj.revoke, Grant.revoke]

/-- The view with the listed grants of one client session revoked. -/
def revokedView (V : SKey → Option (Nat × Obj)) (u c : String) (gs : List String) (k : SKey) : Option (Nat × Obj) :=
  match k with
  | .gra u' c' g' => if u' = u ∧ c' = c ∧ g' ∈ gs then (V k).map (fun p => (p.1, p.2.revoke)) else V k
  | _ => V k

theorem revokeGrants_spec {U : String → Prop} {u c : String} (gs : List String) {s : Store} (hi : DbInv U s)
    (hall : ∀ g ∈ gs, ∃ x, view U s (.gra u c g) = some x) :
    ∃ s', revokeGrants u c gs s = (.ok (), s') ∧ DbInv U s' ∧ view U s' = revokedView (view U s) u c gs ∧
      s'.heap.length = s.heap.length := by
  induction gs generalizing s with
  | nil =>
    refine ⟨s, rfl, hi, ?_, rfl⟩
    funext k; cases k <;> simp [revokedView]
  | cons g gs ih =>
    obtain ⟨x, hx⟩ := hall g (by simp)
    obtain ⟨r, o⟩ := x
    obtain ⟨gr, rfl⟩ := hi.links.typedG _ _ _ _ _ hx
    have hk := (view_some hx).1
    have hg : dbGet ⟨u, some c, some g⟩ s = .ok r := (dbGet_iff hi hk r).2 ⟨_, hx⟩
    have hm := mutate_eq (view_some_obj hx) Obj.revoke
    have hp := inv_put_grant hi hx gr.revoke
    obtain ⟨s', he, hi', hv', hl⟩ := ih hp.1 (by
      intro g' hg'
      obtain ⟨y, hy⟩ := hall g' (by simp [hg'])
      rw [hp.2]
      by_cases e : SKey.gra u c g' = SKey.gra u c g
      · rw [e]; simp
      · rw [upd_ne _ _ e]; exact ⟨y, hy⟩)
    refine ⟨s', ?_, hi', ?_, by simpa [Store.put] using hl⟩
    · simp only [revokeGrants, hg, hm]; exact he
    · rw [hv', hp.2]
      funext k
      cases k with
      | usr _ => simp [revokedView, upd]
      | cli _ _ => simp [revokedView, upd]
      | gra u' c' g' =>
        simp only [revokedView, upd]
        by_cases e : SKey.gra u' c' g' = SKey.gra u c g
        · cases e
          by_cases h : g ∈ gs <;> simp [h, hx, Obj.revoke, Grant.revoke]
        · have : ¬ (u' = u ∧ c' = c ∧ g' = g) := by
            rintro ⟨rfl, rfl, rfl⟩; exact e rfl
          by_cases h : u' = u ∧ c' = c ∧ g' ∈ gs
          · have h' : u' = u ∧ c' = c ∧ g' ∈ g :: gs := ⟨h.1, h.2.1, by simp [h.2.2]⟩
            rw [if_pos h, if_pos h', if_neg e]
          · have h' : ¬ (u' = u ∧ c' = c ∧ g' ∈ g :: gs) := by
              rintro ⟨h1, h2, h3⟩
              rcases List.mem_cons.1 h3 with rfl | h3
              · exact this ⟨h1, h2, rfl⟩
              · exact h ⟨h1, h2, h3⟩
            rw [if_neg h, if_neg h', if_neg e]

theorem revokeClientSession_spec {U : String → Prop} {s : Store} (hi : DbInv U s) {u c : String} {r : Nat} {ci : SInfo}
    (hv : view U s (.cli u c) = some (r, .info ci)) :
    ∃ s', revokeClientSession u c s = (.ok (), s') ∧ DbInv U s' ∧
      view U s' = upd (revokedView (view U s) u c ci.subordinate) (.cli u c) (some (r, .info { ci with revoked := true })) ∧
      s.heap.length ≤ s'.heap.length := by
  have hk := (view_some hv).1
  have hg : dbGet ⟨u, some c, none⟩ s = .ok r := (dbGet_iff hi hk r).2 ⟨_, hv⟩
  have hobj := view_some_obj hv
  have hm := mutate_eq hobj Obj.revoke
  have hp := inv_put_info hi hv { ci with revoked := true } (fun x => Iff.rfl)
  have hvp : view U (s.put r (.info { ci with revoked := true })) (.cli u c) =
      some (r, .info { ci with revoked := true }) := by rw [hp.2]; simp
  obtain ⟨s2, he2, hi2, hv2, hk2⟩ := dbSet_cli_same hp.1 hvp
  obtain ⟨s3, he3, hi3, hv3, hl3⟩ := revokeGrants_spec ci.subordinate hi2 (u := u) (c := c) (by
    intro g hg
    obtain ⟨x, hx⟩ := hi.links.down2 _ _ _ _ _ hv hg
    rw [hv2, hp.2, upd_ne _ _ (by simp)]; exact ⟨x, hx⟩)
  refine ⟨s3, ?_, hi3, ?_, ?_⟩
  · unfold revokeClientSession
    simp only [hg, hobj, hm, Obj.revoke, he2]; exact he3
  · rw [hv3, hv2, hp.2]
    funext k
    cases k with
    | usr _ => simp [revokedView, upd]
    | cli u' c' => simp [revokedView, upd]
    | gra u' c' g' => simp [revokedView, upd]
  · have := hk2.1; rw [hl3]; simpa [Store.put] using this

theorem addGrant_spec {U : String → Prop} {s : Store} (hi : DbInv U s) {u c : String} {g : Grant}
    (hk : (SKey.gra u c g.id).Good U) :
    ∃ s', addGrant u c g s = (.ok s.heap.length, s') ∧ DbInv U s' ∧ GrantsKept s s' ∧
      view U s' (.gra u c g.id) = some (s.heap.length, .grant g) ∧
      (∀ k, k ≠ .usr u → k ≠ .cli u c → k ≠ .gra u c g.id → view U s' k = view U s k) ∧
      (∀ r i, view U s (.usr u) = some (r, .info i) →
        view U s' (.usr u) = some (r, .info { i with subordinate := addS c i.subordinate })) ∧
      (∃ r i, FromV (view U s) s.heap.length (.cli u c) false r i ∧
        view U s' (.cli u c) = some (r, .info { i with subordinate := addS g.id i.subordinate ++ [g.id] })) ∧
      (∃ r i, FromV (view U s) s.heap.length (.usr u) true r i ∧
        view U s' (.usr u) = some (r, .info { i with subordinate := addS c i.subordinate })) := by
  have hkc := good_cli_of_gra hk
  have hi1 : DbInv U (s.alloc (.grant g)).2 := ⟨hi.wf.alloc _, by rw [view_alloc hi.wf.valid]; exact hi.links⟩
  have hr : (s.alloc (.grant g)).2.heap[s.heap.length]? = some (.grant g) := by simp [Store.alloc]
  obtain ⟨s2, he2, hs⟩ := dbSet_grant hi1 hk hr (by rw [view_alloc hi.wf.valid]; exact freeFor_new s _)
  obtain ⟨rc, ci, ru, ui, hfc, hfu, hv2⟩ := hs.view
  rw [view_alloc hi.wf.valid] at hfc hfu hv2
  have hc2 : view U s2 (.cli u c) = some (rc, .info { ci with subordinate := addS g.id ci.subordinate }) := by
    rw [hv2]; simp [upd]
  have hget : dbGet ⟨u, some c, none⟩ s2 = .ok rc := (dbGet_iff hs.inv hkc rc).2 ⟨_, hc2⟩
  have hobj := view_some_obj hc2
  have hp := inv_put_info hs.inv hc2 { ci with subordinate := addS g.id ci.subordinate ++ [g.id] } (by
    intro x; simp only [List.mem_append, List.mem_singleton, mem_addS]
    constructor
    · rintro (h | h)
      · exact h
      · exact .inr h
    · exact .inl)
  have hvp : view U (s2.put rc (.info { ci with subordinate := addS g.id ci.subordinate ++ [g.id] })) (.cli u c) =
      some (rc, .info { ci with subordinate := addS g.id ci.subordinate ++ [g.id] }) := by rw [hp.2]; simp
  obtain ⟨s4, he4, hi4, hv4, hk4⟩ := dbSet_cli_same hp.1 hvp
  have hfc' : FromV (view U s) s.heap.length (.cli u c) false rc ci := by
    rcases hfc with h | ⟨h1, h2, h3⟩
    · exact .inl h
    · refine .inr ⟨h1, h2, ?_⟩
      simp [Store.alloc] at h3; omega
  have hfu' : FromV (view U s) s.heap.length (.usr u) true ru ui := by
    rcases hfu with h | ⟨h1, h2, h3⟩
    · exact .inl h
    · refine .inr ⟨h1, h2, ?_⟩
      simp [Store.alloc] at h3; omega
  refine ⟨s4, ?_, hi4, ((GrantsKept.alloc s (.grant g)).trans hs.kept).trans ((GrantsKept.put hobj _).trans hk4), ?_, ?_, ?_,
    ⟨rc, ci, hfc', ?_⟩, ⟨ru, ui, hfu', ?_⟩⟩
  · unfold addGrant
    show (match dbSet ⟨u, some c, some g.id⟩ s.heap.length (s.alloc (.grant g)).2 with
      | (.error e, s2) => _ | (.ok _, s2) => _) = _
    rw [he2]
    simp only [hget, hobj, he4]
  · rw [hv4, hp.2, hv2]; simp [upd]
  · intro k h1 h2 h3
    rw [hv4, hp.2, hv2]; simp [upd, h1, h2, h3]
  · intro r i h
    rw [hv4, hp.2, hv2]
    rcases hfu with h' | ⟨h', _⟩ <;> rw [h] at h' <;> cases h'
    simp [upd]
  · rw [hv4, hp.2]; simp
  · rw [hv4, hp.2, hv2]; simp [upd]

theorem foreign_of {U : String → Prop} {x : String} (hx : ';' ∉ x.toList) (hU : ¬ U x) : Foreign U x :=
  fun _ hk => skey_str_ne_of_clean hk hx hU

theorem aliasSid_spec {U : String → Prop} {s : Store} (hi : DbInv U s) {sid : String} (hf : Foreign U sid)
    {r : Nat} (hr : r < s.heap.length) :
    ∃ s', aliasSid sid r s = (.ok (), s') ∧ DbInv U s' ∧ view U s' = view U s ∧ GrantsKept s s' := by
  refine ⟨s.bind sid r, rfl, ⟨hi.wf.bind_foreign hf hr, ?_⟩, view_bind_foreign s hf r, GrantsKept.bind _ _ _⟩
  rw [view_bind_foreign s hf r]; exact hi.links

/-! ### Removing -/

theorem vinv_delGrant {V : SKey → Option (Nat × Obj)} (h : VInv V) {u c g : String} {rc : Nat} {ci : SInfo}
    (hc : V (.cli u c) = some (rc, .info ci)) (ci' : SInfo)
    (hsub : ∀ x, x ∈ ci'.subordinate ↔ x ∈ ci.subordinate ∧ x ≠ g) :
    VInv (upd (upd V (.gra u c g) none) (.cli u c) (some (rc, .info ci'))) := by
  constructor
  · intro u' r o h'
    simp [upd] at h'; exact h.typedU _ _ _ h'
  · intro u' c' r o h'
    simp only [upd] at h'
    split at h'
    · cases h'; exact ⟨_, rfl⟩
    · simp at h'; exact h.typedC _ _ _ _ h'
  · intro u' c' g' r o h'
    simp only [upd, reduceCtorEq, if_false] at h'
    split at h'
    · cases h'
    · exact h.typedG _ _ _ _ _ h'
  · intro u' r i c' h' hm
    simp [upd] at h'
    obtain ⟨x, hx⟩ := h.down1 _ _ _ _ h' hm
    simp only [upd]
    split
    · exact ⟨_, rfl⟩
    · simp [hx]
  · intro u' c' r i g' h' hm
    simp only [upd] at h'
    simp only [upd, reduceCtorEq, if_false]
    split at h'
    · rename_i he
      cases he; cases h'
      obtain ⟨hm1, hm2⟩ := (hsub g').1 hm
      obtain ⟨x, hx⟩ := h.down2 _ _ _ _ _ hc hm1
      have : SKey.gra u c g' ≠ SKey.gra u c g := by intro e; cases e; exact hm2 rfl
      rw [if_neg this]; exact ⟨x, hx⟩
    · rename_i hne
      simp at h'
      obtain ⟨x, hx⟩ := h.down2 _ _ _ _ _ h' hm
      have : SKey.gra u' c' g' ≠ SKey.gra u c g := by intro e; cases e; exact hne rfl
      rw [if_neg this]; exact ⟨x, hx⟩
  · intro u' c' x h'
    have : ∃ y, V (.cli u' c') = some y := by
      simp only [upd] at h'
      split at h'
      · rename_i he; cases he; exact ⟨_, hc⟩
      · simp at h'; exact ⟨_, h'⟩
    obtain ⟨y, hy⟩ := this
    obtain ⟨r, i, hr, hi⟩ := h.up1 _ _ _ hy
    exact ⟨r, i, by simpa [upd] using hr, hi⟩
  · intro u' c' g' x h'
    simp only [upd, reduceCtorEq, if_false] at h'
    simp only [upd]
    split at h'
    · cases h'
    · rename_i hne
      obtain ⟨r, i, hr, hi⟩ := h.up2 _ _ _ _ h'
      by_cases he : SKey.cli u' c' = SKey.cli u c
      · simp only [he, if_true]
        cases he
        rw [hc] at hr; cases hr
        exact ⟨rc, ci', rfl, (hsub g').2 ⟨hi, fun e => hne (by rw [e])⟩⟩
      · simp only [he, if_false]
        exact ⟨r, i, by simpa using hr, hi⟩

theorem vinv_delClient {V : SKey → Option (Nat × Obj)} (h : VInv V) {u c : String} {ru : Nat} {ui : SInfo}
    (hu : V (.usr u) = some (ru, .info ui)) {rc : Nat} {ci : SInfo}
    (hc : V (.cli u c) = some (rc, .info ci)) (hci : ci.subordinate = []) (ui' : SInfo)
    (hsub : ∀ x, x ∈ ui'.subordinate ↔ x ∈ ui.subordinate ∧ x ≠ c) :
    VInv (upd (upd V (.cli u c) none) (.usr u) (some (ru, .info ui'))) := by
  constructor
  · intro u' r o h'
    simp only [upd] at h'
    split at h'
    · cases h'; exact ⟨_, rfl⟩
    · simp at h'; exact h.typedU _ _ _ h'
  · intro u' c' r o h'
    simp only [upd, reduceCtorEq, if_false] at h'
    split at h'
    · cases h'
    · exact h.typedC _ _ _ _ h'
  · intro u' c' g' r o h'
    simp [upd] at h'; exact h.typedG _ _ _ _ _ h'
  · intro u' r i c' h' hm
    simp only [upd] at h'
    simp only [upd, reduceCtorEq, if_false]
    split at h'
    · rename_i he
      cases he; cases h'
      obtain ⟨hm1, hm2⟩ := (hsub c').1 hm
      obtain ⟨x, hx⟩ := h.down1 _ _ _ _ hu hm1
      have : SKey.cli u c' ≠ SKey.cli u c := by intro e; cases e; exact hm2 rfl
      rw [if_neg this]; exact ⟨x, hx⟩
    · rename_i hne
      simp at h'
      obtain ⟨x, hx⟩ := h.down1 _ _ _ _ h' hm
      have : SKey.cli u' c' ≠ SKey.cli u c := by intro e; cases e; exact hne rfl
      rw [if_neg this]; exact ⟨x, hx⟩
  · intro u' c' r i g' h' hm
    simp only [upd, reduceCtorEq, if_false] at h'
    split at h'
    · cases h'
    · obtain ⟨x, hx⟩ := h.down2 _ _ _ _ _ h' hm
      exact ⟨x, by simpa [upd] using hx⟩
  · intro u' c' x h'
    simp only [upd, reduceCtorEq, if_false] at h'
    simp only [upd]
    split at h'
    · cases h'
    · rename_i hne
      obtain ⟨r, i, hr, hi⟩ := h.up1 _ _ _ h'
      by_cases he : SKey.usr u' = SKey.usr u
      · simp only [he, if_true]
        cases he
        rw [hu] at hr; cases hr
        exact ⟨ru, ui', rfl, (hsub c').2 ⟨hi, fun e => hne (by rw [e])⟩⟩
      · simp only [he, if_false]
        exact ⟨r, i, by simpa using hr, hi⟩
  · intro u' c' g' x h'
    simp [upd] at h'
    obtain ⟨r, i, hr, hi⟩ := h.up2 _ _ _ _ h'
    refine ⟨r, i, ?_, hi⟩
    have : SKey.cli u' c' ≠ SKey.cli u c := by
      intro e; cases e; rw [hc] at hr; cases hr; rw [hci] at hi; cases hi
    simp [upd, this, hr]

theorem vinv_delUser {V : SKey → Option (Nat × Obj)} (h : VInv V) {u : String} {ru : Nat} {ui : SInfo}
    (hu : V (.usr u) = some (ru, .info ui)) (hui : ui.subordinate = []) :
    VInv (upd V (.usr u) none) := by
  constructor
  · intro u' r o h'
    simp only [upd] at h'
    split at h'
    · cases h'
    · exact h.typedU _ _ _ h'
  · intro u' c' r o h'
    simp [upd] at h'; exact h.typedC _ _ _ _ h'
  · intro u' c' g' r o h'
    simp [upd] at h'; exact h.typedG _ _ _ _ _ h'
  · intro u' r i c' h' hm
    simp only [upd] at h'
    split at h'
    · cases h'
    · obtain ⟨x, hx⟩ := h.down1 _ _ _ _ h' hm
      exact ⟨x, by simpa [upd] using hx⟩
  · intro u' c' r i g' h' hm
    simp [upd] at h'
    obtain ⟨x, hx⟩ := h.down2 _ _ _ _ _ h' hm
    exact ⟨x, by simpa [upd] using hx⟩
  · intro u' c' x h'
    simp [upd] at h'
    obtain ⟨r, i, hr, hi⟩ := h.up1 _ _ _ h'
    refine ⟨r, i, ?_, hi⟩
    have : SKey.usr u' ≠ SKey.usr u := by
      intro e; cases e; rw [hu] at hr; cases hr; rw [hui] at hi; cases hi
    simp [upd, this, hr]
  · intro u' c' g' x h'
    simp [upd] at h'
    obtain ⟨r, i, hr, hi⟩ := h.up2 _ _ _ _ h'
    exact ⟨r, i, by simpa [upd] using hr, hi⟩


theorem mem_erase_of {x g : String} {l : List String} (h : g ∉ l.erase g) : x ∈ l.erase g ↔ x ∈ l ∧ x ≠ g := by
  constructor
  · intro hx
    refine ⟨List.mem_of_mem_erase hx, ?_⟩
    rintro rfl; exact h hx
  · rintro ⟨hx, hne⟩
    exact (List.mem_erase_of_ne hne).2 hx

/-- The records after `remove_session` of an existing client session. -/
def removedView (V : SKey → Option (Nat × Obj)) (u c g : String) (ru : Nat) (ui : SInfo) (rc : Nat) (ci : SInfo) :
    SKey → Option (Nat × Obj) :=
  let V1 := upd V (.gra u c g) none
  if (ci.subordinate.erase g).isEmpty then
    let V2 := upd V1 (.cli u c) none
    if (ui.subordinate.erase c).isEmpty then upd V2 (.usr u) none
    else upd V2 (.usr u) (some (ru, .info { ui with subordinate := ui.subordinate.erase c }))
  else upd V1 (.cli u c) (some (rc, .info { ci with subordinate := ci.subordinate.erase g }))

theorem upd_upd {β : Type} (V : SKey → β) (k : SKey) (x y : β) : upd (upd V k x) k y = upd V k y := by
  funext k'; unfold upd; split <;> rfl

theorem upd_comm {β : Type} (V : SKey → β) {k k' : SKey} (h : k ≠ k') (x y : β) :
    upd (upd V k x) k' y = upd (upd V k' y) k x := by
  funext k''; unfold upd
  by_cases h1 : k'' = k
  · by_cases h2 : k'' = k'
    · exact absurd (h1.symm.trans h2) h
    · simp [h1, h]
  · simp [h1]

theorem removeSession_none {U : String → Prop} {s : Store} (hi : DbInv U s) {u c g : String}
    (hk : (SKey.gra u c g).Good U) (hf : Foreign U c) (hn : view U s (.cli u c) = none) :
    ∃ res s', removeSession u c g s = (res, s') ∧ DbInv U s' ∧ view U s' = view U s ∧ GrantsKept s s' := by
  have hkc := good_cli_of_gra hk
  have hku := good_usr_of_cli hkc
  have h1 : s.lookup u = view U s (.usr u) := (view_good s hku).symm
  unfold removeSession dbDelete
  simp only [h1, clean_truthy hk.2.2.1]
  cases hu : view U s (.usr u) with
  | none => exact ⟨_, s, rfl, hi, rfl, GrantsKept.refl s⟩
  | some p =>
    obtain ⟨ru, o⟩ := p
    obtain ⟨ui, rfl⟩ := hi.links.typedU _ _ _ hu
    have hm : c ∉ ui.subordinate := by
      intro h
      obtain ⟨x, hx⟩ := hi.links.down1 _ _ _ _ hu h
      rw [hn] at hx; cases hx
    simp only [hm, not_false_eq_true, if_true]
    by_cases hh : s.db.has c
    · simp only [hh, if_true]
      refine ⟨_, _, rfl, ⟨hi.wf.unbind_foreign hf, ?_⟩, view_unbind_foreign s hf, GrantsKept.unbind _ _⟩
      rw [view_unbind_foreign s hf]; exact hi.links
    · simp only [hh]
      exact ⟨_, _, rfl, hi, rfl, GrantsKept.refl s⟩

theorem removeSession_some {U : String → Prop} {s : Store} (hi : DbInv U s) {u c g : String}
    (hk : (SKey.gra u c g).Good U) (hf : Foreign U c) {ru rc : Nat} {ui ci : SInfo}
    (hu : view U s (.usr u) = some (ru, .info ui)) (hc : view U s (.cli u c) = some (rc, .info ci))
    (hg1 : g ∉ ci.subordinate.erase g) (hc1 : c ∉ ui.subordinate.erase c) :
    ∃ s', removeSession u c g s = (.ok (), s') ∧ DbInv U s' ∧
      view U s' = removedView (view U s) u c g ru ui rc ci ∧ GrantsKept s s' := by
  have hkc := good_cli_of_gra hk
  have hku := good_usr_of_cli hkc
  have h1 : s.lookup u = view U s (.usr u) := (view_good s hku).symm
  have h2 : s.lookup (key2 u c) = view U s (.cli u c) := (view_good s hkc).symm
  have hm : c ∈ ui.subordinate := by
    obtain ⟨r, i, h, hm⟩ := hi.links.up1 _ _ _ hc
    rw [hu] at h; cases h; exact hm
  unfold removeSession dbDelete
  simp only [h1, h2, hu, hc, clean_truthy hk.2.2.1, clean_truthy hk.2.2.2.1, hm, not_true_eq_false, if_false]
  -- the grant and the client's list
  have hrc := view_some_obj hc
  have hru := view_some_obj hu
  have hne : ru ≠ rc := by
    intro e; subst e
    have := hi.wf.noalias _ _ _ _ _ hu hc
    cases this
  have hw1 : WF U (s.unbind (key3 u c g)) := hi.wf.unbind (k := .gra u c g) hk
  have hv1 : view U (s.unbind (key3 u c g)) = upd (view U s) (.gra u c g) none := view_unbind s (k := .gra u c g) hk
  have hc1' : view U (s.unbind (key3 u c g)) (.cli u c) = some (rc, .info ci) := by rw [hv1]; simp [upd, hc]
  have hv2 := view_put hw1.noalias hc1' (o := .info { ci with subordinate := ci.subordinate.erase g })
  have hw2 := hw1.put (.info { ci with subordinate := ci.subordinate.erase g }) hc1'
  have hvi2 : VInv (view U ((s.unbind (key3 u c g)).put rc (.info { ci with subordinate := ci.subordinate.erase g }))) := by
    rw [hv2, hv1]
    exact vinv_delGrant hi.links hc _ (fun x => mem_erase_of hg1)
  have hkept2 : GrantsKept s ((s.unbind (key3 u c g)).put rc (.info { ci with subordinate := ci.subordinate.erase g })) :=
    (GrantsKept.unbind s _).trans (GrantsKept.put (s := s.unbind (key3 u c g)) hrc _)
  generalize hs2 : (s.unbind (key3 u c g)).put rc (.info { ci with subordinate := ci.subordinate.erase g }) = s2 at *
  have hu2 : view U s2 (.usr u) = some (ru, .info ui) := by rw [hv2, hv1]; simp [upd, hu]
  have hru2 := view_some_obj hu2
  have hc2 : view U s2 (.cli u c) = some (rc, .info { ci with subordinate := ci.subordinate.erase g }) := by
    rw [hv2]; simp
  unfold deleteClient removedView
  simp only [removeFirst, hs2]
  by_cases he : (ci.subordinate.erase g).isEmpty
  · simp only [he, if_true]
    -- the client session goes
    have hw3 : WF U (s2.unbind (key2 u c)) := hw2.unbind (k := .cli u c) hkc
    have hv3 : view U (s2.unbind (key2 u c)) = upd (view U s2) (.cli u c) none := view_unbind s2 (k := .cli u c) hkc
    have hu3 : view U (s2.unbind (key2 u c)) (.usr u) = some (ru, .info ui) := by rw [hv3]; simp [upd, hu2]
    have hv4 := view_put hw3.noalias hu3 (o := .info { ui with subordinate := ui.subordinate.erase c })
    have hw4 := hw3.put (.info { ui with subordinate := ui.subordinate.erase c }) hu3
    have hvi4 : VInv (view U ((s2.unbind (key2 u c)).put ru (.info { ui with subordinate := ui.subordinate.erase c }))) := by
      rw [hv4, hv3]
      exact vinv_delClient hvi2 hu2 hc2 (by simpa using he) _ (fun x => mem_erase_of hc1)
    have hkept4 : GrantsKept s ((s2.unbind (key2 u c)).put ru (.info { ui with subordinate := ui.subordinate.erase c })) :=
      hkept2.trans ((GrantsKept.unbind s2 _).trans (GrantsKept.put (s := s2.unbind (key2 u c)) hru2 _))
    have hlt : ru < s2.heap.length := view_lt hu2
    generalize hs4 : (s2.unbind (key2 u c)).put ru (.info { ui with subordinate := ui.subordinate.erase c }) = s4 at *
    have hobj4 : s4.obj ru = some (.info { ui with subordinate := ui.subordinate.erase c }) := by
      rw [← hs4]; simp [Store.obj, Store.put, Store.unbind, hlt]
    have hu4 : view U s4 (.usr u) = some (ru, .info { ui with subordinate := ui.subordinate.erase c }) := by
      rw [hv4]; simp
    have hvfin : view U s4 = upd (upd (upd (view U s) (.gra u c g) none) (.cli u c) none) (.usr u)
        (some (ru, .info { ui with subordinate := ui.subordinate.erase c })) := by
      rw [hv4, hv3, hv2, hv1, upd_upd]
    unfold deleteUserIfEmpty
    simp only [hobj4]
    by_cases he' : (ui.subordinate.erase c).isEmpty
    · simp only [he', if_true]
      have hv5 : view U (s4.unbind u) = upd (view U s4) (.usr u) none := view_unbind s4 (k := .usr u) hku
      refine ⟨_, rfl, ⟨hw4.unbind (k := .usr u) hku, ?_⟩, ?_, hkept4.trans (GrantsKept.unbind _ _)⟩
      · rw [hv5]; exact vinv_delUser hvi4 hu4 (by simpa using he')
      · rw [hv5, hvfin, upd_upd]
    · simp only [he']
      have hv5 : view U (s4.bind u ru) = view U s4 := by
        have := view_bind s4 (k := .usr u) hku hobj4
        rw [upd_same _ _ _ hu4] at this; exact this
      refine ⟨_, rfl, ⟨hw4.bind (k := .usr u) hku hobj4 (fun k o h => hw4.noalias _ _ _ _ _ h hu4), ?_⟩, ?_,
        hkept4.trans (GrantsKept.bind _ _ _)⟩
      · rw [hv5]; exact hvi4
      · rw [hv5, hvfin]; rfl
  · simp only [he]
    have hlt : rc < s2.heap.length := view_lt hc2
    have hw3 : WF U (s2.bind c rc) := hw2.bind_foreign hf hlt
    have hv3 : view U (s2.bind c rc) = view U s2 := view_bind_foreign s2 hf rc
    have hu3 : view U (s2.bind c rc) (.usr u) = some (ru, .info ui) := by rw [hv3]; exact hu2
    have hobj3 : (s2.bind c rc).obj ru = some (.info ui) := view_some_obj hu3
    have hnempty : ui.subordinate.isEmpty = false := by
      cases hx : ui.subordinate with
      | nil => rw [hx] at hm; cases hm
      | cons => rfl
    unfold deleteUserIfEmpty
    simp only [Bool.false_eq_true, if_false, hobj3, hnempty]
    have hv5 : view U ((s2.bind c rc).bind u ru) = view U s2 := by
      have := view_bind (s2.bind c rc) (k := .usr u) hku hobj3
      rw [upd_same _ _ _ hu3, hv3] at this; exact this
    refine ⟨_, rfl, ⟨hw3.bind (k := .usr u) hku hobj3 (fun k o h => hw3.noalias _ _ _ _ _ h hu3), ?_⟩, ?_,
      hkept2.trans ((GrantsKept.bind _ _ _).trans (GrantsKept.bind _ _ _))⟩
    · rw [hv5]; exact hvi2
    · rw [hv5, hv2, hv1]


/-! ### Histories -/

theorem count_addS_le {x y : String} {l : List String} (h : l.count y ≤ 1) : (addS x l).count y ≤ 1 := by
  unfold addS; split
  · exact h
  · rename_i hx
    by_cases e : x = y
    · subst e; simp [List.count_append, List.count_eq_zero_of_not_mem hx]
    · simp [List.count_append, e]; exact h

theorem count_erase_le {x y : String} {l : List String} (h : l.count y ≤ 1) : (l.erase x).count y ≤ 1 := by
  have := (List.erase_sublist (a := x) (l := l)).count_le y
  omega

theorem not_mem_erase_of_count {y : String} {l : List String} (h : l.count y ≤ 1) : y ∉ l.erase y := by
  intro hm
  have h1 := List.count_erase_self (a := y) (l := l)
  have h2 := List.count_pos_iff.2 hm
  omega

/-- Every user lists a client once; every client lists a grant once, except those in `A`. -/
structure Once (A : String → Prop) (V : SKey → Option (Nat × Obj)) : Prop where
  usr : ∀ u r i c, V (.usr u) = some (r, .info i) → i.subordinate.count c ≤ 1
  cli : ∀ u c r i g, V (.cli u c) = some (r, .info i) → ¬ A g → i.subordinate.count g ≤ 1

structure HInv (U A : String → Prop) (s : Store) : Prop where
  inv : DbInv U s
  once : Once A (view U s)

theorem once_outside {A : String → Prop} {V V' : SKey → Option (Nat × Obj)} {u c g : String} (h : Once A V) (hv : VInv V)
    (ho : Outside V V' u c g) : Once A V' := by
  constructor
  · intro u' r i x hx
    by_cases e : u' = u
    · subst e
      cases hu : V (.usr u') with
      | none =>
        obtain ⟨r', i', h', hs⟩ := ho.usrNew hu
        rw [hx] at h'; cases h'; rw [hs]; by_cases hc : c = x <;> simp [hc]
      | some p =>
        obtain ⟨r', o⟩ := p
        obtain ⟨i', rfl⟩ := hv.typedU _ _ _ hu
        rw [ho.usr _ _ hu] at hx; cases hx
        exact count_addS_le (h.usr _ _ _ _ hu)
    · rw [ho.other _ (by simp [e]) (by simp) (by simp)] at hx
      exact h.usr _ _ _ _ hx
  · intro u' c' r i x hx hA
    by_cases e : u' = u ∧ c' = c
    · obtain ⟨rfl, rfl⟩ := e
      cases hc : V (.cli u' c') with
      | none =>
        obtain ⟨r', i', h', hs⟩ := ho.cliNew hc
        rw [hx] at h'; cases h'; rw [hs]; by_cases hc : g = x <;> simp [hc]
      | some p =>
        obtain ⟨r', o⟩ := p
        obtain ⟨i', rfl⟩ := hv.typedC _ _ _ _ hc
        rw [ho.cli _ _ hc] at hx; cases hx
        exact count_addS_le (h.cli _ _ _ _ _ hc hA)
    · rw [ho.other _ (by simp) (by simpa using e) (by simp)] at hx
      exact h.cli _ _ _ _ _ hx hA

theorem inv_empty (U : String → Prop) : DbInv U {} := by
  have hv : view U {} = fun _ => none := by
    funext k; unfold view; split <;> rfl
  refine ⟨⟨fun k r h => (by cases h), ?_⟩, ?_⟩
  · rw [hv]; intro _ _ _ _ _ h; cases h
  · rw [hv]; constructor <;> intros <;> contradiction

theorem once_empty (U A : String → Prop) : Once A (view U {}) := by
  have hv : view U {} = fun _ => none := by
    funext k; unfold view; split <;> rfl
  rw [hv]; constructor <;> intros <;> contradiction

/-- A change of grants only. -/
theorem once_congr {A : String → Prop} {V V' : SKey → Option (Nat × Obj)} (h : Once A V)
    (hu : ∀ u, V' (.usr u) = V (.usr u)) (hc : ∀ u c, V' (.cli u c) = V (.cli u c)) : Once A V' := by
  constructor
  · intro u r i c hx; rw [hu] at hx; exact h.usr _ _ _ _ hx
  · intro u c r i g hx; rw [hc] at hx; exact h.cli _ _ _ _ _ hx

theorem hinv_step {U A : String → Prop} {s : Store} (h : HInv U A s) {op : SOp} (hf : FairOp U op)
    (hadd : ∀ u c g, op = .addGrant u c g → A g.id) (hrem : ∀ u c g, op = .removeSession u c g → ¬ A g) :
    HInv U A (runOp s op) := by
  cases op with
  | createSession u c g =>
    obtain ⟨s', r, he, hi, _, ho, _⟩ := createSession_spec h.inv hf
    simp only [runOp, he]
    exact ⟨hi, once_outside h.once h.inv.links ho⟩
  | createGrant u c g =>
    obtain ⟨s', he, hi, _, ho, _⟩ := createGrant_outside h.inv hf
    simp only [runOp, he]
    exact ⟨hi, once_outside h.once h.inv.links ho⟩
  | addGrant u c g =>
    obtain ⟨s', he, hi, _, _, hother, hu, ⟨r, i, hfc, hvc⟩, ⟨r2, i2, hfu, hvu⟩⟩ := addGrant_spec h.inv hf
    simp only [runOp, he]
    refine ⟨hi, ?_, ?_⟩
    · intro u' r' i' x hx
      by_cases e : u' = u
      · subst e
        rw [hvu] at hx; cases hx
        apply count_addS_le
        rcases hfu with h' | ⟨_, rfl, _⟩
        · exact h.once.usr _ _ _ _ h'
        · simp
      · rw [hother _ (by simp [e]) (by simp) (by simp)] at hx
        exact h.once.usr _ _ _ _ hx
    · intro u' c' r' i' x hx hA
      by_cases e : u' = u ∧ c' = c
      · obtain ⟨rfl, rfl⟩ := e
        rw [hvc] at hx; cases hx
        have hne : g.id ≠ x := by rintro rfl; exact hA (hadd _ _ _ rfl)
        simp only [List.count_append, List.count_cons, List.count_nil, beq_iff_eq, hne, if_false]
        apply count_addS_le
        rcases hfc with h' | ⟨_, rfl, _⟩
        · exact h.once.cli _ _ _ _ _ h' hA
        · simp
      · rw [hother _ (by simp) (by simpa using e) (by simp)] at hx
        exact h.once.cli _ _ _ _ _ hx hA
  | update u c g f =>
    simp only [runOp]
    cases hg : dbGet ⟨u, some c, some g⟩ s with
    | error e => exact h
    | ok r =>
      obtain ⟨o, ho⟩ := (dbGet_iff h.inv (k := .gra u c g) hf r).1 hg
      obtain ⟨gr, rfl⟩ := h.inv.links.typedG _ _ _ _ _ ho
      simp only []
      rw [mutate_eq (view_some_obj ho)]
      have hp := inv_put_grant h.inv ho (f gr)
      refine ⟨hp.1, ?_⟩
      rw [hp.2]; exact once_congr h.once (fun _ => by simp [upd]) (fun _ _ => by simp [upd])
  | store u c g =>
    simp only [runOp]
    cases hg : dbGet ⟨u, some c, some g⟩ s with
    | error e => exact h
    | ok r =>
      obtain ⟨o, ho⟩ := (dbGet_iff h.inv (k := .gra u c g) hf r).1 hg
      obtain ⟨gr, rfl⟩ := h.inv.links.typedG _ _ _ _ _ ho
      obtain ⟨s', he, hi, hv, _⟩ := dbSet_grant_same h.inv ho
      simp only [he]
      exact ⟨hi, by rw [hv]; exact h.once⟩
  | alias u c g sid =>
    simp only [runOp]
    cases hg : dbGet ⟨u, some c, some g⟩ s with
    | error e => exact h
    | ok r =>
      obtain ⟨o, ho⟩ := (dbGet_iff h.inv (k := .gra u c g) hf.1 r).1 hg
      obtain ⟨s', he, hi, hv, _⟩ := aliasSid_spec h.inv (foreign_of hf.2.1 hf.2.2) (view_lt ho)
      simp only [he]
      exact ⟨hi, by rw [hv]; exact h.once⟩
  | revokeGrant u c g =>
    simp only [runOp]
    cases hg : dbGet ⟨u, some c, some g⟩ s with
    | error e => simp only [revokeGrant, hg]; exact h
    | ok r =>
      obtain ⟨o, ho⟩ := (dbGet_iff h.inv (k := .gra u c g) hf r).1 hg
      obtain ⟨gr, rfl⟩ := h.inv.links.typedG _ _ _ _ _ ho
      obtain ⟨s', he, hi, hv, _⟩ := revokeGrant_spec h.inv ho
      simp only [he]
      refine ⟨hi, ?_⟩
      rw [hv]; exact once_congr h.once (fun _ => by simp [upd]) (fun _ _ => by simp [upd])
  | revokeClientSession u c =>
    simp only [runOp]
    cases hg : dbGet ⟨u, some c, none⟩ s with
    | error e => simp only [revokeClientSession, hg]; exact h
    | ok r =>
      obtain ⟨o, ho⟩ := (dbGet_iff h.inv (k := .cli u c) hf r).1 hg
      obtain ⟨ci, rfl⟩ := h.inv.links.typedC _ _ _ _ ho
      obtain ⟨s', he, hi, hv, _⟩ := revokeClientSession_spec h.inv ho
      simp only [he]
      refine ⟨hi, ?_⟩
      rw [hv]
      constructor
      · intro u' r' i' x hx
        simp [upd, revokedView] at hx
        exact h.once.usr _ _ _ _ hx
      · intro u' c' r' i' x hx hA
        by_cases e : u' = u ∧ c' = c
        · obtain ⟨rfl, rfl⟩ := e
          simp at hx
          rw [← hx.2]
          exact (h.once.cli _ _ _ _ _ ho hA : ci.subordinate.count x ≤ 1)
        · rw [upd_ne _ _ (by simpa using e)] at hx
          exact h.once.cli _ _ _ _ _ hx hA
  | removeSession u c g =>
    simp only [runOp]
    have hfor := foreign_of hf.1.2.2.1.2 hf.2
    have hA := hrem _ _ _ rfl
    cases hc : view U s (.cli u c) with
    | none =>
      obtain ⟨res, s', he, hi, hv, _⟩ := removeSession_none h.inv hf.1 hfor hc
      rw [he]
      exact ⟨hi, by rw [hv]; exact h.once⟩
    | some p =>
      obtain ⟨rc, o⟩ := p
      obtain ⟨ci, rfl⟩ := h.inv.links.typedC _ _ _ _ hc
      obtain ⟨ru, ui, hu, hm⟩ := h.inv.links.up1 _ _ _ hc
      obtain ⟨s', he, hi, hv, _⟩ := removeSession_some h.inv hf.1 hfor hu hc
        (not_mem_erase_of_count (h.once.cli _ _ _ _ _ hc hA)) (not_mem_erase_of_count (h.once.usr _ _ _ _ hu))
      rw [he]
      refine ⟨hi, ?_⟩
      show Once A (view U s')
      rw [hv]
      unfold removedView
      constructor
      · intro u' r' i' x hx
        by_cases e : u' = u
        · subst e
          split at hx
          · split at hx
            · simp at hx
            · simp at hx
              rw [← hx.2]
              exact count_erase_le (h.once.usr _ _ _ _ hu)
          · simp [upd] at hx
            exact h.once.usr _ _ _ _ hx
        · have e' : SKey.usr u' ≠ SKey.usr u := by simpa using e
          split at hx
          · split at hx <;>
            · simp [upd, e] at hx
              exact h.once.usr _ _ _ _ hx
          · simp [upd] at hx
            exact h.once.usr _ _ _ _ hx
      · intro u' c' r' i' x hx hA'
        by_cases e : u' = u ∧ c' = c
        · obtain ⟨rfl, rfl⟩ := e
          split at hx
          · split at hx <;> simp [upd] at hx
          · simp at hx
            rw [← hx.2]
            exact count_erase_le (h.once.cli _ _ _ _ _ hc hA')
        · have e' : SKey.cli u' c' ≠ SKey.cli u c := by simpa using e
          split at hx
          · split at hx <;>
            · simp [upd] at hx
              exact h.once.cli _ _ _ _ _ (hx.2) hA'
          · simp only [upd, if_neg e', reduceCtorEq, if_false] at hx
            exact h.once.cli _ _ _ _ _ hx hA'

theorem hinv_history {U : String → Prop} (ops : List SOp) (hf : ∀ op ∈ ops, FairOp U op)
    (hrem : ∀ u c g, SOp.removeSession u c g ∈ ops → ¬ addedWith ops g) :
    HInv U (addedWith ops) (history ops) := by
  have gen : ∀ (A : String → Prop) (l : List SOp) (s : Store), HInv U A s → (∀ op ∈ l, FairOp U op) →
      (∀ u c g, SOp.addGrant u c g ∈ l → A g.id) → (∀ u c g, SOp.removeSession u c g ∈ l → ¬ A g) →
      HInv U A (l.foldl runOp s) := by
    intro A l
    induction l with
    | nil => intro s h _ _ _; exact h
    | cons op l ih =>
      intro s h h1 h2 h3
      refine ih _ (hinv_step h (h1 op (by simp)) ?_ ?_) (fun o ho => h1 o (by simp [ho]))
        (fun u c g hm => h2 u c g (by simp [hm])) (fun u c g hm => h3 u c g (by simp [hm]))
      · rintro u c g rfl; exact h2 u c g (by simp)
      · rintro u c g rfl; exact h3 u c g (by simp)
  exact gen _ ops {} ⟨inv_empty U, once_empty U _⟩ hf (fun u c g hm => ⟨u, c, g, hm, rfl⟩) hrem

end OidcOp
