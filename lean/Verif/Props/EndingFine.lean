/-
C129: a logout is not stopped by an error.
-/
import Verif.Props.EndingOthers

namespace OidcOp
open Spec

/-! ### What a step adds to the list of a record -/

theorem lists_heap {s s' : Store} {r : Nat} {x : String} (h : s'.heap[r]? = s.heap[r]?) (hl : Lists s' r x) : Lists s r x := by
  obtain ⟨i, h1, h2⟩ := hl
  exact ⟨i, by rw [← h]; exact h1, h2⟩

theorem lists_alloc {s : Store} {o : Obj} {r : Nat} (hlt : r < s.heap.length) : (s.heap ++ [o])[r]? = s.heap[r]? :=
  List.getElem?_append_left hlt

theorem addSub_lists {s s' : Store} {q r : Nat} {x y : String} {b : Bool} (h : s.addSub q y = some (b, s')) (hl : Lists s' r x) :
    Lists s r x ∨ (q = r ∧ x = y) := by
  unfold Store.addSub Store.obj at h
  cases hr : s.heap[q]? with
  | none => rw [hr] at h; cases h
  | some o =>
    rw [hr] at h
    cases o with
    | grant g => cases h
    | info i =>
      simp only [] at h
      split at h
      · cases h; exact .inl hl
      · cases h
        have hlt := (List.getElem?_eq_some_iff.1 hr).1
        by_cases hq : q = r
        · subst hq
          obtain ⟨j, h1, h2⟩ := hl
          simp only [Store.put, List.getElem?_set_self hlt] at h1
          cases h1
          rcases List.mem_append.1 h2 with h2 | h2
          · exact .inl ⟨i, hr, h2⟩
          · exact .inr ⟨rfl, by simpa using h2⟩
        · exact .inl (lists_heap (by simp only [Store.put]; rw [List.getElem?_set_ne hq]) hl)

theorem mutate_lists {s : Store} {q r : Nat} {x : String} (hl : Lists (s.mutate q Obj.revoke) r x) : Lists s r x := by
  unfold Store.mutate Store.obj at hl
  cases hr : s.heap[q]? with
  | none => rw [hr] at hl; exact hl
  | some o =>
    rw [hr] at hl
    have hlt := (List.getElem?_eq_some_iff.1 hr).1
    by_cases hq : q = r
    · subst hq
      obtain ⟨j, h1, h2⟩ := hl
      simp only [Store.put, List.getElem?_set_self hlt] at h1
      cases o with
      | grant g => cases h1
      | info i => cases h1; exact ⟨i, hr, h2⟩
    · exact lists_heap (by simp only [Store.put]; rw [List.getElem?_set_ne hq]) hl

theorem getOr_lists {s : Store} {k : String} {d : SInfo} {r : Nat} {x : String} (hlt : r < s.heap.length)
    (hl : Lists (s.getOr k d).2 r x) : Lists s r x := by
  rcases getOr_cases s k d with ⟨-, h⟩ | ⟨-, h⟩
  · rw [h] at hl; exact hl
  · rw [h] at hl; exact lists_heap (lists_alloc hlt) hl

theorem makeGo_lists {s : Store} {m : Maker} {r : Nat} {x : String} (hlt : r < s.heap.length)
    (hne : ∀ q l, m.pc = .addClient q l → q ≠ r) (hl : Lists (makeGo s m).1 r x) :
    Lists s r x ∨ (m.pc = .addGrant r ∧ x = m.grant.id) := by
  unfold makeGo at hl
  cases hpc : m.pc with
  | setUser => rw [hpc] at hl; exact .inl (lists_heap (lists_alloc hlt) hl)
  | setClient => rw [hpc] at hl; exact .inl (lists_heap (lists_alloc hlt) hl)
  | setGrant => rw [hpc] at hl; exact .inl (lists_heap (lists_alloc hlt) hl)
  | readClient => rw [hpc] at hl; exact .inl (getOr_lists hlt hl)
  | readUser l => rw [hpc] at hl; exact .inl (getOr_lists hlt hl)
  | addGrant q =>
    rw [hpc] at hl
    simp only [] at hl
    split at hl
    · exact .inl hl
    · rename_i h
      rcases addSub_lists h hl with h1 | ⟨rfl, h1⟩
      · exact .inl h1
      · exact .inr ⟨rfl, h1⟩
    · rename_i h
      rcases addSub_lists h hl with h1 | ⟨rfl, h1⟩
      · exact .inl h1
      · exact .inr ⟨rfl, h1⟩
  | addClient q l =>
    rw [hpc] at hl
    simp only [] at hl
    split at hl
    · exact .inl hl
    · rename_i h
      rcases addSub_lists h hl with h1 | ⟨h1, -⟩
      · exact .inl h1
      · exact absurd h1 (hne q l hpc)
    · rename_i h
      rcases addSub_lists h hl with h1 | ⟨h1, -⟩
      · exact .inl h1
      · exact absurd h1 (hne q l hpc)
  | storeClient q => rw [hpc] at hl; exact .inl hl
  | storeUser q l => rw [hpc] at hl; exact .inl hl
  | done => rw [hpc] at hl; exact .inl hl
  | failed => rw [hpc] at hl; exact .inl hl
  | _ =>
    rw [hpc] at hl
    simp only [] at hl
    refine .inl ?_
    repeat' split at hl
    all_goals exact hl

theorem endGo_lists {s : Store} {e : Ender} {r : Nat} {x : String} (hlt : r < s.heap.length)
    (hne : ∀ p q, e.pc = .addClient p q → q ≠ r) (hl : Lists (endGo s e).1 r x) : Lists s r x := by
  unfold endGo at hl
  cases hpc : e.pc with
  | mark q => rw [hpc] at hl; exact mutate_lists hl
  | revoke p i q => rw [hpc] at hl; exact mutate_lists hl
  | readUser q => rw [hpc] at hl; exact getOr_lists hlt hl
  | addClient p q =>
    rw [hpc] at hl
    simp only [] at hl
    split at hl
    · exact hl
    · rename_i h
      rcases addSub_lists h hl with h1 | ⟨h1, -⟩
      · exact h1
      · exact absurd h1 (hne p q hpc)
    · rename_i h
      rcases addSub_lists h hl with h1 | ⟨h1, -⟩
      · exact h1
      · exact absurd h1 (hne p q hpc)
  | storeClient q => rw [hpc] at hl; exact hl
  | storeUser p q => rw [hpc] at hl; exact hl
  | done => rw [hpc] at hl; exact hl
  | failed => rw [hpc] at hl; exact hl
  | _ =>
    rw [hpc] at hl
    simp only [] at hl
    repeat' split at hl
    all_goals exact hl

/-! ### Nothing leaves the database -/

theorem bind_keeps {t : Store} {k k' : String} {q : Nat} (h : t.db.get? k ≠ none) : (t.bind k' q).db.get? k ≠ none := by
  simp only [Store.bind]
  by_cases he : k' = k
  · subst he; rw [Dict.get?_set_self]; exact nofun
  · rw [Dict.get?_set_ne _ _ he]; exact h

theorem makeGo_keeps {s : Store} {m : Maker} {k : String} (h : s.db.get? k ≠ none) : (makeGo s m).1.db.get? k ≠ none := by
  unfold makeGo
  cases m.pc with
  | setUser => exact bind_keeps (t := (s.alloc _).2) h
  | setClient => exact bind_keeps (t := (s.alloc _).2) h
  | setGrant => exact bind_keeps (t := (s.alloc _).2) h
  | readClient => simp only []; rw [(getOr_le _ _ _).2]; exact h
  | readUser l => simp only []; rw [(getOr_le _ _ _).2]; exact h
  | addGrant q =>
    simp only []
    split
    · exact h
    · rename_i hq; simp only []; rw [(addSub_le hq).2.1]; exact h
    · rename_i hq; simp only []; rw [(addSub_le hq).2.1]; exact h
  | addClient q l =>
    simp only []
    split
    · exact h
    · rename_i hq; simp only []; rw [(addSub_le hq).2.1]; exact h
    · rename_i hq; simp only []; rw [(addSub_le hq).2.1]; exact h
  | storeClient q => exact bind_keeps h
  | storeUser q l => exact bind_keeps h
  | done => exact h
  | failed => exact h
  | _ =>
    simp only []
    repeat' split
    all_goals exact h

theorem endGo_keeps {s : Store} {e : Ender} {k : String} (h : s.db.get? k ≠ none) : (endGo s e).1.db.get? k ≠ none := by
  unfold endGo
  cases e.pc with
  | mark q => simp only []; rw [mutate_db]; exact h
  | revoke p i q => simp only []; rw [mutate_db]; exact h
  | readUser q => simp only []; rw [(getOr_le _ _ _).2]; exact h
  | addClient p q =>
    simp only []
    split
    · exact h
    · rename_i hq; simp only []; rw [(addSub_le hq).2.1]; exact h
    · rename_i hq; simp only []; rw [(addSub_le hq).2.1]; exact h
  | storeClient q => exact bind_keeps h
  | storeUser p q => exact bind_keeps h
  | done => exact h
  | failed => exact h
  | _ =>
    simp only []
    repeat' split
    all_goals exact h

/-- The key of a grant, whatever its last part, is not that of a client session. -/
theorem key3_not_key2 {u c u' c' x : String} (h : (SKey.cli u c).Good (fun _ => True)) (h' : (SKey.cli u' c').Good (fun _ => True)) :
    key3 u' c' x ≠ key2 u c := by
  intro he
  have hl := congrArg String.toList he
  unfold key3 key2 at hl
  simp only [String.toList_append, List.append_assoc] at hl
  have semi : (";;" : String).toList = [';', ';'] := by decide
  rw [semi] at hl
  simp only [List.cons_append, List.nil_append] at hl
  obtain ⟨-, h2⟩ := cut_first h'.2.1.2 h.2.1.2 hl
  have h2 := (List.cons.inj h2).2
  exact h.2.2.2 (by rw [← h2]; simp)

/-! ### The invariant -/

/-- Where a logout of the user at the client is: it looks for a grant that is listed, and it has not failed. -/
def Looks (rc : Nat) (s : Store) : EndAt → Prop
  | .findUser _ _ x => Lists s rc x
  | .findClient _ _ x => Lists s rc x
  | .findGrant _ _ x => Lists s rc x
  | .failed => False
  | _ => True

theorem Looks.grows {rc : Nat} {s s' : Store} {a : EndAt} (h : Looks rc s a) (hle : HeapGrows s.heap s'.heap) : Looks rc s' a := by
  cases a <;> first | trivial | exact Lists.grows h hle | exact h

/-- Only logins and logouts of this user at this client have hold of the client session's record, and what it lists is stored. -/
structure Lone (u c : String) (rc : Nat) (s : EndWorld) : Prop where
  there : rc < s.making.st.heap.length
  only : ∀ k, s.making.st.db.get? k = some rc → k = key2 u c
  makers : ∀ m ∈ s.making.threads, ¬ (m.user = u ∧ m.client = c) → MakeRefs (· ≠ rc) m.pc
  late : ∀ m ∈ s.making.threads, m.user = u → m.client = c → (m.pc = .readClient ∨ ∃ r, m.pc = .addGrant r) →
    s.making.st.db.get? (key3 u c m.grant.id) ≠ none
  enders : ∀ e ∈ s.enders, ¬ (e.user = u ∧ e.client = c) → EndRefs (· ≠ rc) e.pc
  all : ∀ x, Lists s.making.st rc x → s.making.st.db.get? (key3 u c x) ≠ none
  looks : ∀ e ∈ s.enders, e.user = u → e.client = c → Looks rc s.making.st e.pc

theorem Linked.apart {u c : String} {ru rc : Nat} {s : Store} (hl : Linked u c ru rc s) (hgood : (SKey.cli u c).Good (fun _ => True))
    (only : ∀ k, s.db.get? k = some rc → k = key2 u c) : ru ≠ rc := by
  intro e
  have := only u (by rw [hl.user, e])
  cases skey_str_inj (k := .usr u) (k' := .cli u c) ⟨hgood.1, hgood.2.1⟩ hgood this

theorem late_before {s : Store} {m : Maker} (h : (makeGo s m).2 = .readClient ∨ ∃ r, (makeGo s m).2 = .addGrant r) :
    m.pc = .setGrant ∨ m.pc = .readClient := by
  revert h
  unfold makeGo
  cases hpc : m.pc with
  | setGrant => exact fun _ => .inl rfl
  | readClient => exact fun _ => .inr rfl
  | addGrant r =>
    simp only []
    rcases hs : s.addSub r m.grant.id with _ | ⟨b, s'⟩
    · simp
    · cases b <;> simp
  | addClient r l =>
    simp only []
    rcases hs : s.addSub r m.client with _ | ⟨b, s'⟩
    · simp
    · cases b <;> cases l <;> simp [afterUser]
  | storeUser r l => cases l <;> simp [afterUser]
  | setUser => simp
  | setClient => simp
  | storeClient r => simp
  | readUser l => simp
  | done => simp
  | failed => simp
  | getUser =>
    simp only []
    intro h
    split at h <;> simp at h
  | getListed =>
    simp only []
    intro h
    repeat' split at h
    all_goals simp at h
  | getClient =>
    simp only []
    intro h
    split at h <;> simp at h

/-- A logout of the user at the client, after its step. -/
theorem looks_self {u c : String} {ru rc : Nat} {s : Store} (hl : Linked u c ru rc s) {e : Ender} (h : GoodEnd u c ru rc e)
    (hb : ∀ k r, s.db.get? k = some r → r < s.heap.length) (hall : ∀ x, Lists s rc x → s.db.get? (key3 u c x) ≠ none)
    (hu : e.user = u) (hc : e.client = c) (hk : Looks rc s e.pc) : Looks rc (endGo s e).1 (endGo s e).2 := by
  obtain ⟨iu, hlu, hcu⟩ := hl.lookupUser
  obtain ⟨ic, hlc⟩ := hl.lookupClient
  have mild := h.mild hu
  have keeps := h.keeps hu hc
  unfold EndMild at mild
  unfold EndKeeps at keeps
  unfold endGo
  cases hpc : e.pc with
  | getListed => simp only [hu, hlu, hc, hcu, if_true]; trivial
  | getClient => simp only [hu, hc, hlc]; trivial
  | mark r => trivial
  | storeClient r => trivial
  | readUser r => trivial
  | addClient r q =>
    rw [hpc] at mild
    have mild : q = ru := mild
    obtain ⟨-, h2⟩ := (lookup_eq _ _ _ _).1 hlu
    simp only [mild, hc, Store.addSub, Store.obj, h2, hcu, if_true]
    trivial
  | storeUser r q => trivial
  | next r i =>
    rw [hpc] at keeps
    have keeps : r = rc := keeps
    obtain ⟨-, h2⟩ := (lookup_eq _ _ _ _).1 hlc
    simp only [keeps, Store.obj, h2]
    cases hx : ic.subordinate[i]? with
    | none => trivial
    | some x => exact ⟨ic, h2, List.mem_of_getElem? hx⟩
  | findUser r i x =>
    rw [hpc] at hk
    simp only [hu, hlu, hc, hcu, if_true]
    exact hk
  | findClient r i x =>
    rw [hpc] at hk
    have hk : Lists s rc x := hk
    obtain ⟨j, h1, h2⟩ := hk
    have hj := ((lookup_eq _ _ _ _).1 hlc).2
    rw [h1] at hj
    cases hj
    simp only [hu, hc, hlc, h2, if_true]
    exact ⟨_, h1, h2⟩
  | findGrant r i x =>
    rw [hpc] at hk
    have hk : Lists s rc x := hk
    obtain ⟨q, hq⟩ := Option.ne_none_iff_exists'.1 (hall x hk)
    obtain ⟨o, ho⟩ : ∃ o, s.heap[q]? = some o := ⟨_, List.getElem?_eq_getElem (hb _ _ hq)⟩
    have : s.lookup (key3 u c x) = some (q, o) := (lookup_eq _ _ _ _).2 ⟨hq, ho⟩
    simp only [hu, hc, this]
    trivial
  | revoke r i q => trivial
  | done => trivial
  | failed => rw [hpc] at hk; exact hk.elim

theorem lone_step {u c : String} {ru rc : Nat} (hgood : (SKey.cli u c).Good (fun _ => True)) {s : EndWorld}
    (hi : EndsInv u c ru rc s) (hp : Proper s) (hb : Bounded s) (h : Lone u c rc s) (op : EndOp)
    (hi' : EndsInv u c ru rc (endStep s op)) : Lone u c rc (endStep s op) := by
  have apart := hi.linked.apart hgood h.only
  have hgu : (SKey.usr u).Good (fun _ => True) := ⟨hgood.1, hgood.2.1⟩
  cases op with
  | logout u' c' =>
    refine ⟨h.there, h.only, h.makers, h.late, fun e he hne => ?_, h.all, fun e he hu hc => ?_⟩
    · rcases List.mem_append.1 he with he | he
      · exact h.enders e he hne
      · simp at he; subst he; trivial
    · rcases List.mem_append.1 he with he | he
      · exact h.looks e he hu hc
      · simp at he; subst he; trivial
  | goEnd i =>
    cases hx : s.enders[i]? with
    | none => simp only [endStep, hx]; exact h
    | some e =>
      simp only [endStep, hx] at hi' ⊢
      have hmem := List.mem_of_getElem? hx
      have he := hp.ends e hmem
      have heu : (SKey.usr e.user).Good (fun _ => True) := ⟨he.1, he.2.1⟩
      have hle := endGo_grows s.making.st e
      have hlen := endGo_length s.making.st e
      have nq : ∀ p q, e.pc = .addClient p q → q ≠ rc := by
        intro p q hpc
        by_cases hat : e.user = u ∧ e.client = c
        · have hm := (hi.goodEnds e hmem).mild hat.1
          unfold EndMild at hm
          rw [hpc] at hm
          have hm : q = ru := hm
          rw [hm]; exact apart
        · have := h.enders e hmem hat
          rw [hpc] at this
          exact this.2
      refine ⟨Nat.lt_of_lt_of_le h.there hlen, fun k hk => ?_, h.makers, fun m hm hu hc hl => endGo_keeps (h.late m hm hu hc hl),
        fun e' he' hne => ?_, fun x hl => endGo_keeps (h.all x (endGo_lists h.there nq hl)), fun e' he' hu hc => ?_⟩
      · by_cases hat : e.user = u ∧ e.client = c
        · by_cases h2 : k = key2 u c
          · exact h2
          · by_cases h1 : k = u
            · subst h1
              have := hi'.linked.user
              rw [show (endGo s.making.st e).1.db.get? k = some rc from hk] at this
              cases this
              exact absurd rfl apart
            · refine h.only k ?_
              rw [← endGo_db s.making.st e k (fun _ x => h1 (x.trans hat.1)) (fun _ x => h2 (by rw [x, hat.1, hat.2]))]
              exact hk
        · rcases endGo_puts (h.enders e hmem hat) hk with h1 | h1
          · exact h.only k h1
          · exact absurd rfl h1
      · rcases List.mem_or_eq_of_mem_set he' with he' | rfl
        · exact h.enders e' he' hne
        · have hne : ¬ (e.user = u ∧ e.client = c) := hne
          refine endGo_refs _ _ (fun q hq e1 => ?_) (fun q hq e1 => ?_) (fun x q hq e1 => ?_) (fun _ => Nat.ne_of_gt h.there)
            (h.enders e hmem hne)
          · rw [e1] at hq
            cases skey_str_inj (k := .usr e.user) (k' := .cli u c) heu hgood (h.only _ hq)
          · rw [e1] at hq
            cases skey_str_inj (k := .cli e.user e.client) (k' := .cli u c) he hgood (h.only _ hq)
            exact hne ⟨rfl, rfl⟩
          · rw [e1] at hq
            exact key3_not_key2 hgood he (h.only _ hq)
      · rcases List.mem_or_eq_of_mem_set he' with he' | rfl
        · exact (h.looks e' he' hu hc).grows hle
        · exact looks_self hi.linked (hi.goodEnds e hmem) hb.db h.all hu hc (h.looks e hmem hu hc)
  | make op =>
    cases op with
    | login u' c' g =>
      refine ⟨h.there, h.only, fun m hm hne => ?_, fun m hm hu hc hl => ?_, h.enders, h.all, h.looks⟩
      · rcases List.mem_append.1 hm with hm | hm
        · exact h.makers m hm hne
        · simp at hm; subst hm; trivial
      · rcases List.mem_append.1 hm with hm | hm
        · exact h.late m hm hu hc hl
        · simp at hm
          subst hm
          rcases hl with hl | ⟨r, hl⟩ <;> cases hl
    | go i =>
      cases hx : s.making.threads[i]? with
      | none => simp only [endStep, makeStep, hx]; exact h
      | some m =>
        simp only [endStep, makeStep, hx] at hi' ⊢
        have hmem := List.mem_of_getElem? hx
        have hn := hp.named m hmem
        have hle := (makeGo_le s.making.st m).grows
        have hlen := makeGo_length s.making.st m
        have nq : ∀ q l, m.pc = .addClient q l → q ≠ rc := by
          intro q l hpc
          by_cases hat : m.user = u ∧ m.client = c
          · have hm := (hi.good m hmem).mild hat.1
            unfold Mild at hm
            rw [hpc] at hm
            have hm : q = ru := hm
            rw [hm]; exact apart
          · have := h.makers m hmem hat
            rw [hpc] at this
            exact this
        refine ⟨Nat.lt_of_lt_of_le h.there hlen, fun k hk => ?_, fun m' hm' hne => ?_, fun m' hm' hu hc hl => ?_, h.enders,
          fun x hl => ?_, fun e he hu hc => (h.looks e he hu hc).grows hle⟩
        · by_cases hat : m.user = u ∧ m.client = c
          · by_cases h2 : k = key2 u c
            · exact h2
            · by_cases h1 : k = u
              · subst h1
                have := hi'.linked.user
                rw [show (makeGo s.making.st m).1.db.get? k = some rc from hk] at this
                cases this
                exact absurd rfl apart
              · by_cases h3 : m.pc = .setGrant
                · have hk : (makeGo s.making.st m).1.db.get? k = some rc := hk
                  rw [show (makeGo s.making.st m).1 = ((s.making.st.alloc (.grant m.grant)).2.bind
                    (key3 m.user m.client m.grant.id) (s.making.st.alloc (.grant m.grant)).1) by unfold makeGo; rw [h3]] at hk
                  simp only [Store.bind, Store.alloc] at hk
                  by_cases hk3 : key3 m.user m.client m.grant.id = k
                  · rw [hk3, Dict.get?_set_self] at hk
                    exact absurd (Option.some.inj hk) (Nat.ne_of_gt h.there)
                  · rw [Dict.get?_set_ne _ _ hk3] at hk
                    exact h.only k hk
                · refine h.only k ?_
                  rw [← makeGo_db s.making.st m k (fun _ x => h1 (x.trans hat.1)) (fun _ x => h2 (by rw [x, hat.1, hat.2]))
                    (fun x => absurd x h3)]
                  exact hk
          · rcases makeGo_puts (h.makers m hmem hat) hk with h1 | ⟨h1, -⟩ | h1
            · exact h.only k h1
            · exact absurd h1 (Nat.ne_of_lt h.there)
            · exact absurd rfl h1
        · rcases List.mem_or_eq_of_mem_set hm' with hm' | rfl
          · exact h.makers m' hm' hne
          · have hne : ¬ (m.user = u ∧ m.client = c) := hne
            refine makeGo_refs _ _ (fun q hq e1 => ?_) (fun q hq e1 => ?_) (fun _ => Nat.ne_of_gt h.there) (h.makers m hmem hne)
            · rw [e1] at hq
              cases skey_str_inj (k := .usr m.user) (k' := .cli u c) (named_usr hn) hgood (h.only _ hq)
            · rw [e1] at hq
              cases skey_str_inj (k := .cli m.user m.client) (k' := .cli u c) (named_cli hn) hgood (h.only _ hq)
              exact hne ⟨rfl, rfl⟩
        · rcases List.mem_or_eq_of_mem_set hm' with hm' | rfl
          · exact makeGo_keeps (h.late m' hm' hu hc hl)
          · have hu : m.user = u := hu
            have hc : m.client = c := hc
            rcases late_before hl with h3 | h3
            · show (makeGo s.making.st m).1.db.get? (key3 u c m.grant.id) ≠ none
              unfold makeGo
              rw [h3]
              simp only [Store.bind, hu, hc, Dict.get?_set_self]
              exact nofun
            · exact makeGo_keeps (h.late m hmem hu hc (.inl h3))
        · rcases makeGo_lists h.there nq hl with h1 | ⟨h1, rfl⟩
          · exact makeGo_keeps (h.all x h1)
          · have hat : m.user = u ∧ m.client = c := by
              apply Classical.byContradiction
              intro hat
              have := h.makers m hmem hat
              rw [h1] at this
              exact this rfl
            exact makeGo_keeps (h.late m hmem hat.1 hat.2 (.inr ⟨rc, h1⟩))

theorem lone_run {u c : String} {ru rc : Nat} (hgood : (SKey.cli u c).Good (fun _ => True)) (ops : List EndOp) :
    ∀ s : EndWorld, EndsInv u c ru rc s → ProperAll s ops → Bounded s → Lone u c rc s → Lone u c rc (endRun s ops) := by
  induction ops with
  | nil => exact fun s _ _ _ h => h
  | cons op ops ih =>
    intro s hi hp hb h
    have hp' : ProperAll s ([op] ++ ops) := hp
    obtain ⟨i1, p1⟩ := endsInv_run hgood [op] s ops hi hp'
    exact ih _ i1 p1 (bounded_step hb op) (lone_step hgood hi hp.now hb h op i1)

/-! ### How much a logout has still to do -/

/-- The steps that a logout has still to make when the client session lists `n` sessions. -/
def toDo (n : Nat) : EndAt → Nat
  | .getListed => 5 * n + 9
  | .getClient => 5 * n + 8
  | .mark _ => 5 * n + 7
  | .storeClient _ => 5 * n + 6
  | .readUser _ => 5 * n + 5
  | .addClient _ _ => 5 * n + 4
  | .storeUser _ _ => 5 * n + 3
  | .next _ i => 5 * (n - i) + 1
  | .findUser _ i _ => 5 * (n - (i + 1)) + 5
  | .findClient _ i _ => 5 * (n - (i + 1)) + 4
  | .findGrant _ i _ => 5 * (n - (i + 1)) + 3
  | .revoke _ i _ => 5 * (n - (i + 1)) + 2
  | .done => 0
  | .failed => 0

theorem toDo_step {u c : String} {ru rc : Nat} {s : Store} (hl : Linked u c ru rc s) {e : Ender} (h : GoodEnd u c ru rc e)
    (hu : e.user = u) (hc : e.client = c) {ci : SInfo} (hci : s.heap[rc]? = some (.info ci)) (hd : e.pc ≠ .done) (hf : e.pc ≠ .failed) :
    (∃ ci', (endGo s e).1.heap[rc]? = some (.info ci') ∧ ci'.subordinate = ci.subordinate) ∧
    toDo ci.subordinate.length (endGo s e).2 < toDo ci.subordinate.length e.pc := by
  obtain ⟨iu, hlu, hcu⟩ := hl.lookupUser
  have hlc := (lookup_eq _ _ _ _).2 ⟨hl.client, hci⟩
  have mild := h.mild hu
  have keeps := h.keeps hu hc
  unfold EndMild at mild
  unfold EndKeeps at keeps
  unfold endGo
  cases hpc : e.pc with
  | getListed => simp only [hu, hlu, hc, hcu, if_true]; exact ⟨⟨ci, hci, rfl⟩, by simp [toDo]⟩
  | getClient => simp only [hu, hc, hlc]; exact ⟨⟨ci, hci, rfl⟩, by simp [toDo]⟩
  | mark r => exact ⟨mutate_list hci, by simp [toDo]⟩
  | storeClient r => exact ⟨⟨ci, hci, rfl⟩, by simp [toDo]⟩
  | readUser r =>
    obtain ⟨h1, h2⟩ := (lookup_eq _ _ _ _).1 hlu
    simp only [hu, getOr_found h1 h2]
    exact ⟨⟨ci, hci, rfl⟩, by simp [toDo]⟩
  | addClient r q =>
    rw [hpc] at mild
    have mild : q = ru := mild
    obtain ⟨-, h2⟩ := (lookup_eq _ _ _ _).1 hlu
    simp only [mild, hc, Store.addSub, Store.obj, h2, hcu, if_true]
    exact ⟨⟨ci, hci, rfl⟩, by simp [toDo]⟩
  | storeUser r q => exact ⟨⟨ci, hci, rfl⟩, by simp [toDo]⟩
  | next r i =>
    rw [hpc] at keeps
    have keeps : r = rc := keeps
    simp only [keeps, Store.obj, hci]
    cases hx : ci.subordinate[i]? with
    | none => exact ⟨⟨ci, hci, rfl⟩, by simp [toDo]⟩
    | some x =>
      have := (List.getElem?_eq_some_iff.1 hx).1
      exact ⟨⟨ci, hci, rfl⟩, by simp only [toDo]; omega⟩
  | findUser r i x => simp only [hu, hlu, hc, hcu, if_true]; exact ⟨⟨ci, hci, rfl⟩, by simp [toDo]⟩
  | findClient r i x =>
    simp only [hu, hc, hlc]
    split
    · exact ⟨⟨ci, hci, rfl⟩, by simp [toDo]⟩
    · exact ⟨⟨ci, hci, rfl⟩, by simp [toDo]⟩
  | findGrant r i x =>
    simp only []
    split
    · exact ⟨⟨ci, hci, rfl⟩, by simp [toDo]⟩
    · exact ⟨⟨ci, hci, rfl⟩, by simp [toDo]⟩
  | revoke r i q => exact ⟨mutate_list hci, by simp [toDo]⟩
  | done => exact absurd hpc hd
  | failed => exact absurd hpc hf

theorem ProperAll.goEnd {s : EndWorld} (h : ProperAll s []) (k : Nat) : ProperAll s [.goEnd k] := ⟨h.clean, h.distinct, h.ends, h.unseen⟩

/-- Left to itself a logout comes to its end. -/
theorem finishes {u c : String} {ru rc : Nat} (hgood : (SKey.cli u c).Good (fun _ => True)) (k : Nat) : ∀ (n : Nat) (s : EndWorld) (e : Ender)
    (ci : SInfo), EndsInv u c ru rc s → ProperAll s [] → Bounded s → Lone u c rc s → s.enders[k]? = some e → e.user = u → e.client = c →
    s.making.st.heap[rc]? = some (.info ci) → toDo ci.subordinate.length e.pc ≤ n → ∃ n', Over (endRun s (List.replicate n' (.goEnd k))) k u c := by
  intro n
  induction n with
  | zero =>
    intro s e ci hi hp hb h hk hu hc hci hn
    have hl := h.looks e (List.mem_of_getElem? hk) hu hc
    refine ⟨0, ?_⟩
    show s.enders[k]? = _
    rw [hk]
    obtain ⟨eu, ec, pc⟩ := e
    cases pc <;> first | (simp [toDo] at hn; done) | skip
    · simp only [] at hu hc
      rw [hu, hc]
    · exact hl.elim
  | succ n ih =>
    intro s e ci hi hp hb h hk hu hc hci hn
    have hmem := List.mem_of_getElem? hk
    have hl := h.looks e hmem hu hc
    by_cases hd : e.pc = .done
    · refine ⟨0, ?_⟩
      show s.enders[k]? = _
      rw [hk]
      obtain ⟨eu, ec, pc⟩ := e
      simp only [] at hu hc hd
      rw [hu, hc, hd]
    · have hf : e.pc ≠ .failed := by
        intro hf
        rw [hf] at hl
        exact hl
      obtain ⟨⟨ci', hci', hsub⟩, hlt⟩ := toDo_step hi.linked (hi.goodEnds e hmem) hu hc hci hd hf
      have hp1 : ProperAll s ([.goEnd k] ++ []) := hp.goEnd k
      obtain ⟨i1, p1⟩ := endsInv_run hgood [.goEnd k] s [] hi hp1
      have e1 : endStep s (.goEnd k) =
          { making := { s.making with st := (endGo s.making.st e).1 }, enders := s.enders.set k { e with pc := (endGo s.making.st e).2 } } := by
        simp only [endStep, hk]
      obtain ⟨n', hn'⟩ := ih (endStep s (.goEnd k)) { e with pc := (endGo s.making.st e).2 } ci' i1 p1 (bounded_step hb _)
        (lone_step hgood hi (hp.goEnd k).now hb h _ i1)
        (by rw [e1]; exact List.getElem?_set_self (List.getElem?_eq_some_iff.1 hk).1) hu hc (by rw [e1]; exact hci')
        (by rw [hsub]; exact Nat.le_of_lt_succ (Nat.lt_of_lt_of_le hlt hn))
      exact ⟨n' + 1, by rw [List.replicate_succ]; exact hn'⟩

/-! ### C129 -/

theorem lone_start {u c : String} {s : Store} {ru rc : Nat} (hl : Linked u c ru rc s) (hs : OwnObjects s) {i : SInfo}
    (hbefore : found s (.cli u c) = some (.info i)) (hlisted : ∀ x ∈ i.subordinate, ∃ g, found s (.gra u c x) = some (.grant g)) :
    Lone u c rc { making := { st := s } } := by
  refine ⟨hs.there _ _ hl.client, fun k hk => hs.own _ _ _ hl.client hk, fun _ h => (by cases h), fun _ h => (by cases h),
    fun _ h => (by cases h), fun x hx => ?_, fun _ h => (by cases h)⟩
  obtain ⟨j, h1, h2⟩ := hx
  have h1 : s.heap[rc]? = some (.info j) := h1
  have hj : j = i := by
    obtain ⟨iu, hlu, hcu⟩ := hl.lookupUser
    have hlc := (lookup_eq _ _ _ _).2 ⟨hl.client, h1⟩
    have hf : found s (.cli u c) = some (.info j) := by
      simp [found, SKey.path, dbGet, hlu, subordinateOf, hcu, hlc, Store.obj, h1]
    rw [hf] at hbefore
    cases hbefore
    rfl
  obtain ⟨g, hg⟩ := hlisted x (hj ▸ h2)
  obtain ⟨-, -, -, ⟨r, hr, -⟩, -⟩ := found_holds hg
  rw [show s.db.get? (key3 u c x) = some r from hr]
  exact nofun

/-- C129, where the user has been logged in at the client before, and the sessions that the client session lists are there: no logout
of the user at the client is stopped by an error, whatever logins and logouts are served at the same time. -/
theorem C129_no_error_partial (u c : String) (s : Store) (ops : List EndOp) (hgood : (SKey.cli u c).Good (fun _ => True))
    (hs : OwnObjects s) (i : SInfo) (hbefore : found s (.cli u c) = some (.info i))
    (hlisted : ∀ x ∈ i.subordinate, ∃ g, found s (.gra u c x) = some (.grant g)) (hn : OwnEnds s ops) (k : Nat) :
    (endRun { making := { st := s } } ops).enders[k]? ≠ some { user := u, client := c, pc := .failed } := by
  obtain ⟨ru, rc, hl⟩ := found_linked hbefore
  have start : EndsInv u c ru rc { making := { st := s } } := ⟨hl, fun _ h => (by cases h), fun _ h => (by cases h)⟩
  have bounded : Bounded { making := { st := s } } := ⟨hs.there, fun _ h => (by cases h), fun _ h => (by cases h)⟩
  have fine := lone_run hgood ops _ start (properAll_start hn) bounded (lone_start hl hs hbefore hlisted)
  intro hk
  exact fine.looks _ (List.mem_of_getElem? hk) rfl rfl

theorem bounded_run (ops : List EndOp) : ∀ s : EndWorld, Bounded s → Bounded (endRun s ops) := by
  induction ops with
  | nil => exact fun s h => h
  | cons op ops ih => exact fun s h => ih _ (bounded_step h op)

/-- C129, under the same conditions: whatever has happened, a logout of the user at the client comes to its end when it is let run. -/
theorem C129_finishes_partial (u c : String) (s : Store) (ops : List EndOp) (hgood : (SKey.cli u c).Good (fun _ => True))
    (hs : OwnObjects s) (i : SInfo) (hbefore : found s (.cli u c) = some (.info i))
    (hlisted : ∀ x ∈ i.subordinate, ∃ g, found s (.gra u c x) = some (.grant g)) (hn : OwnEnds s ops) (k : Nat) (e : Ender)
    (hk : (endRun { making := { st := s } } ops).enders[k]? = some e) (hu : e.user = u) (hc : e.client = c) :
    ∃ n, Over (endRun { making := { st := s } } (ops ++ List.replicate n (.goEnd k))) k u c := by
  obtain ⟨ru, rc, hl⟩ := found_linked hbefore
  have start : EndsInv u c ru rc { making := { st := s } } := ⟨hl, fun _ h => (by cases h), fun _ h => (by cases h)⟩
  have bounded : Bounded { making := { st := s } } := ⟨hs.there, fun _ h => (by cases h), fun _ h => (by cases h)⟩
  have fine := lone_run hgood ops _ start (properAll_start hn) bounded (lone_start hl hs hbefore hlisted)
  have hp : ProperAll { making := { st := s } } (ops ++ []) := by rw [List.append_nil]; exact properAll_start hn
  obtain ⟨i1, p1⟩ := endsInv_run hgood ops _ [] start hp
  obtain ⟨ci, hci⟩ := i1.linked.info
  obtain ⟨n, h⟩ := finishes hgood k _ _ e ci i1 p1 (bounded_run ops _ bounded) fine hk hu hc hci (Nat.le_refl _)
  refine ⟨n, ?_⟩
  unfold endRun at h ⊢
  rw [List.foldl_append]
  exact h

/-- The hypotheses of the two theorems are met: the user has a session at the client, logs in there once more and out at the same time,
and the logout is on its way. -/
example : OwnObjects (Ex.knownAt "c1") ∧
    (∃ i, found (Ex.knownAt "c1") (.cli "diana" "c1") = some (.info i) ∧ "g0" ∈ i.subordinate ∧
      ∀ x ∈ i.subordinate, ∃ g, found (Ex.knownAt "c1") (.gra "diana" "c1" x) = some (.grant g)) ∧
    OwnEnds (Ex.knownAt "c1") (Ex.besides ++ [.logout "diana" "c1", .goEnd 0, .goEnd 0, .goEnd 0]) ∧
    (endRun { making := { st := Ex.knownAt "c1" } } (Ex.besides ++ [.logout "diana" "c1", .goEnd 0, .goEnd 0, .goEnd 0])).enders[0]? =
      some { user := "diana", client := "c1", pc := .storeClient 1 } :=
  ⟨Ex.knownAt_own,
    ⟨_, (by decide +kernel : found (Ex.knownAt "c1") (.cli "diana" "c1") = some (.info { isUser := false, ident := "c1", subordinate := ["g0"] })),
      by decide, fun x hx => by
        simp at hx
        subst hx
        exact ⟨Ex.grantOf "g0", by decide +kernel⟩⟩,
    ⟨⟨fun u c g h => by
      simp [Ex.besides, makesIn, loginsIn] at h
      obtain ⟨rfl, rfl, rfl⟩ := h
      exact ⟨trivial, by decide, by decide, by decide⟩,
      by decide +kernel, fun u c g h => by
      simp [Ex.besides, makesIn, loginsIn] at h
      obtain ⟨rfl, rfl, rfl⟩ := h
      decide +kernel⟩,
      fun u c h => by
      simp [Ex.besides, logoutsIn] at h
      obtain ⟨rfl, rfl⟩ := h
      exact ⟨trivial, by decide, by decide⟩⟩,
    by decide +kernel⟩

end OidcOp
