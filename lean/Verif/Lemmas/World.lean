/-
Every operation of the provider is a sequence of atomic steps on grants; invariants of these steps.
-/
import Verif.Model.World
import Verif.Lemmas.Micro

namespace OidcOp
open Spec

/-! ### The session database operations only add and revoke grants -/

/-- A property of new grants that revocation keeps. -/
structure NewP where
  holds : Grant → Prop
  revoke : ∀ g, holds g → holds g.revoke

/-- Grants keep their place and change at most by being revoked; new grants have the property `N`. -/
structure DbStep (N : NewP) (st st' : Store) : Prop where
  old : ∀ (r : Nat) (g : Grant), st.heap[r]? = some (.grant g) →
    st'.heap[r]? = some (.grant g) ∨ st'.heap[r]? = some (.grant g.revoke)
  new : ∀ (r : Nat) (g' : Grant), st'.heap[r]? = some (.grant g') →
    (∃ g, st.heap[r]? = some (.grant g)) ∨ N.holds g'

/-- New grants have no tokens. -/
def NoTokens : NewP := ⟨fun g => g.issuedToken = [], fun _ h => h⟩

theorem Grant.revoke_revoke (g : Grant) : g.revoke.revoke = g.revoke := rfl

section
variable {N : NewP}

theorem DbStep.refl (st : Store) : DbStep N st st := ⟨fun _ _ h => .inl h, fun _ g h => .inl ⟨g, h⟩⟩

theorem DbStep.trans {a b c : Store} (h : DbStep N a b) (h' : DbStep N b c) : DbStep N a c := by
  constructor
  · intro r g hg
    rcases h.old r g hg with h1 | h1
    · exact h'.old r g h1
    · rcases h'.old r _ h1 with h2 | h2
      · exact .inr h2
      · exact .inr h2
  · intro r g'' hg
    rcases h'.new r g'' hg with ⟨g', hg'⟩ | h1
    · rcases h.new r g' hg' with h2 | h2
      · exact .inl h2
      · right
        rcases h'.old r g' hg' with h3 | h3 <;> (rw [hg] at h3; cases h3)
        · exact h2
        · exact N.revoke _ h2
    · exact .inr h1

theorem DbStep.bind (s : Store) (k : String) (r : Nat) : DbStep N s (s.bind k r) :=
  ⟨fun _ _ h => .inl h, fun _ g h => .inl ⟨g, h⟩⟩
theorem DbStep.unbind (s : Store) (k : String) : DbStep N s (s.unbind k) :=
  ⟨fun _ _ h => .inl h, fun _ g h => .inl ⟨g, h⟩⟩

theorem DbStep.alloc (s : Store) (o : Obj) (ho : ∀ g, o = .grant g → N.holds g) :
    DbStep N s (s.alloc o).2 := by
  constructor
  · intro r g hg
    left
    simp only [Store.alloc]
    rw [List.getElem?_append_left (List.getElem?_eq_some_iff.1 hg).1]; exact hg
  · intro r g' hg
    simp only [Store.alloc, List.getElem?_append] at hg
    split at hg
    · exact .inl ⟨g', hg⟩
    · right
      cases hr : r - s.heap.length with
      | zero => rw [hr] at hg; simp at hg; exact ho g' hg
      | succ n => rw [hr] at hg; simp at hg

theorem DbStep.putInfo {s : Store} {r : Nat} {i : SInfo} (h : s.heap[r]? = some (.info i)) (i' : SInfo) :
    DbStep N s (s.put r (.info i')) := by
  constructor
  · intro r' g hg
    left
    simp only [Store.put]
    have : r ≠ r' := by rintro rfl; rw [h] at hg; cases hg
    rw [List.getElem?_set_ne this]; exact hg
  · intro r' g' hg
    simp only [Store.put] at hg
    by_cases e : r = r'
    · subst e
      rw [List.getElem?_set_self (List.getElem?_eq_some_iff.1 h).1] at hg
      cases hg
    · rw [List.getElem?_set_ne e] at hg
      exact .inl ⟨g', hg⟩

theorem DbStep.mutateRevoke (s : Store) (r : Nat) : DbStep N s (s.mutate r Obj.revoke) := by
  unfold Store.mutate
  split
  · rename_i o ho
    cases o with
    | info i => exact DbStep.putInfo ho _
    | grant g =>
      have hlt := (List.getElem?_eq_some_iff.1 ho).1
      constructor
      · intro r' g' hg'
        simp only [Store.put]
        by_cases e : r = r'
        · subst e
          right
          rw [List.getElem?_set_self hlt]
          have : g = g' := by
            have := ho.symm.trans hg'
            simpa using this
          subst this; rfl
        · left; rw [List.getElem?_set_ne e]; exact hg'
      · intro r' g' hg'
        simp only [Store.put] at hg'
        by_cases e : r = r'
        · subst e; exact .inl ⟨g, ho⟩
        · rw [List.getElem?_set_ne e] at hg'; exact .inl ⟨g', hg'⟩
  · exact DbStep.refl s

theorem lookup_heap {s : Store} {k : String} {r : Nat} {o : Obj} (h : s.lookup k = some (r, o)) :
    s.heap[r]? = some o := by
  unfold Store.lookup at h
  split at h
  · cases h
  · split at h
    · cases h
    · rename_i hobj; cases h; exact hobj

/-- A database operation that is such a step. -/
def SafeOp (N : NewP) {α : Type} (m : SE Store α) : Prop := ∀ s, DbStep N s (m s).2

theorem SafeOp.bind {α β : Type} {m : SE Store α} {f : α → SE Store β} (h : SafeOp N m) (h' : ∀ a, SafeOp N (f a)) :
    SafeOp N (m >>= f) := by
  intro s
  have h1 := h s
  rw [SE.bind_apply]
  cases hm : m s with
  | mk x s' =>
    rw [hm] at h1
    cases x with
    | error e => exact h1
    | ok a => exact h1.trans (h' a s')

theorem SafeOp.pure {α : Type} (a : α) : SafeOp N (pure a : SE Store α) := fun s => DbStep.refl s
theorem SafeOp.raise {α : Type} (e : Exc) : SafeOp N (SE.raise e : SE Store α) := fun s => DbStep.refl s

theorem safe_setClient (u c : String) (g : Option String) (val : Nat) : SafeOp N (setClient u c g val) := by
  intro s
  unfold setClient
  split
  · exact DbStep.bind _ _ _
  · split
    · exact (DbStep.alloc s _ (by rintro g ⟨⟩)).trans (DbStep.bind _ _ _)
    · exact DbStep.refl s
    · rename_i h
      split
      · exact DbStep.refl s
      · exact (DbStep.putInfo (lookup_heap h) _).trans (DbStep.bind _ _ _)

theorem safe_setUser (u : String) (c : Option String) (b : Bool) (val : Nat) : SafeOp N (setUser u c b val) := by
  intro s
  unfold setUser
  split
  · split
    · exact DbStep.bind _ _ _
    · exact DbStep.refl s
  · split
    · exact (DbStep.alloc s _ (by rintro g ⟨⟩)).trans (DbStep.bind _ _ _)
    · exact DbStep.refl s
    · rename_i h
      split
      · exact DbStep.refl s
      · exact (DbStep.putInfo (lookup_heap h) _).trans (DbStep.bind _ _ _)

theorem safe_modifyBind (k : String) (r : Nat) : SafeOp N (SE.modify (fun s : Store => s.bind k r)) :=
  fun s => DbStep.bind s k r

theorem safe_dbSet (p : Path) (val : Nat) : SafeOp N (dbSet p val) := by
  unfold dbSet
  simp only []
  cases hg : truthyId p.gid <;> cases hc : truthyId p.cid <;> simp only []
  · exact safe_setUser _ _ _ _
  · exact SafeOp.bind (safe_setClient _ _ _ _) (fun _ => safe_setUser _ _ _ _)
  · cases p.cid with
    | none => exact SafeOp.bind (SafeOp.raise _) (fun _ => safe_setUser _ _ _ _)
    | some c => exact SafeOp.bind (safe_modifyBind _ _) (fun _ => safe_setUser _ _ _ _)
  · cases p.cid with
    | none =>
      exact SafeOp.bind (SafeOp.raise _)
        (fun _ => SafeOp.bind (safe_setClient _ _ _ _) (fun _ => safe_setUser _ _ _ _))
    | some c =>
      exact SafeOp.bind (safe_modifyBind _ _)
        (fun _ => SafeOp.bind (safe_setClient _ _ _ _) (fun _ => safe_setUser _ _ _ _))

theorem safe_createGrant (u c : String) (g : Grant) (hg : N.holds g) : SafeOp N (createGrant u c g) := by
  intro s
  have h1 := DbStep.alloc s (.grant g) (by rintro _ ⟨⟩; exact hg)
  have h2 := safe_dbSet (N := N) ⟨u, some c, some g.id⟩ s.heap.length (s.alloc (.grant g)).2
  unfold createGrant
  simp only [Store.alloc] at *
  split <;> (rename_i h; rw [h] at h2; exact h1.trans h2)

theorem safe_ensureUser (u : String) : SafeOp N (ensureUser u) := by
  intro s
  unfold ensureUser
  split
  · exact DbStep.refl s
  · split
    · exact (DbStep.alloc s _ (by rintro _ ⟨⟩)).trans (safe_dbSet _ _ _)
    · exact DbStep.refl s

theorem safe_ensureClient (u c : String) : SafeOp N (ensureClient u c) := by
  intro s
  unfold ensureClient
  split
  · exact DbStep.refl s
  · split
    · exact (DbStep.alloc s _ (by rintro _ ⟨⟩)).trans (safe_dbSet _ _ _)
    · exact DbStep.refl s

theorem safe_createSession (u c : String) (g : Grant) (hg : N.holds g) : SafeOp N (createSession u c g) :=
  SafeOp.bind (safe_ensureUser u) (fun _ => SafeOp.bind (safe_ensureClient u c) (fun _ => safe_createGrant u c g hg))

theorem safe_addGrant (u c : String) (g : Grant) (hg : N.holds g) : SafeOp N (addGrant u c g) := by
  intro s
  have h1 := DbStep.alloc s (.grant g) (by rintro _ ⟨⟩; exact hg)
  have h2 := h1.trans (safe_dbSet ⟨u, some c, some g.id⟩ s.heap.length (s.alloc (.grant g)).2)
  unfold addGrant
  simp only [Store.alloc] at *
  split
  · rename_i h; rw [h] at h2; exact h2
  · rename_i h
    rw [h] at h2
    split
    · exact h2
    · split
      · rename_i rc _ _ ci hobj
        have h3 := h2.trans ((DbStep.putInfo hobj { ci with subordinate := ci.subordinate ++ [g.id] }).trans
          (safe_dbSet ⟨u, some c, none⟩ rc _))
        split <;> (rename_i h4; rw [h4] at h3; exact h3)
      · exact h2

theorem safe_revokeGrants (u c : String) (gs : List String) : SafeOp N (revokeGrants u c gs) := by
  induction gs with
  | nil => exact fun s => DbStep.refl s
  | cons g gs ih =>
    intro s
    unfold revokeGrants
    split
    · exact DbStep.refl s
    · exact (DbStep.mutateRevoke s _).trans (ih _)

theorem safe_revokeClientSession (u c : String) : SafeOp N (revokeClientSession u c) := by
  intro s
  unfold revokeClientSession
  split
  · exact DbStep.refl s
  · rename_i r _
    split
    · have h1 := (DbStep.mutateRevoke (N := N) s r).trans (safe_dbSet ⟨u, some c, none⟩ r _)
      simp only []
      split
      · rename_i h; rw [h] at h1; exact h1
      · rename_i h; rw [h] at h1; exact h1.trans (safe_revokeGrants _ _ _ _)
    · exact DbStep.refl s

theorem safe_revokeGrant (p : Path) : SafeOp N (revokeGrant p) := by
  intro s
  unfold revokeGrant
  split
  · exact DbStep.refl s
  · exact (DbStep.mutateRevoke s _).trans (safe_dbSet _ _ _)

theorem dbStep_deleteClient {u c : String} {g : Option String} {ru : Nat} {ui : SInfo} {rc : Nat} {ci : SInfo}
    {s : Store} (hu : s.heap[ru]? = some (.info ui)) (hc : s.heap[rc]? = some (.info ci)) :
    DbStep N s (deleteClient u c g ru ui rc ci s) := by
  unfold deleteClient
  simp only []
  have hput : ∀ (s' : Store) (i : SInfo), s'.heap = s.heap → ∃ j, (s'.put rc (.info i)).heap[ru]? = some (.info j) := by
    intro s' i hs'
    simp only [Store.put, hs']
    by_cases e : rc = ru
    · subst e; exact ⟨i, List.getElem?_set_self (List.getElem?_eq_some_iff.1 hc).1⟩
    · exact ⟨ui, by rw [List.getElem?_set_ne e]; exact hu⟩
  cases g with
  | some gid =>
    simp only []
    have h1 : DbStep N s ((s.unbind (key3 u c gid)).put rc (.info { ci with subordinate := removeFirst gid ci.subordinate })) :=
      (DbStep.unbind _ _).trans (DbStep.putInfo (s := s.unbind (key3 u c gid)) hc _)
    split
    · obtain ⟨j, hj⟩ := hput (s.unbind (key3 u c gid)) { ci with subordinate := removeFirst gid ci.subordinate } rfl
      exact h1.trans ((DbStep.unbind _ _).trans (DbStep.putInfo (s := Store.unbind _ (key2 u c)) (i := j) hj _))
    · exact h1.trans (DbStep.bind _ _ _)
  | none =>
    simp only []
    have key : ∀ s0 : Store, s0.heap = s.heap → DbStep N s s0 →
        DbStep N s ((s0.put rc (.info { ci with subordinate := [] })).unbind (key2 u c) |>.put ru
          (.info { ui with subordinate := removeFirst c ui.subordinate })) := by
      intro s0 hs0 h0
      have h1 : DbStep N s0 (s0.put rc (.info { ci with subordinate := [] })) := DbStep.putInfo (hs0 ▸ hc) _
      obtain ⟨j, hj⟩ := hput s0 { ci with subordinate := [] } hs0
      exact h0.trans (h1.trans ((DbStep.unbind _ _).trans
        (DbStep.putInfo (s := (s0.put rc (.info { ci with subordinate := [] })).unbind (key2 u c)) (i := j) hj _)))
    simp only [List.isEmpty_nil, if_true]
    split
    · exact key s rfl (DbStep.refl s)
    · exact key (s.unbind (key3 u c "")) rfl (DbStep.unbind _ _)

theorem dbStep_deleteUserIfEmpty (u : String) (ru : Nat) (s s0 : Store) :
    DbStep N s (deleteUserIfEmpty u ru s s0).2 := by
  unfold deleteUserIfEmpty
  split
  · split
    · exact DbStep.unbind _ _
    · exact DbStep.bind _ _ _
  · exact DbStep.refl s

theorem safe_dbDelete (p : Path) : SafeOp N (dbDelete p) := by
  intro s
  unfold dbDelete
  split
  · exact DbStep.refl s
  · rename_i hu
    split
    · exact DbStep.unbind _ _
    · split
      · exact DbStep.refl s
      · split
        · split
          · exact DbStep.unbind _ _
          · exact DbStep.refl s
        · split
          · exact dbStep_deleteUserIfEmpty _ _ _ _
          · split
            · exact DbStep.unbind _ _
            · exact DbStep.refl s
          · rename_i hc
            exact (dbStep_deleteClient (lookup_heap hu) (lookup_heap hc)).trans (dbStep_deleteUserIfEmpty _ _ _ _)

theorem safe_removeSession (u c g : String) : SafeOp N (removeSession u c g) := safe_dbDelete _
theorem safe_aliasSid (sid : String) (r : Nat) : SafeOp N (aliasSid sid r) := safe_dbSet _ _

end

/-! ### Atomic steps -/

/-- The part of the provider's state that the atomic steps work on. -/
structure Core where
  st : Store
  n : Nat
  now : Int

def World.core (w : World) : Core := ⟨w.st, w.n, w.now⟩

/-- The grant at a place in the heap. -/
def Store.grantAt (s : Store) (r : Nat) : Option Grant :=
  match s.heap[r]? with
  | some (.grant g) => some g
  | _ => none

theorem grantAt_iff {s : Store} {r : Nat} {g : Grant} : s.grantAt r = some g ↔ s.heap[r]? = some (.grant g) := by
  unfold Store.grantAt
  constructor
  · intro h
    split at h
    · rename_i g' hg'; cases h; exact hg'
    · cases h
  · intro h; rw [h]

theorem grantAt_put_self {s : Store} {r : Nat} {g : Grant} (h : s.grantAt r = some g) (g' : Grant) :
    (s.put r (.grant g')).grantAt r = some g' := by
  rw [grantAt_iff] at *
  exact List.getElem?_set_self (List.getElem?_eq_some_iff.1 h).1

theorem grantAt_put_ne (s : Store) {r r' : Nat} (h : r ≠ r') (o : Obj) :
    (s.put r o).grantAt r' = s.grantAt r' := by
  unfold Store.grantAt Store.put
  rw [List.getElem?_set_ne h]

/-- One atomic step.  `S` is what is known of the session ids that tokens are minted for. -/
inductive Atom (E : Env) (S : String → Prop) : Core → Core → Prop where
  | tick (c : Core) (d : Nat) : Atom E S c { c with now := c.now + d }
  | db (c : Core) (st' : Store) (k : Nat) : DbStep NoTokens c.st st' → Atom E S c { c with st := st', n := c.n + k }
  | micro (c : Core) (r : Nat) (sid : String) (g : Grant) (gs : GS) : c.st.grantAt r = some g →
      (S sid ∨ gs.g.issuedToken.length = g.issuedToken.length) →
      GMicro (minter E sid) c.now ⟨g, c.n⟩ gs →
      Atom E S c { c with st := c.st.put r (.grant gs.g), n := gs.n }

/-- A sequence of atomic steps. -/
inductive Chain (E : Env) (S : String → Prop) : Core → Core → Prop where
  | refl (c : Core) : Chain E S c c
  | snoc {c c' c'' : Core} : Chain E S c c' → Atom E S c' c'' → Chain E S c c''

theorem Chain.one {E : Env} {S : String → Prop} {c c' : Core} (h : Atom E S c c') : Chain E S c c' := .snoc (.refl _) h

theorem Chain.trans {E : Env} {S : String → Prop} {a b c : Core} (h : Chain E S a b) (h' : Chain E S b c) : Chain E S a c := by
  induction h' with
  | refl => exact h
  | snoc _ g ih => exact .snoc ih g

theorem put_put (s : Store) (r : Nat) (o o' : Obj) : (s.put r o).put r o' = s.put r o' := by
  simp [Store.put]

theorem put_self {s : Store} {r : Nat} {g : Grant} (h : s.grantAt r = some g) : s.put r (.grant g) = s := by
  rw [grantAt_iff] at h
  unfold Store.put
  congr 1
  apply List.ext_getElem?
  intro i
  by_cases e : r = i
  · subst e; rw [List.getElem?_set_self (List.getElem?_eq_some_iff.1 h).1, h]
  · rw [List.getElem?_set_ne e]

theorem modifyFirst_length (v : String) (f : Token → Token) (ts : List Token) :
    (modifyFirst v f ts).length = ts.length := by
  induction ts with
  | nil => rfl
  | cons t r ih => unfold modifyFirst; split <;> simp [ih]

theorem micros_length {mk : Minter} {clock : Int} {s s' : GS} (h : Micros mk clock s s') :
    s.g.issuedToken.length ≤ s'.g.issuedToken.length := by
  induction h with
  | refl => exact Nat.le_refl _
  | snoc _ h2 ih =>
    refine Nat.le_trans ih ?_
    cases h2 with
    | call => exact Nat.le_refl _
    | mint => simp
    | use => simp [Grant.updateToken, modifyFirst_length]
    | revoke ts hr => simp [hr.1]
    | attrs g' h1 => simp [h1]

/-- Small steps on a stored grant are atomic steps. -/
theorem chain_micros {E : Env} {S : String → Prop} {c : Core} {r : Nat} {sid : String} {g : Grant} {gs : GS}
    (hg : c.st.grantAt r = some g) (h : Micros (minter E sid) c.now ⟨g, c.n⟩ gs)
    (hS : S sid ∨ gs.g.issuedToken.length = g.issuedToken.length) :
    Chain E S c { c with st := c.st.put r (.grant gs.g), n := gs.n } := by
  generalize hs : (⟨g, c.n⟩ : GS) = s at h
  induction h with
  | refl => subst hs; simp only [put_self hg]; exact .refl _
  | snoc h1 h2 ih =>
    rename_i s' s''
    have hl1 := micros_length h1
    have hl2 := micros_length (.one h2)
    subst hs
    simp only [] at hl1
    refine .snoc (ih (hS.imp id (fun h => by omega))) ?_
    have h3 := Atom.micro (E := E) (S := S) { c with st := c.st.put r (.grant s'.g), n := s'.n } r sid s'.g s''
      (grantAt_put_self hg _) (hS.imp id (fun h => by omega)) h2
    simpa only [put_put] using h3

/-! ### Invariants of atomic steps -/

/-- The token without its mutable part. -/
def Token.static (t : Token) : Token := { t with revoked := false, used := 0 }

theorem revMono_static {ts ts' : List Token} (h : RevMono ts ts') : ts'.map Token.static = ts.map Token.static := by
  apply List.ext_getElem?
  intro i
  simp only [List.getElem?_map]
  cases ht : ts[i]? with
  | none =>
    have : ts'[i]? = none := by
      rw [List.getElem?_eq_none_iff] at *
      have := h.1; omega
    simp [this]
  | some t =>
    obtain ⟨r, h1, _⟩ := h.2 i t ht
    simp [h1, Token.static]

theorem modifyFirst_static (v : String) (ts : List Token) :
    (modifyFirst v Token.registerUsage ts).map Token.static = ts.map Token.static := by
  induction ts with
  | nil => rfl
  | cons t r ih =>
    unfold modifyFirst
    split
    · simp [Token.static, Token.registerUsage]
    · simp [ih]

theorem static_get {ts ts' : List Token} (h : ts'.map Token.static = ts.map Token.static) {i : Nat} {t' : Token}
    (ht : ts'[i]? = some t') : ∃ t, ts[i]? = some t ∧ t'.static = t.static := by
  have h1 : (ts'.map Token.static)[i]? = some t'.static := by simp [ht]
  rw [h] at h1
  simp only [List.getElem?_map, Option.map_eq_some_iff] at h1
  obtain ⟨t, h2, h3⟩ := h1
  exact ⟨t, h2, h3.symm⟩

theorem static_fields {t t' : Token} (h : t'.static = t.static) :
    t'.cls = t.cls ∧ t'.value = t.value ∧ t'.basedOn = t.basedOn ∧ t'.rules = t.rules ∧ t'.scope = t.scope ∧
      t'.issuedAt = t.issuedAt ∧ t'.expiresAt = t.expiresAt ∧ t'.notBefore = t.notBefore := by
  have := congrArg Token.cls h
  have := congrArg Token.value h
  have := congrArg Token.basedOn h
  have := congrArg Token.rules h
  have := congrArg Token.scope h
  have := congrArg Token.issuedAt h
  have := congrArg Token.expiresAt h
  have := congrArg Token.notBefore h
  simp only [Token.static] at *
  exact ⟨‹_›, ‹_›, ‹_›, ‹_›, ‹_›, ‹_›, ‹_›, ‹_›⟩

/-- What holds of the tokens in every reachable state. -/
structure CInv (E : Env) (S : String → Prop) (c : Core) : Prop where
  prov : ∀ (r : Nat) (g : Grant) (i : Nat) (t : Token), c.st.grantAt r = some g → g.issuedToken[i]? = some t →
    ∃ (k : Nat) (sid : String), k < c.n ∧ E.Made k t.cls sid t.value ∧ S sid
  uniq : ∀ (r r' : Nat) (g g' : Grant) (i i' : Nat) (t t' : Token), c.st.grantAt r = some g → c.st.grantAt r' = some g' →
    g.issuedToken[i]? = some t → g'.issuedToken[i']? = some t' → t.value = t'.value → r = r' ∧ i = i'
  scope : ∀ (r : Nat) (g : Grant) (i : Nat) (t : Token), c.st.grantAt r = some g → g.issuedToken[i]? = some t → t.cls ≠ .idToken →
    ∀ x ∈ t.scope, x ∈ g.scope
  based : ∀ (r : Nat) (g : Grant) (i : Nat) (t : Token) (v : String), c.st.grantAt r = some g → g.issuedToken[i]? = some t → t.basedOn = some v →
    ∃ j p, j < i ∧ g.issuedToken[j]? = some p ∧ p.value = v ∧ IsBase p
  once : ∀ (r : Nat) (g : Grant) (i : Nat) (t : Token), c.st.grantAt r = some g → g.issuedToken[i]? = some t → t.cls = .authorizationCode →
    t.rules.maxUsage = some 1

theorem CInv.of_static {E : Env} {S : String → Prop} {c c' : Core} (h : CInv E S c) (hn : c.n ≤ c'.n)
    (hs : ∀ r g', c'.st.grantAt r = some g' → g'.issuedToken = [] ∨
      ∃ g, c.st.grantAt r = some g ∧ g'.issuedToken.map Token.static = g.issuedToken.map Token.static ∧
        ∀ x ∈ g.scope, x ∈ g'.scope) : CInv E S c' := by
  have key : ∀ (r : Nat) (g' : Grant) (i : Nat) (t' : Token), c'.st.grantAt r = some g' → g'.issuedToken[i]? = some t' →
      ∃ g t, c.st.grantAt r = some g ∧ g.issuedToken[i]? = some t ∧ t'.static = t.static ∧
        g'.issuedToken.map Token.static = g.issuedToken.map Token.static ∧ ∀ x ∈ g.scope, x ∈ g'.scope := by
    intro r g' i t' hg' ht'
    rcases hs r g' hg' with h1 | ⟨g, h1, h2, h3⟩
    · rw [h1] at ht'; simp at ht'
    · obtain ⟨t, h4, h5⟩ := static_get h2 ht'
      exact ⟨g, t, h1, h4, h5, h2, h3⟩
  constructor
  · intro r g' i t' hg' ht'
    obtain ⟨g, t, h1, h2, h3, _⟩ := key r g' i t' hg' ht'
    obtain ⟨k, sid, hk, hv, hS⟩ := h.prov r g i t h1 h2
    have hf := static_fields h3
    exact ⟨k, sid, by omega, by rw [hf.2.1, hf.1]; exact hv, hS⟩
  · intro r r' g g' i i' t t' hg hg' ht ht' he
    obtain ⟨g1, t1, h1, h2, h3, _⟩ := key r g i t hg ht
    obtain ⟨g2, t2, h4, h5, h6, _⟩ := key r' g' i' t' hg' ht'
    exact h.uniq r r' g1 g2 i i' t1 t2 h1 h4 h2 h5
      (by rw [← (static_fields h3).2.1, ← (static_fields h6).2.1, he])
  · intro r g' i t' hg' ht' hc x hx
    obtain ⟨g, t, h1, h2, h3, _, h5⟩ := key r g' i t' hg' ht'
    have hf := static_fields h3
    exact h5 x (h.scope r g i t h1 h2 (by rw [← hf.1]; exact hc) x (by rw [← hf.2.2.2.2.1]; exact hx))
  · intro r g' i t' v hg' ht' hb
    obtain ⟨g, t, h1, h2, h3, h4, _⟩ := key r g' i t' hg' ht'
    have hf := static_fields h3
    obtain ⟨j, p, hj, hp, hv, hbp⟩ := h.based r g i t v h1 h2 (by rw [← hf.2.2.1]; exact hb)
    obtain ⟨p', hp', hps⟩ := static_get h4.symm hp
    have hfp := static_fields hps
    refine ⟨j, p', hj, hp', by rw [← hfp.2.1]; exact hv, ?_⟩
    unfold IsBase at *
    rw [← hfp.1]; exact hbp
  · intro r g' i t' hg' ht' hc
    obtain ⟨g, t, h1, h2, h3, _⟩ := key r g' i t' hg' ht'
    have hf := static_fields h3
    rw [hf.2.2.2.1]
    exact h.once r g i t h1 h2 (by rw [← hf.1]; exact hc)

theorem CInv.distinct {E : Env} {S : String → Prop} {c : Core} (h : CInv E S c) {r : Nat} {g : Grant} (hg : c.st.grantAt r = some g) :
    (g.issuedToken.map Token.value).Nodup := by
  rw [List.nodup_iff_pairwise_ne, List.pairwise_iff_getElem]
  intro i j hi hj hij he
  simp only [List.length_map] at hi hj
  simp only [List.getElem_map] at he
  have := (h.uniq r r g g i j _ _ hg hg (List.getElem?_eq_getElem hi) (List.getElem?_eq_getElem hj) he).2
  omega

theorem CInv.getToken {E : Env} {S : String → Prop} {c : Core} (h : CInv E S c) {r : Nat} {g : Grant} (hg : c.st.grantAt r = some g)
    {i : Nat} {t : Token} (ht : g.issuedToken[i]? = some t) : g.getToken t.value = some t :=
  (getToken_eq_some_iff (h.distinct hg) _ _).2 ⟨List.mem_of_getElem? ht, rfl⟩

/-- The scopes that `find_scope` finds on a chain of basis tokens are the grant's. -/
theorem CInv.findScopeFuel {E : Env} {S : String → Prop} {c : Core} (h : CInv E S c) {r : Nat} {g : Grant} (hg : c.st.grantAt r = some g)
    (fuel : Nat) (t : Token) (ht : t ∈ g.issuedToken) (hb : t.cls ≠ .idToken) (sc : List String)
    (hs : g.findScopeFuel fuel t = .ok sc) : ∀ x ∈ sc, x ∈ g.scope := by
  induction fuel generalizing t with
  | zero => simp [Grant.findScopeFuel] at hs
  | succ n ih =>
    obtain ⟨i, hi⟩ := List.getElem?_of_mem ht
    unfold Grant.findScopeFuel at hs
    split at hs
    · cases hs; exact h.scope r g i t hg hi hb
    · split at hs
      · cases hs; exact fun _ hx => hx
      · rename_i v hv
        split at hs
        · cases hs; exact fun _ hx => hx
        · obtain ⟨j, p, _, hp, hpv, hbp⟩ := h.based r g i t v hg hi hv
          have hget := h.getToken hg hp
          rw [hpv] at hget
          rw [hget] at hs
          refine ih p (List.mem_of_getElem? hp) ?_ hs
          rcases hbp with h | h <;> rw [h] <;> simp

theorem CInv.findScope {E : Env} {S : String → Prop} {c : Core} (h : CInv E S c) {r : Nat} {g : Grant} (hg : c.st.grantAt r = some g)
    {i : Nat} {t : Token} (ht : g.issuedToken[i]? = some t) {sc : List String} (hs : g.findScope t.basedOn = .ok sc) :
    ∀ x ∈ sc, x ∈ g.scope := by
  unfold Grant.findScope at hs
  split at hs
  · cases hs; exact fun _ hx => hx
  · rename_i v hv
    obtain ⟨j, p, _, hp, hpv, hbp⟩ := h.based r g i t v hg ht hv
    have hget := h.getToken hg hp
    rw [hpv] at hget
    rw [hget] at hs
    refine h.findScopeFuel hg _ p (List.mem_of_getElem? hp) ?_ sc hs
    rcases hbp with h | h <;> rw [h] <;> simp

/-- `find_scope` finds the scope a reference carries. -/
theorem CInv.effScopeFuel {E : Env} {S : String → Prop} {c : Core} (h : CInv E S c) {r : Nat} {g : Grant}
    (hg : c.st.grantAt r = some g) (fuel : Nat) (t : Token) (ht : t ∈ g.issuedToken) (sc : List String)
    (hs : g.findScopeFuel fuel t = .ok sc) : EffScope g (some t.value) sc := by
  induction fuel generalizing t with
  | zero => simp [Grant.findScopeFuel] at hs
  | succ n ih =>
    obtain ⟨i, hi⟩ := List.getElem?_of_mem ht
    unfold Grant.findScopeFuel at hs
    split at hs
    · rename_i hne
      cases hs
      exact .own ht (by rintro e; simp [e] at hne)
    · rename_i hemp
      have hemp : t.scope = [] := by simpa using hemp
      refine .up ht hemp ?_
      split at hs
      · rename_i hb
        cases hs; rw [hb]; exact .root
      · rename_i v hv
        obtain ⟨j, p, _, hp, hpv, hbp⟩ := h.based r g i t v hg hi hv
        have hget := h.getToken hg hp
        rw [hpv] at hget
        obtain ⟨k, sid, _, hk, _⟩ := h.prov r g j p hg hp
        split at hs
        · rename_i hne
          simp only [beq_iff_eq] at hne
          rw [← hpv] at hne
          exact absurd hne hk.ne
        · rw [hget] at hs
          rw [hv, ← hpv]
          exact ih p (List.mem_of_getElem? hp) hs

theorem CInv.effScope {E : Env} {S : String → Prop} {c : Core} (h : CInv E S c) {r : Nat} {g : Grant}
    (hg : c.st.grantAt r = some g) {i : Nat} {t : Token} (ht : g.issuedToken[i]? = some t) {sc : List String}
    (hs : g.findScope t.basedOn = .ok sc) : EffScope g t.basedOn sc := by
  unfold Grant.findScope at hs
  split at hs
  · rename_i hb; cases hs; rw [hb]; exact .root
  · rename_i v hv
    obtain ⟨j, p, _, hp, hpv, hbp⟩ := h.based r g i t v hg ht hv
    have hget := h.getToken hg hp
    rw [hpv] at hget
    rw [hget] at hs
    rw [hv, ← hpv]
    exact h.effScopeFuel hg _ p (List.mem_of_getElem? hp) sc hs

/-- The recursion of `find_scope` ends: parents are older. -/
theorem CInv.findScope_total {E : Env} {S : String → Prop} {c : Core} (h : CInv E S c) {r : Nat} {g : Grant}
    (hg : c.st.grantAt r = some g) (fuel : Nat) (i : Nat) (t : Token) (ht : g.issuedToken[i]? = some t) (hf : i < fuel) :
    ∃ sc, g.findScopeFuel fuel t = .ok sc := by
  induction fuel generalizing i t with
  | zero => omega
  | succ n ih =>
    unfold Grant.findScopeFuel
    split
    · exact ⟨_, rfl⟩
    · split
      · exact ⟨_, rfl⟩
      · rename_i v hv
        split
        · exact ⟨_, rfl⟩
        · obtain ⟨j, p, hj, hp, hpv, hbp⟩ := h.based r g i t v hg ht hv
          have hget := h.getToken hg hp
          rw [hpv] at hget
          rw [hget]
          exact ih j p hp (by omega)

theorem minter_ok {E : Env} {sid : String} {n : Nat} {c : TokenClass} {v : String} (h : minter E sid n c = .ok v) :
    E.Made n c sid v := by
  unfold minter at h
  split at h
  · cases h
  · rename_i hf
    cases h; exact ⟨hf, rfl⟩

theorem cinv_mint {E : Env} {S : String → Prop} {c : Core} (h : CInv E S c) {r : Nat} {sid : String} {g : Grant}
    (hg : c.st.grantAt r = some g) {cl : TokenClass} {b : Option Token} {v : String} {t : Token}
    (hv : minter E sid c.n cl = .ok v) (hS : S sid) (hf : Fresh c.now g cl b v t) :
    CInv E S { c with
      st := c.st.put r (.grant { g with issuedToken := g.issuedToken ++ [t], used := g.used + 1 })
      n := c.n + 1 } := by
  have hval := minter_ok hv
  -- every token is an old one or the new one
  have key : ∀ (r' : Nat) (g' : Grant) (i : Nat) (t' : Token), (c.st.put r (.grant { g with issuedToken := g.issuedToken ++ [t], used := g.used + 1 })).grantAt r' = some g' →
      g'.issuedToken[i]? = some t' →
      (∃ g0, c.st.grantAt r' = some g0 ∧ g0.issuedToken[i]? = some t' ∧ g0.scope = g'.scope ∧
        ∀ (j : Nat) (p : Token), g0.issuedToken[j]? = some p → g'.issuedToken[j]? = some p) ∨
      (r' = r ∧ i = g.issuedToken.length ∧ t' = t ∧
        g' = { g with issuedToken := g.issuedToken ++ [t], used := g.used + 1 }) := by
    intro r' g' i t' hg' ht'
    by_cases e : r = r'
    · subst e
      rw [grantAt_put_self hg] at hg'
      cases hg'
      by_cases hi : i < g.issuedToken.length
      · left
        refine ⟨g, hg, ?_, rfl, ?_⟩
        · simpa [List.getElem?_append_left hi] using ht'
        · intro j p hp
          have := (List.getElem?_eq_some_iff.1 hp).1
          simp only []
          rw [List.getElem?_append_left this]; exact hp
      · right
        have hlt := (List.getElem?_eq_some_iff.1 ht').1
        simp at hlt
        have hi' : i = g.issuedToken.length := by omega
        refine ⟨rfl, hi', ?_, rfl⟩
        subst hi'
        simp at ht'
        exact ht'.symm
    · rw [grantAt_put_ne _ e] at hg'
      exact .inl ⟨g', hg', ht', rfl, fun _ _ hp => hp⟩
  constructor
  · intro r' g' i t' hg' ht'
    rcases key r' g' i t' hg' ht' with ⟨g0, h1, h2, _⟩ | ⟨_, _, rfl, _⟩
    · obtain ⟨k, s, hk, hh, hS'⟩ := h.prov r' g0 i t' h1 h2
      exact ⟨k, s, Nat.lt_succ_of_lt hk, hh, hS'⟩
    · exact ⟨c.n, sid, Nat.lt_succ_self _, by rw [hf.value, hf.cls]; exact hval, hS⟩
  · intro r1 r2 g1 g2 i1 i2 t1 t2 hg1 hg2 ht1 ht2 he
    rcases key r1 g1 i1 t1 hg1 ht1 with ⟨g0, h1, h2, _⟩ | ⟨e1, e2, e3, _⟩ <;>
      rcases key r2 g2 i2 t2 hg2 ht2 with ⟨g0', h1', h2', _⟩ | ⟨e1', e2', e3', _⟩
    · exact h.uniq r1 r2 g0 g0' i1 i2 t1 t2 h1 h1' h2 h2' he
    · obtain ⟨k, s, hk, hh, hS'⟩ := h.prov r1 g0 i1 t1 h1 h2
      subst e3'
      rw [hf.value] at he
      have := (hval.inj (he ▸ hh)).1
      omega
    · obtain ⟨k, s, hk, hh, hS'⟩ := h.prov r2 g0' i2 t2 h1' h2'
      subst e3
      rw [hf.value] at he
      have := (hval.inj (he ▸ hh)).1
      omega
    · exact ⟨e1.trans e1'.symm, e2.trans e2'.symm⟩
  · intro r' g' i t' hg' ht' hc x hx
    rcases key r' g' i t' hg' ht' with ⟨g0, h1, h2, h3, _⟩ | ⟨_, _, rfl, rfl⟩
    · rw [← h3]; exact h.scope r' g0 i t' h1 h2 hc x hx
    · rcases hf.scope (by rw [← hf.cls]; exact hc) with h1 | ⟨p, hp, h1⟩
      · exact h1 x hx
      · obtain ⟨h2, h3, _⟩ := hf.base p hp
        exact h.findScopeFuel hg _ p h2 (by rcases h3 with h | h <;> rw [h] <;> simp) _ h1 x hx
  · intro r' g' i t' u hg' ht' hb
    rcases key r' g' i t' hg' ht' with ⟨g0, h1, h2, _, h4⟩ | ⟨_, hi, rfl, rfl⟩
    · obtain ⟨j, p, hj, hp, hpv, hbp⟩ := h.based r' g0 i t' u h1 h2 hb
      exact ⟨j, p, hj, h4 j p hp, hpv, hbp⟩
    · rw [hf.basedOn] at hb
      cases b with
      | none => cases hb
      | some p =>
        simp at hb
        obtain ⟨h2, h3, _⟩ := hf.base p rfl
        obtain ⟨j, hj⟩ := List.getElem?_of_mem h2
        have hlt := (List.getElem?_eq_some_iff.1 hj).1
        exact ⟨j, p, by omega, by simp only []; rw [List.getElem?_append_left hlt]; exact hj, hb, h3⟩
  · intro r' g' i t' hg' ht' hc
    rcases key r' g' i t' hg' ht' with ⟨g0, h1, h2, _⟩ | ⟨_, _, rfl, _⟩
    · exact h.once r' g0 i t' h1 h2 hc
    · exact hf.codeOnce (by rw [← hf.cls]; exact hc)

theorem dbStep_tokens {st st' : Store} (h : DbStep NoTokens st st') {r : Nat} {g' : Grant} (hg : st'.grantAt r = some g') :
    g'.issuedToken = [] ∨ ∃ g, st.grantAt r = some g ∧ (g' = g ∨ g' = g.revoke) := by
  rw [grantAt_iff] at hg
  rcases h.new r g' hg with ⟨g, h1⟩ | h1
  · right
    refine ⟨g, grantAt_iff.2 h1, ?_⟩
    rcases h.old r g h1 with h2 | h2 <;> (rw [hg] at h2; cases h2)
    · exact .inl rfl
    · exact .inr rfl
  · exact .inl h1

theorem cinv_atom {E : Env} {S : String → Prop} {c c' : Core} (h : CInv E S c) (ha : Atom E S c c') : CInv E S c' := by
  cases ha with
  | tick d => exact h.of_static (Nat.le_refl _) (fun r g hg => .inr ⟨g, hg, rfl, fun _ hx => hx⟩)
  | db st' k hst =>
    refine h.of_static (Nat.le_add_right _ _) (fun r g' hg' => ?_)
    rcases dbStep_tokens hst hg' with h1 | ⟨g, h1, rfl | rfl⟩
    · exact .inl h1
    · exact .inr ⟨g', h1, rfl, fun _ hx => hx⟩
    · exact .inr ⟨g, h1, rfl, fun _ hx => hx⟩
  | micro r sid g gs hg hS hm =>
    have hstat : ∀ {g1 : Grant} {n1 : Nat}, c.n ≤ n1 →
        g1.issuedToken.map Token.static = g.issuedToken.map Token.static → (∀ x ∈ g.scope, x ∈ g1.scope) →
        CInv E S { c with st := c.st.put r (.grant g1), n := n1 } := by
      intro g1 n1 hn hst hsc
      refine h.of_static hn (fun r' g' hg' => ?_)
      by_cases e : r = r'
      · subst e
        simp only [] at hg'
        rw [grantAt_put_self hg] at hg'
        cases hg'
        exact .inr ⟨g, hg, hst, hsc⟩
      · simp only [] at hg'
        rw [grantAt_put_ne _ e] at hg'
        exact .inr ⟨g', hg', rfl, fun _ hx => hx⟩
    cases hm with
    | call => exact hstat (Nat.le_succ _) rfl (fun _ hx => hx)
    | mint cl b v t hv hf =>
      rcases hS with hS | hS
      · exact cinv_mint h hg hv hS hf
      · simp at hS
    | use v => exact hstat (Nat.le_refl _) (modifyFirst_static _ _) (fun _ hx => hx)
    | revoke ts hr => exact hstat (Nat.le_refl _) (revMono_static hr) (fun _ hx => hx)
    | attrs g' h1 h2 h3 h4 h5 _ h6 h7 =>
      refine hstat (Nat.le_refl _) (by rw [h1]) (fun x hx => ?_)
      have : g.scope ≠ [] := by rintro e; rw [e] at hx; cases hx
      rw [h7 this]; exact hx

theorem cinv_chain {E : Env} {S : String → Prop} {c c' : Core} (h : CInv E S c) (hc : Chain E S c c') : CInv E S c' := by
  induction hc with
  | refl => exact h
  | snoc _ ha ih => exact cinv_atom ih ha

/-! ### What never changes back -/

/-- `t'` is `t`, possibly used and revoked in addition. -/
structure TokenLe (t t' : Token) : Prop where
  static : t'.static = t.static
  revoked : t.revoked = true → t'.revoked = true
  used : t.used ≤ t'.used

theorem TokenLe.refl (t : Token) : TokenLe t t := ⟨rfl, id, Nat.le_refl _⟩
theorem TokenLe.trans {a b c : Token} (h : TokenLe a b) (h' : TokenLe b c) : TokenLe a c :=
  ⟨h'.static.trans h.static, fun x => h'.revoked (h.revoked x), Nat.le_trans h.used h'.used⟩

/-- How a grant can develop. -/
structure GrantLe (g g' : Grant) : Prop where
  tokens : ∀ (i : Nat) (t : Token), g.issuedToken[i]? = some t → ∃ t', g'.issuedToken[i]? = some t' ∧ TokenLe t t'
  revoked : g.revoked = true → g'.revoked = true ∧ g'.issuedToken.length = g.issuedToken.length
  scope : g.scope ≠ [] → g'.scope = g.scope
  id : g'.id = g.id
  sub : g'.sub = g.sub
  authzReq : g'.authzReq = g.authzReq
  authnEvent : g'.authnEvent = g.authnEvent
  issuedAt : g'.issuedAt = g.issuedAt

theorem GrantLe.refl (g : Grant) : GrantLe g g :=
  ⟨fun _ t h => ⟨t, h, TokenLe.refl t⟩, fun h => ⟨h, rfl⟩, fun _ => rfl, rfl, rfl, rfl, rfl, rfl⟩

theorem GrantLe.trans {a b c : Grant} (h : GrantLe a b) (h' : GrantLe b c) : GrantLe a c := by
  refine ⟨fun i t ht => ?_, fun hr => ?_, fun hs => ?_, h'.id.trans h.id, h'.sub.trans h.sub,
    h'.authzReq.trans h.authzReq, h'.authnEvent.trans h.authnEvent, h'.issuedAt.trans h.issuedAt⟩
  · obtain ⟨t', h1, h2⟩ := h.tokens i t ht
    obtain ⟨t'', h3, h4⟩ := h'.tokens i t' h1
    exact ⟨t'', h3, h2.trans h4⟩
  · obtain ⟨h1, h2⟩ := h.revoked hr
    obtain ⟨h3, h4⟩ := h'.revoked h1
    exact ⟨h3, h4.trans h2⟩
  · have := h.scope hs
    rw [← this]; exact h'.scope (by rw [this]; exact hs)

theorem _root_.OidcOp.Spec.EffScope.mono {g g' : Grant} (hle : GrantLe g g') {o : Option String} {sc : List String}
    (h : EffScope g o sc) : ∃ sc', EffScope g' o sc' ∧ ∀ x ∈ sc, x ∈ sc' := by
  induction h with
  | root =>
    refine ⟨_, .root, fun x hx => ?_⟩
    rw [hle.scope (by rintro e; rw [e] at hx; cases hx)]; exact hx
  | own ht hs =>
    obtain ⟨i, hi⟩ := List.getElem?_of_mem ht
    obtain ⟨t', h1, h2⟩ := hle.tokens i _ hi
    have hf := static_fields h2.static
    have h3 := EffScope.own (List.mem_of_getElem? h1) (by rw [hf.2.2.2.2.1]; exact hs)
    rw [hf.2.1] at h3
    exact ⟨_, h3, fun x hx => by rw [hf.2.2.2.2.1]; exact hx⟩
  | up ht hs _ ih =>
    obtain ⟨sc', h3, h4⟩ := ih
    obtain ⟨i, hi⟩ := List.getElem?_of_mem ht
    obtain ⟨t', h1, h2⟩ := hle.tokens i _ hi
    have hf := static_fields h2.static
    have h5 := EffScope.up (List.mem_of_getElem? h1) (by rw [hf.2.2.2.2.1]; exact hs) (by rw [hf.2.2.1]; exact h3)
    rw [hf.2.1] at h5
    exact ⟨_, h5, h4⟩

theorem grantLe_revoke (g : Grant) : GrantLe g g.revoke :=
  ⟨fun _ t h => ⟨t, h, TokenLe.refl t⟩, fun _ => ⟨rfl, rfl⟩, fun _ => rfl, rfl, rfl, rfl, rfl, rfl⟩

theorem use_tokens (v : String) (ts : List Token) (i : Nat) (t : Token) (h : ts[i]? = some t) :
    ∃ t', (modifyFirst v Token.registerUsage ts)[i]? = some t' ∧ TokenLe t t' := by
  induction ts generalizing i with
  | nil => simp at h
  | cons x r ih =>
    unfold modifyFirst
    cases i with
    | zero =>
      simp at h; subst h
      split
      · exact ⟨x.registerUsage, by simp, rfl, id, by simp [Token.registerUsage]⟩
      · exact ⟨x, by simp, TokenLe.refl _⟩
    | succ i =>
      simp at h
      split
      · exact ⟨t, by simpa using h, TokenLe.refl _⟩
      · simpa using ih i h

theorem grantLe_micro {mk : Minter} {clock : Int} {s s' : GS} (h : GMicro mk clock s s') : GrantLe s.g s'.g := by
  cases h with
  | call => exact GrantLe.refl _
  | mint c b v t hv hf =>
    refine ⟨fun i u hu => ⟨u, ?_, TokenLe.refl u⟩, fun hr => ?_, fun _ => rfl, rfl, rfl, rfl, rfl, rfl⟩
    · simp only []
      rw [List.getElem?_append_left (List.getElem?_eq_some_iff.1 hu).1]; exact hu
    · have := hf.grantActive.1
      have h2 : s.g.revoked = false := this
      rw [h2] at hr; cases hr
  | use v =>
    exact ⟨fun i t ht => use_tokens v _ i t ht, fun hr => ⟨hr, modifyFirst_length _ _ _⟩, fun _ => rfl, rfl, rfl, rfl, rfl, rfl⟩
  | revoke ts hr =>
    refine ⟨fun i t ht => ?_, fun h => ⟨h, hr.1⟩, fun _ => rfl, rfl, rfl, rfl, rfl, rfl⟩
    obtain ⟨b, h1, h2⟩ := hr.2 i t ht
    exact ⟨_, h1, rfl, h2, Nat.le_refl _⟩
  | attrs g' h1 h2 h3 h4 h5 h8 h6 h7 =>
    exact ⟨fun i t ht => ⟨t, by simp only [h1]; exact ht, TokenLe.refl t⟩, fun hr => ⟨by rw [h6]; exact hr, by rw [h1]⟩,
      h7, h2, h3, h4, h5, h8⟩

theorem grantLe_atom {E : Env} {S : String → Prop} {c c' : Core} (h : Atom E S c c') {r : Nat} {g : Grant} (hg : c.st.grantAt r = some g) :
    ∃ g', c'.st.grantAt r = some g' ∧ GrantLe g g' := by
  cases h with
  | tick => exact ⟨g, hg, GrantLe.refl g⟩
  | db st' k hst =>
    rcases hst.old r g (grantAt_iff.1 hg) with h | h
    · exact ⟨g, grantAt_iff.2 h, GrantLe.refl g⟩
    · exact ⟨_, grantAt_iff.2 h, grantLe_revoke g⟩
  | micro r' sid g0 gs hg0 _ hm =>
    by_cases e : r' = r
    · subst e
      rw [hg] at hg0
      cases hg0
      exact ⟨gs.g, grantAt_put_self hg _, grantLe_micro hm⟩
    · exact ⟨g, by simp only []; rw [grantAt_put_ne _ e]; exact hg, GrantLe.refl g⟩

theorem grantLe_chain {E : Env} {S : String → Prop} {c c' : Core} (h : Chain E S c c') {r : Nat} {g : Grant} (hg : c.st.grantAt r = some g) :
    ∃ g', c'.st.grantAt r = some g' ∧ GrantLe g g' := by
  induction h with
  | refl => exact ⟨g, hg, GrantLe.refl g⟩
  | snoc _ ha ih =>
    obtain ⟨g1, h1, h2⟩ := ih
    obtain ⟨g2, h3, h4⟩ := grantLe_atom ha h1
    exact ⟨g2, h3, h2.trans h4⟩

theorem mono_atom {E : Env} {S : String → Prop} {c c' : Core} (h : Atom E S c c') : c.n ≤ c'.n ∧ c.now ≤ c'.now := by
  cases h with
  | tick d => exact ⟨Nat.le_refl _, by simp only []; omega⟩
  | db => exact ⟨Nat.le_add_right _ _, Int.le_refl _⟩
  | micro r sid g gs hg hS hm => cases hm <;> exact ⟨by simp, Int.le_refl _⟩

theorem mono_chain {E : Env} {S : String → Prop} {c c' : Core} (h : Chain E S c c') : c.n ≤ c'.n ∧ c.now ≤ c'.now := by
  induction h with
  | refl => exact ⟨Nat.le_refl _, Int.le_refl _⟩
  | snoc _ ha ih =>
    have := mono_atom ha
    exact ⟨Nat.le_trans ih.1 this.1, Int.le_trans ih.2 this.2⟩

end OidcOp
