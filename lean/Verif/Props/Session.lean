/-
Property theorems about the session database: C05-C09.

`U` is the set of user names, `FairOp U` says that the identifiers of an operation are clean and that
client ids and session ids are not user names, `history ops` is the database after a history.
-/
import Verif.Lemmas.Session

namespace OidcOp
open Spec

/-- Two users, one of them with two clients and two grants at one client, revocations, a removal. -/
def exUser (x : String) : Prop := x = "alice" ∨ x = "bob"

def exOps : List SOp :=
  [ .createSession "alice" "c1" { id := "g1" },
    .createSession "alice" "c1" { id := "g2" },
    .createSession "alice" "c2" { id := "g3" },
    .createSession "bob" "c1" { id := "g4" },
    .addGrant "bob" "c1" { id := "g5" },
    .alias "alice" "c1" "g1" "Z0FBQUFBQmh=",
    .store "alice" "c1" "g1",
    .revokeGrant "alice" "c1" "g1",
    .removeSession "alice" "c1" "g2",
    .revokeClientSession "bob" "c1" ]

theorem exOps_fair : ∀ op ∈ exOps, FairOp exUser op := by
  simp [exOps, FairOp, SKey.Good, CleanId, exUser]
  decide

theorem exOps_removal : ∀ u c g, SOp.removeSession u c g ∈ exOps → ¬ addedWith exOps g := by
  simp only [exOps, addedWith, List.mem_cons, reduceCtorEq, SOp.removeSession.injEq, SOp.addGrant.injEq,
    List.not_mem_nil, or_false, false_or]
  rintro u c g ⟨_, _, rfl⟩ ⟨_, _, g', ⟨_, _, rfl⟩, h⟩
  revert h; decide

theorem exOps_added {g : String} (h : g ≠ "g5") : ¬ addedWith exOps g := by
  simp only [exOps, addedWith, List.mem_cons, reduceCtorEq, SOp.addGrant.injEq,
    List.not_mem_nil, or_false, false_or]
  rintro ⟨_, _, g', ⟨_, _, rfl⟩, h'⟩
  exact h h'.symm

/-! ## C05 -/

/-- C05, sessions. After any history, storing a grant under (user, client, grant id) makes `get` return
that very object, and every other path that could be read reads the same object as before. The value is
an object of the heap that is not at the same time stored under another path. -/
theorem C05_set_get_grant_partial (U : String → Prop) (ops : List SOp) (hfair : ∀ op ∈ ops, FairOp U op)
    (hrem : ∀ u c g, SOp.removeSession u c g ∈ ops → ¬ addedWith ops g)
    (u c g : String) (hk : (SKey.gra u c g).Good U) (rv : Nat) (gr : Grant)
    (hobj : (history ops).obj rv = some (.grant gr))
    (hfree : ∀ k : SKey, k.Good U → dbGet k.path (history ops) = .ok rv → k = .gra u c g) :
    ∃ s', dbSet ⟨u, some c, some g⟩ rv (history ops) = (.ok (), s') ∧
      dbGet ⟨u, some c, some g⟩ s' = .ok rv ∧ s'.obj rv = some (.grant gr) ∧
      (∀ k : SKey, k.Good U → k ≠ .gra u c g → ∀ r, dbGet k.path (history ops) = .ok r →
        dbGet k.path s' = .ok r) ∧
      (∀ k : SKey, k.Good U → k ≠ .gra u c g → k ≠ .cli u c → k ≠ .usr u →
        found s' k = found (history ops) k) := by
  have hi := (hinv_history ops hfair hrem).inv
  have hf : FreeFor (view U (history ops)) (.gra u c g) rv := by
    intro k o h
    exact hfree k (view_some h).1 ((dbGet_iff hi (view_some h).1 rv).2 ⟨o, h⟩)
  obtain ⟨s', he, hs⟩ := dbSet_grant hi hk hobj hf
  have hvg : view U s' (.gra u c g) = some (rv, .grant gr) := by
    obtain ⟨rc, ci, ru, ui, _, _, hv⟩ := hs.view
    rw [hv]; simp [upd]
  refine ⟨s', he, (dbGet_iff hs.inv hk rv).2 ⟨_, hvg⟩, view_some_obj hvg, ?_, ?_⟩
  · intro k hk' hne r hr
    obtain ⟨o, ho⟩ := (dbGet_iff hi hk' r).1 hr
    rw [dbGet_iff hs.inv hk']
    by_cases h1 : k = .usr u
    · subst h1
      obtain ⟨i, rfl⟩ := hi.links.typedU _ _ _ ho
      exact ⟨_, hs.outside.usr _ _ ho⟩
    · by_cases h2 : k = .cli u c
      · subst h2
        obtain ⟨i, rfl⟩ := hi.links.typedC _ _ _ _ ho
        exact ⟨_, hs.outside.cli _ _ ho⟩
      · exact ⟨o, by rw [hs.outside.other k h1 h2 hne]; exact ho⟩
  · intro k hk' hne h2 h1
    rw [found_view hs.inv hk', found_view hi hk', hs.outside.other k h1 h2 hne]

/-- The hypotheses are met by a grant that replaces a stored one. -/
example : ∃ rv gr, (history exOps).obj rv = some (.grant gr) ∧
    dbGet ⟨"alice", some "c1", some "g1"⟩ (history exOps) = .ok rv := by
  refine ⟨2, { id := "g1", revoked := true }, ?_, ?_⟩ <;> decide

/-- C05, user and client records. Storing a user record makes `get([user])` return it; all paths of
other users read as before, and those of this user do so too if the new record lists the same clients. -/
theorem C05_set_get_user_partial (U : String → Prop) (ops : List SOp) (hfair : ∀ op ∈ ops, FairOp U op)
    (hrem : ∀ u c g, SOp.removeSession u c g ∈ ops → ¬ addedWith ops g)
    (u : String) (hk : (SKey.usr u).Good U) (rv : Nat) (i : SInfo)
    (hobj : (history ops).obj rv = some (.info i))
    (hfree : ∀ k : SKey, k.Good U → dbGet k.path (history ops) = .ok rv → k = .usr u) :
    ∃ s', dbSet ⟨u, none, none⟩ rv (history ops) = (.ok (), s') ∧
      dbGet ⟨u, none, none⟩ s' = .ok rv ∧
      (∀ k : SKey, k.Good U → k.user ≠ u → dbGet k.path s' = dbGet k.path (history ops)) ∧
      ((∀ i', found (history ops) (.usr u) = some (.info i') → ∀ x, x ∈ i.subordinate ↔ x ∈ i'.subordinate) →
        ∀ k : SKey, k.Good U → k ≠ .usr u → ∀ r, dbGet k.path (history ops) = .ok r → dbGet k.path s' = .ok r) := by
  have hi := (hinv_history ops hfair hrem).inv
  have hv := view_bind (history ops) (k := .usr u) hk hobj
  have hother : ∀ k : SKey, k.Good U → k.user ≠ u →
      dbGet k.path ((history ops).bind u rv) = dbGet k.path (history ops) := by
    intro k hk' hne
    have h1 : ∀ k' : SKey, k'.Good U → k' ≠ .usr u →
        ((history ops).bind u rv).lookup (SKey.str k') = (history ops).lookup (SKey.str k') := by
      intro k' hg hne'
      exact lookup_bind_ne _ _ (fun e => hne' (skey_str_inj (k := .usr u) hk hg e).symm)
    cases k with
    | usr u' =>
      have := h1 (.usr u') hk' (by simpa [SKey.user] using hne)
      simp only [SKey.str] at this
      simp only [SKey.path, dbGet_usr, this]
    | cli u' c' =>
      have e1 := h1 (.usr u') (good_usr_of_cli hk') (by simpa [SKey.user] using hne)
      have e2 := h1 (.cli u' c') hk' (by simp)
      simp only [SKey.str] at e1 e2
      simp only [SKey.path, dbGet, e1, e2]
    | gra u' c' g' =>
      have e1 := h1 (.usr u') (good_usr_of_cli (good_cli_of_gra hk')) (by simpa [SKey.user] using hne)
      have e2 := h1 (.cli u' c') (good_cli_of_gra hk') (by simp)
      have e3 := h1 (.gra u' c' g') hk' (by simp)
      simp only [SKey.str] at e1 e2 e3
      simp only [SKey.path, dbGet, e1, e2, e3]
  refine ⟨_, dbSet_usr u rv _, ?_, hother, ?_⟩
  · rw [dbGet_usr, lookup_bind_self _ _ _ _ hobj]
  · intro hsame k hk' hne r hr
    obtain ⟨o, ho⟩ := (dbGet_iff hi hk' r).1 hr
    have hw : WF U ((history ops).bind u rv) := hi.wf.bind (k := .usr u) hk hobj (by
      intro k o h
      exact hfree k (view_some h).1 ((dbGet_iff hi (view_some h).1 rv).2 ⟨o, h⟩))
    cases hu : view U (history ops) (.usr u) with
    | some p =>
      obtain ⟨r', o'⟩ := p
      obtain ⟨i', rfl⟩ := hi.links.typedU _ _ _ hu
      have hi' : DbInv U ((history ops).bind u rv) := by
        refine ⟨hw, ?_⟩
        show VInv (view U ((history ops).bind (SKey.str (.usr u)) rv))
        rw [hv]
        exact vinv_replace hi.links hu (.inl ⟨_, _, rfl, rfl, hsame i' (by rw [found_view hi hk, hu]; rfl)⟩)
      rw [dbGet_iff hi' hk']
      refine ⟨o, ?_⟩
      show view U ((history ops).bind (SKey.str (.usr u)) rv) k = _
      rw [hv, upd_ne _ _ hne]; exact ho
    | none =>
      -- a user without a record has no path that can be read
      have hne' : k.user ≠ u := by
        intro e
        cases k with
        | usr u' => change u' = u at e; subst e; exact hne rfl
        | cli u' c' =>
          change u' = u at e; subst e
          obtain ⟨_, _, h, _⟩ := hi.links.up1 _ _ _ ho
          rw [hu] at h; cases h
        | gra u' c' g' =>
          change u' = u at e; subst e
          obtain ⟨_, _, h, _⟩ := hi.links.up2 _ _ _ _ ho
          obtain ⟨_, _, h, _⟩ := hi.links.up1 _ _ _ h
          rw [hu] at h; cases h
      rw [hother k hk' hne']; exact hr

/-- C05, client records. Storing a client session record makes `get([user, client])` return it, and
every other path that could be read reads as before, provided the new record lists the grants that the
stored one listed. -/
theorem C05_set_get_client_partial (U : String → Prop) (ops : List SOp) (hfair : ∀ op ∈ ops, FairOp U op)
    (hrem : ∀ u c g, SOp.removeSession u c g ∈ ops → ¬ addedWith ops g)
    (u c : String) (hk : (SKey.cli u c).Good U) (rv : Nat) (i : SInfo)
    (hobj : (history ops).obj rv = some (.info i))
    (hfree : ∀ k : SKey, k.Good U → dbGet k.path (history ops) = .ok rv → k = .cli u c)
    (hsame : match found (history ops) (.cli u c) with
      | some (.info i') => ∀ x, x ∈ i.subordinate ↔ x ∈ i'.subordinate
      | _ => i.subordinate = []) :
    ∃ s', dbSet ⟨u, some c, none⟩ rv (history ops) = (.ok (), s') ∧
      dbGet ⟨u, some c, none⟩ s' = .ok rv ∧
      (∀ k : SKey, k.Good U → k ≠ .cli u c → ∀ r, dbGet k.path (history ops) = .ok r →
        dbGet k.path s' = .ok r) := by
  have hi := (hinv_history ops hfair hrem).inv
  have hku := good_usr_of_cli hk
  have hf : FreeFor (view U (history ops)) (.cli u c) rv := by
    intro k o h
    exact hfree k (view_some h).1 ((dbGet_iff hi (view_some h).1 rv).2 ⟨o, h⟩)
  have hv1 : view U ((history ops).bind (key2 u c) rv) = upd (view U (history ops)) (.cli u c) (some (rv, .info i)) :=
    view_bind (history ops) (k := .cli u c) hk hobj
  have hw1 : WF U ((history ops).bind (key2 u c) rv) := hi.wf.bind (k := .cli u c) hk hobj hf
  obtain ⟨s2, ru, ui, he, hw2, hv2, hfrom, hkept⟩ := addSub_spec hw1 (k := .usr u) hku
    (by rw [hv1]; intro r o h; exact hi.links.typedU u r o (by simpa [upd] using h)) true c
  have hfrom' : view U (history ops) (.usr u) = some (ru, .info ui) ∨
      (view U (history ops) (.usr u) = none ∧ ui = { isUser := true }) := by
    rw [hv1] at hfrom
    rcases hfrom with h | ⟨h1, h2, _⟩
    · exact .inl (by simpa [upd] using h)
    · exact .inr ⟨by simpa [upd] using h1, h2⟩
  have hi2 : DbInv U s2 := by
    refine ⟨hw2, ?_⟩
    rw [hv2, hv1]
    rw [found_view hi hk] at hsame
    cases hc : view U (history ops) (.cli u c) with
    | some p =>
      obtain ⟨rc, o⟩ := p
      obtain ⟨ci, rfl⟩ := hi.links.typedC _ _ _ _ hc
      simp only [hc, Option.map_some] at hsame
      obtain ⟨ru', ui', hu, hm⟩ := hi.links.up1 _ _ _ hc
      have e : ru' = ru ∧ ui' = ui := by
        rcases hfrom' with h | ⟨h, _⟩ <;> rw [hu] at h <;> cases h
        exact ⟨rfl, rfl⟩
      obtain ⟨rfl, rfl⟩ := e
      have h1 := vinv_replace hi.links hc (r' := rv) (o' := .info i) (.inl ⟨_, _, rfl, rfl, hsame⟩)
      exact vinv_replace h1 (k := .usr u) (r := ru') (o := .info ui') (by simpa [upd] using hu)
        (.inl ⟨_, _, rfl, rfl, fun x => by
          rw [mem_addS]
          exact ⟨fun h => h.elim id (fun e => e ▸ hm), .inl⟩⟩)
    | none =>
      simp only [hc, Option.map_none] at hsame
      rcases hfrom' with hu | ⟨hu, rfl⟩
      · exact vinv_addClient hi.links hu hc rv i hsame _ (fun x => mem_addS c x _)
      · have h1 := vinv_addUser hi.links hu ru { isUser := true } rfl
        have h2 := vinv_addClient h1 (u := u) (c := c) (ru := ru) (ui := { isUser := true }) (by simp)
          (by simpa [upd] using hc) rv i hsame { isUser := true, subordinate := addS c [] } (fun x => mem_addS c x [])
        rw [upd_comm _ (by simp), upd_upd, upd_comm _ (by simp)] at h2
        exact h2
  refine ⟨s2, by rw [dbSet_cli hk.2.2]; exact he, ?_, ?_⟩
  · rw [show dbGet ⟨u, some c, none⟩ s2 = dbGet (SKey.path (.cli u c)) s2 from rfl, dbGet_iff hi2 hk]
    exact ⟨.info i, by rw [hv2, hv1]; simp [upd]⟩
  · intro k hk' hne r hr
    obtain ⟨o, ho⟩ := (dbGet_iff hi hk' r).1 hr
    rw [dbGet_iff hi2 hk', hv2, hv1]
    by_cases h1 : k = .usr u
    · subst h1
      have e : ru = r := by
        rcases hfrom' with h | ⟨h, _⟩ <;> rw [ho] at h <;> cases h
        rfl
      subst e
      exact ⟨_, upd_self _ _ _⟩
    · exact ⟨o, by simp [upd, h1, hne, ho]⟩

/-- The hypotheses are met by the record of a stored client session. -/
example : ∃ rv i, (history exOps).obj rv = some (.info i) ∧ i.subordinate = ["g1"] ∧
    dbGet ⟨"alice", some "c1", none⟩ (history exOps) = .ok rv := by
  refine ⟨1, { isUser := false, subordinate := ["g1"], ident := "c1" }, ?_, ?_, ?_⟩ <;> decide

/-- C05 does not hold for a user record without restriction: `set([user], value)` with a value that does
not list the user's clients makes their paths unreadable. -/
theorem C05_set_get_refuted :
    ∃ (ops : List SOp) (s' : Store) (r : Nat),
      (∀ op ∈ ops, FairOp exUser op) ∧
      dbGet ⟨"alice", some "c1", some "g1"⟩ (history ops) = .ok r ∧
      dbSet ⟨"alice", none, none⟩ ((history ops).alloc (.info { isUser := true, ident := "alice" })).1
        ((history ops).alloc (.info { isUser := true, ident := "alice" })).2 = (.ok (), s') ∧
      dbGet ⟨"alice", some "c1", some "g1"⟩ s' = .error .valueError := by
  refine ⟨[.createSession "alice" "c1" { id := "g1" }], _, 2, ?_, by decide, rfl, by decide⟩
  simp [FairOp, SKey.Good, CleanId, exUser]
  decide

/-! ## C06 -/

/-- C06. After every history of session manager operations (in which no grant made with `add_grant` is
removed again) the database is consistent. -/
theorem C06_database_consistent_partial (U : String → Prop) (hU : ∀ u, U u → CleanId u) (ops : List SOp)
    (hfair : ∀ op ∈ ops, FairOp U op)
    (hrem : ∀ u c g, SOp.removeSession u c g ∈ ops → ¬ addedWith ops g) :
    Consistent U (history ops) :=
  consistent_of_inv hU (hinv_history ops hfair hrem).inv

/-- In particular listing the grants of any client session succeeds. -/
theorem C06_grants_listed_partial (U : String → Prop) (ops : List SOp) (hfair : ∀ op ∈ ops, FairOp U op)
    (hrem : ∀ u c g, SOp.removeSession u c g ∈ ops → ¬ addedWith ops g)
    (u c : String) (hk : (SKey.cli u c).Good U) (ci : SInfo)
    (hc : found (history ops) (.cli u c) = some (.info ci)) :
    ∃ l, listGrants u c (history ops) = .ok l ∧ l.length = ci.subordinate.length := by
  have hi := (hinv_history ops hfair hrem).inv
  rw [found_view hi hk] at hc
  cases hv : view U (history ops) (.cli u c) with
  | none => rw [hv] at hc; cases hc
  | some p =>
    obtain ⟨r, o⟩ := p
    rw [hv] at hc; cases hc
    have hg : dbGet ⟨u, some c, none⟩ (history ops) = .ok r := (dbGet_iff hi hk r).2 ⟨_, hv⟩
    unfold listGrants
    simp only [hg, view_some_obj hv]
    have : ∀ gs : List String, (∀ g ∈ gs, ∃ x, view U (history ops) (.gra u c g) = some x) →
        ∃ l, gs.mapM (fun g => dbGet ⟨u, some c, some g⟩ (history ops)) = Except.ok l ∧ l.length = gs.length := by
      intro gs
      induction gs with
      | nil => intro _; exact ⟨[], rfl, rfl⟩
      | cons g gs ih =>
        intro h
        obtain ⟨x, hx⟩ := h g (by simp)
        obtain ⟨l, hl, hlen⟩ := ih (fun g' hg' => h g' (by simp [hg']))
        have hg : dbGet ⟨u, some c, some g⟩ (history ops) = .ok x.1 :=
          (dbGet_iff hi (view_some hx).1 x.1).2 ⟨x.2, hx⟩
        refine ⟨x.1 :: l, ?_, by simp [hlen]⟩
        rw [List.mapM_cons, hg, hl]; rfl
    exact this _ (fun g hg => hi.links.down2 _ _ _ _ _ hv hg)

example : Consistent exUser (history exOps) :=
  C06_database_consistent_partial exUser (by rintro u (rfl | rfl) <;> simp [CleanId]) exOps exOps_fair exOps_removal

/-- The example history leaves sessions of both users: the statement is not about an empty database. -/
example : found (history exOps) (.gra "alice" "c2" "g3") = some (.grant { id := "g3" }) ∧
    found (history exOps) (.gra "alice" "c1" "g2") = none ∧
    found (history exOps) (.cli "bob" "c1") =
      some (.info { isUser := false, subordinate := ["g4", "g5", "g5"], ident := "c1", revoked := true }) := by
  refine ⟨?_, ?_, ?_⟩ <;> decide

/-- C06 fails when a grant made with `add_grant` is removed: the id was listed twice and one entry stays
behind, so that the client lists a grant that cannot be read, and `grants()` and
`revoke_client_session` raise NoSuchGrant. -/
theorem C06_database_consistent_refuted :
    ∃ ops : List SOp, (∀ op ∈ ops, FairOp exUser op) ∧ ¬ Consistent exUser (history ops) ∧
      listGrants "bob" "c1" (history ops) = .error .noSuchGrant ∧
      (revokeClientSession "bob" "c1" (history ops)).1 = .error .noSuchGrant := by
  refine ⟨[.addGrant "bob" "c1" { id := "g5" }, .removeSession "bob" "c1" "g5"], ?_, ?_, by decide, by decide⟩
  · simp [FairOp, SKey.Good, CleanId, exUser]
    decide
  · intro h
    obtain ⟨gr, hgr⟩ := h.grantsResolve "bob" "c1" { isUser := false, subordinate := ["g5"] } "g5" (.inr rfl)
      (by decide) (by simp)
    revert hgr
    rw [show found (history [.addGrant "bob" "c1" { id := "g5" }, .removeSession "bob" "c1" "g5"])
      (.gra "bob" "c1" "g5") = none by decide]
    simp

/-! ## C07 -/

/-- C07. After any history, `remove_session` makes the grant unreadable, and every other grant of every
user reads as before; so does every user and client record except the two the grant belonged to, and of
these the client record disappears exactly if it has no other grant, and the user record exactly if the
user has no other client; otherwise they only lose the entry. -/
theorem C07_remove_session_partial (U : String → Prop) (ops : List SOp) (hfair : ∀ op ∈ ops, FairOp U op)
    (hrem : ∀ u c g, SOp.removeSession u c g ∈ ops → ¬ addedWith ops g)
    (u c g : String) (hk : (SKey.gra u c g).Good U) (hc : ¬ U c) (hg : ¬ addedWith ops g) :
    found (removeSession u c g (history ops)).2 (.gra u c g) = none ∧
    (∀ k : SKey, k.Good U → k ≠ .gra u c g → k ≠ .cli u c → k ≠ .usr u →
      found (removeSession u c g (history ops)).2 k = found (history ops) k) ∧
    (∀ ci, found (history ops) (.cli u c) = some (.info ci) →
      found (removeSession u c g (history ops)).2 (.cli u c) =
        if ci.subordinate.erase g = [] then none
        else some (.info { ci with subordinate := ci.subordinate.erase g })) ∧
    (∀ ci ui, found (history ops) (.cli u c) = some (.info ci) → found (history ops) (.usr u) = some (.info ui) →
      found (removeSession u c g (history ops)).2 (.usr u) =
        if ci.subordinate.erase g = [] then
          (if ui.subordinate.erase c = [] then none
            else some (.info { ui with subordinate := ui.subordinate.erase c }))
        else some (.info ui)) := by
  have hh := hinv_history ops hfair hrem
  have hi := hh.inv
  have hfor := foreign_of hk.2.2.1.2 hc
  have hkc := good_cli_of_gra hk
  have hku := good_usr_of_cli hkc
  cases hcv : view U (history ops) (.cli u c) with
  | none =>
    obtain ⟨res, s', he, hi', hv, _⟩ := removeSession_none hi hk hfor hcv
    rw [he]
    have hfc : found (history ops) (.cli u c) = none := by rw [found_view hi hkc, hcv]; rfl
    refine ⟨?_, ?_, ?_, ?_⟩
    · rw [found_view hi' hk, hv]
      cases hx : view U (history ops) (.gra u c g) with
      | none => rfl
      | some x =>
        obtain ⟨_, _, h, _⟩ := hi.links.up2 _ _ _ _ hx
        rw [hcv] at h; cases h
    · intro k hk' _ _ _
      rw [found_view hi' hk', found_view hi hk', hv]
    · intro ci h; rw [hfc] at h; cases h
    · intro ci ui h; rw [hfc] at h; cases h
  | some p =>
    obtain ⟨rc, o⟩ := p
    obtain ⟨ci, rfl⟩ := hi.links.typedC _ _ _ _ hcv
    obtain ⟨ru, ui, huv, hm⟩ := hi.links.up1 _ _ _ hcv
    obtain ⟨s', he, hi', hv, _⟩ := removeSession_some hi hk hfor huv hcv
      (not_mem_erase_of_count (hh.once.cli _ _ _ _ _ hcv hg)) (not_mem_erase_of_count (hh.once.usr _ _ _ _ huv))
    rw [he]
    have hfc : found (history ops) (.cli u c) = some (.info ci) := by rw [found_view hi hkc, hcv]; rfl
    have hfu : found (history ops) (.usr u) = some (.info ui) := by rw [found_view hi hku, huv]; rfl
    refine ⟨?_, ?_, ?_, ?_⟩
    · rw [found_view hi' hk, hv]
      unfold removedView
      split
      · split <;> simp [upd]
      · simp [upd]
    · intro k hk' h1 h2 h3
      rw [found_view hi' hk', found_view hi hk', hv]
      unfold removedView
      split
      · split <;> simp [upd, h1, h2, h3]
      · simp [upd, h1, h2]
    · intro ci' h
      rw [hfc] at h; cases h
      rw [found_view hi' hkc, hv]
      unfold removedView
      by_cases e : ci.subordinate.erase g = []
      · simp only [e, List.isEmpty_nil, if_true]
        split <;> simp [upd]
      · simp [e]
    · intro ci' ui' h h'
      rw [hfc] at h; cases h
      rw [hfu] at h'; cases h'
      rw [found_view hi' hku, hv]
      unfold removedView
      by_cases e : ci.subordinate.erase g = []
      · simp only [e, List.isEmpty_nil, if_true]
        by_cases e' : ui.subordinate.erase c = []
        · simp [e']
        · simp [e']
      · simp [e, upd, huv]

/-- A case with other sessions of the same client, of the same user and of another user. -/
example : SKey.Good exUser (.gra "alice" "c2" "g3") ∧ ¬ exUser "c2" ∧ ¬ addedWith exOps "g3" ∧
    found (history exOps) (.gra "alice" "c2" "g3") ≠ none ∧
    found (removeSession "alice" "c2" "g3" (history exOps)).2 (.gra "alice" "c2" "g3") = none ∧
    found (removeSession "alice" "c2" "g3" (history exOps)).2 (.gra "alice" "c1" "g1") ≠ none := by
  refine ⟨by simp [SKey.Good, CleanId, exUser]; decide, by simp [exUser], exOps_added (by decide), ?_, ?_, ?_⟩ <;> decide

/-- C07 fails if a client id is also a user name: removing one of two sessions that alice has with the
client `bob` stores the client record under the key `bob`, so that user bob's session cannot be read. -/
theorem C07_remove_session_refuted :
    let s := history [.createSession "bob" "c1" { id := "g1" }, .createSession "alice" "bob" { id := "g2" },
      .createSession "alice" "bob" { id := "g3" }]
    found s (.gra "bob" "c1" "g1") = some (.grant { id := "g1" }) ∧
    (removeSession "alice" "bob" "g2" s).1 = .ok () ∧
    found (removeSession "alice" "bob" "g2" s).2 (.gra "bob" "c1" "g1") = none := by
  refine ⟨?_, ?_, ?_⟩ <;> decide

/-- C07 fails likewise for a session that does not exist: `delete` then removes the record stored under
the client id, here the user record of bob. -/
theorem C07_remove_unknown_session_refuted :
    let s := history [.createSession "bob" "c1" { id := "g1" }, .createSession "alice" "c1" { id := "g2" }]
    found s (.gra "bob" "c1" "g1") = some (.grant { id := "g1" }) ∧
    (removeSession "alice" "bob" "g9" s).1 = .ok () ∧
    found (removeSession "alice" "bob" "g9" s).2 (.gra "bob" "c1" "g1") = none := by
  refine ⟨?_, ?_, ?_⟩ <;> decide

/-! ## C08 -/

/-- C08 fails: after `delete([user])` the client records and grants of the user are still stored. -/
theorem C08_delete_user_leaves_nothing_refuted :
    let s := history [.createSession "alice" "c1" { id := "g1" }]
    let s' := (dbDelete ⟨"alice", none, none⟩ s).2
    (dbDelete ⟨"alice", none, none⟩ s).1 = .ok () ∧
    s'.db.has (key2 "alice" "c1") = true ∧ s'.db.has (key3 "alice" "c1" "g1") = true := by
  refine ⟨?_, ?_, ?_⟩ <;> decide

/-- C08 fails: after `delete([user, client])` the grants are still stored. -/
theorem C08_delete_client_leaves_nothing_refuted :
    let s := history [.createSession "alice" "c1" { id := "g1" }]
    let s' := (dbDelete ⟨"alice", some "c1", none⟩ s).2
    (dbDelete ⟨"alice", some "c1", none⟩ s).1 = .ok () ∧ s'.db.has (key3 "alice" "c1" "g1") = true := by
  refine ⟨?_, ?_⟩ <;> decide

/-- C08, what holds: after `delete([user])` no path of that user can be read, whatever the database. -/
theorem C08_deleted_user_unreadable_partial (s : Store) (u : String) (p : Path) (hp : p.uid = u) :
    dbGet p (dbDelete ⟨u, none, none⟩ s).2 = .error .keyError := by
  have h : (dbDelete ⟨u, none, none⟩ s).2.lookup u = none := by
    unfold dbDelete
    cases hl : s.lookup u with
    | none => exact hl
    | some q => simp only [truthyId]; exact lookup_unbind_self s u
  unfold dbGet
  rw [hp, h]

/-- C08, what holds: after `delete([user, client])`, following any history, no path of that user with
that client can be read. -/
theorem C08_deleted_client_unreadable_partial (U : String → Prop) (ops : List SOp)
    (hfair : ∀ op ∈ ops, FairOp U op)
    (hrem : ∀ u c g, SOp.removeSession u c g ∈ ops → ¬ addedWith ops g)
    (u c : String) (hk : (SKey.cli u c).Good U) (hc : ¬ U c) (gid : Option String) :
    ∃ e, dbGet ⟨u, some c, gid⟩ (dbDelete ⟨u, some c, none⟩ (history ops)).2 = .error e := by
  have hh := hinv_history ops hfair hrem
  have hi := hh.inv
  have hku := good_usr_of_cli hk
  have hne : c ≠ u := by rintro rfl; exact hc hk.1
  -- it suffices that the user record is gone or does not list the client
  suffices h : ∀ r o, (dbDelete ⟨u, some c, none⟩ (history ops)).2.lookup u = some (r, o) →
      ∀ i, o = .info i → c ∉ i.subordinate by
    unfold dbGet
    cases hl : (dbDelete ⟨u, some c, none⟩ (history ops)).2.lookup u with
    | none => exact ⟨_, rfl⟩
    | some p =>
      obtain ⟨r, o⟩ := p
      cases o with
      | grant g => exact ⟨_, rfl⟩
      | info i =>
        have := h r _ hl i rfl
        simp [subordinateOf, this]
  generalize hs : history ops = s at *
  have h1 : s.lookup u = view U s (.usr u) := (view_good s hku).symm
  have h2 : s.lookup (key2 u c) = view U s (.cli u c) := (view_good s hk).symm
  intro r o
  unfold dbDelete
  simp only [h1, h2, clean_truthy hk.2.2]
  cases hu : view U s (.usr u) with
  | none => intro hx; rw [h1, hu] at hx; cases hx
  | some p =>
    obtain ⟨ru, ou⟩ := p
    obtain ⟨ui, rfl⟩ := hi.links.typedU _ _ _ hu
    simp only []
    by_cases hm : c ∈ ui.subordinate
    · simp only [hm, not_true_eq_false, if_false]
      obtain ⟨x, hx⟩ := hi.links.down1 _ _ _ _ hu hm
      obtain ⟨rc, oc⟩ := x
      obtain ⟨ci, rfl⟩ := hi.links.typedC _ _ _ _ hx
      simp only [hx, show truthyId (none : Option String) = none from rfl]
      unfold deleteClient
      simp only [List.isEmpty_nil, if_true]
      have hlt : ru < s.heap.length := view_lt hu
      have hobj : ∀ t : Store, t.heap.length = s.heap.length →
          (Store.put t ru (.info { ui with subordinate := removeFirst c ui.subordinate })).obj ru =
            some (.info { ui with subordinate := removeFirst c ui.subordinate }) := by
        intro t ht; simp [Store.obj, Store.put, ht, hlt]
      have hnm : c ∉ removeFirst c ui.subordinate := not_mem_erase_of_count (hh.once.usr _ _ _ _ hu)
      unfold deleteUserIfEmpty
      rw [hobj _ (by split <;> simp [Store.put, Store.unbind])]
      simp only []
      split
      · intro hx; rw [lookup_unbind_self] at hx; cases hx
      · intro hx
        rw [lookup_bind_self _ _ _ _ (hobj _ (by split <;> simp [Store.put, Store.unbind]))] at hx
        cases hx
        rintro i ⟨⟩
        exact hnm
    · simp only [hm, not_false_eq_true, if_true]
      have hfin : ∀ t : Store, t.lookup u = s.lookup u → t.lookup u = some (r, o) → ∀ i, o = .info i → c ∉ i.subordinate := by
        intro t ht hx i hi'
        rw [ht, h1, hu] at hx
        cases hx; cases hi'; exact hm
      split
      · exact hfin _ (lookup_unbind_ne s hne)
      · exact hfin _ rfl

/-- Non-vacuous: the session existed and could be read before. -/
example : found (history exOps) (.gra "alice" "c1" "g1") ≠ none ∧ SKey.Good exUser (.cli "alice" "c1") ∧
    ¬ exUser "c1" := by
  refine ⟨by decide, by simp [SKey.Good, CleanId, exUser], by simp [exUser]⟩

/-! ## C09 -/

/-- C09. After any history, `revoke_client_session` of an existing client session returns, marks the client
session revoked, revokes each of its grants and leaves every other record of every user as it was. -/
theorem C09_revoke_client_session_partial (U : String → Prop) (ops : List SOp) (hfair : ∀ op ∈ ops, FairOp U op)
    (hrem : ∀ u c g, SOp.removeSession u c g ∈ ops → ¬ addedWith ops g)
    (u c : String) (hk : (SKey.cli u c).Good U) (ci : SInfo)
    (hc : found (history ops) (.cli u c) = some (.info ci)) :
    ∃ s', revokeClientSession u c (history ops) = (.ok (), s') ∧
      found s' (.cli u c) = some (.info { ci with revoked := true }) ∧
      (∀ g gr, (SKey.gra u c g).Good U → found (history ops) (.gra u c g) = some (.grant gr) →
        found s' (.gra u c g) = some (.grant { gr with revoked := true })) ∧
      (∀ k : SKey, k.Good U → k ≠ .cli u c → (∀ g, k ≠ .gra u c g) → found s' k = found (history ops) k) := by
  have hi := (hinv_history ops hfair hrem).inv
  rw [found_view hi hk] at hc
  cases hv : view U (history ops) (.cli u c) with
  | none => rw [hv] at hc; cases hc
  | some p =>
    obtain ⟨r, o⟩ := p
    rw [hv] at hc; cases hc
    obtain ⟨s', he, hi', hv', _⟩ := revokeClientSession_spec hi hv
    refine ⟨s', he, ?_, ?_, ?_⟩
    · rw [found_view hi' hk, hv']; simp
    · intro g gr hkg hf
      rw [found_view hi hkg] at hf
      cases hx : view U (history ops) (.gra u c g) with
      | none => rw [hx] at hf; cases hf
      | some q =>
        obtain ⟨rg, og⟩ := q
        rw [hx] at hf; cases hf
        obtain ⟨r', i, h, hm⟩ := hi.links.up2 _ _ _ _ hx
        rw [hv] at h; cases h
        rw [found_view hi' hkg, hv', upd_ne _ _ (by simp)]
        simp [revokedView, hm, hx, Obj.revoke, Grant.revoke]
    · intro k hk' hne hng
      rw [found_view hi' hk', found_view hi hk', hv', upd_ne _ _ hne]
      cases k with
      | usr _ => rfl
      | cli _ _ => rfl
      | gra u' c' g' =>
        have : ¬ (u' = u ∧ c' = c ∧ g' ∈ ci.subordinate) := by
          rintro ⟨rfl, rfl, _⟩; exact hng g' rfl
        simp only [revokedView]
        rw [if_neg this]

/-- A client session with three listed grants, next to the sessions of another user. -/
example : ∃ ci, found (history exOps) (.cli "bob" "c1") = some (.info ci) ∧ ci.subordinate.length = 3 ∧
    SKey.Good exUser (.cli "bob" "c1") := by
  refine ⟨{ isUser := false, subordinate := ["g4", "g5", "g5"], ident := "c1", revoked := true }, by decide, rfl,
    by simp [SKey.Good, CleanId, exUser]⟩

/-- C09 is false of the code after a grant made with `add_grant` has been removed: the client still lists it, so revocation ends in
an exception at this entry, and the grants after it stay as they are (session/manager.py:356-376, 513-528). -/
theorem C09_removed_grant_refuted :
    ¬ (∀ (U : String → Prop) (ops : List SOp), (∀ op ∈ ops, FairOp U op) → ∀ (u c g : String) (gr : Grant),
      (SKey.gra u c g).Good U → found (history ops) (.gra u c g) = some (.grant gr) →
      (revokeClientSession u c (history ops)).1 = .ok () ∧
      found (revokeClientSession u c (history ops)).2 (.gra u c g) = some (.grant { gr with revoked := true })) := by
  intro h
  have := (h exUser [.addGrant "bob" "c1" { id := "g5" }, .addGrant "bob" "c1" { id := "g6" }, .removeSession "bob" "c1" "g5"]
    (by simp [FairOp, SKey.Good, CleanId, exUser]; decide) "bob" "c1" "g6" { id := "g6" }
    (by simp [SKey.Good, CleanId, exUser]; decide) (by decide)).1
  exact absurd this (by decide)

end OidcOp
