/-
The session database without references and grant ids, and what the operations do to that.
-/
import Verif.Lemmas.Isolation
import Verif.Lemmas.GrantId
import Verif.Spec.Restart

namespace OidcOp
open Spec

/-- A record without the grant's id. -/
def Obj.bare : Obj → Obj
  | .info i => .info i
  | .grant g => .grant (g.withId "")

/-- The records by key. -/
noncomputable def av (U : String → Prop) (s : Store) (k : SKey) : Option Obj := (view U s k).map (fun p => p.2.bare)

theorem bare_reborn (o : Obj) (i : String) : (o.reborn i).bare = o.bare := by cases o <;> rfl

theorem withId_withId (g : Grant) (i j : String) : (g.withId i).withId j = g.withId j := rfl

theorem withId_self (g : Grant) : g.withId g.id = g := rfl

theorem bare_eq_info {o : Obj} {i : SInfo} (h : o.bare = .info i) : o = .info i := by
  cases o with
  | info j => exact h
  | grant g => cases h

theorem bare_eq_grant {o : Obj} {g : Grant} (h : o.bare = .grant (g.withId "")) : ∃ i, o = .grant (g.withId i) := by
  cases o with
  | info j => cases h
  | grant g' =>
    simp only [Obj.bare, Obj.grant.injEq] at h
    refine ⟨g'.id, ?_⟩
    have : g' = (g'.withId "").withId g'.id := rfl
    rw [this, h]
    rfl

theorem map_upd {α β : Type} (f : α → β) (V : SKey → Option α) (k : SKey) (x : Option α) :
    (fun k' => (upd V k x k').map f) = upd (fun k' => (V k').map f) k (x.map f) := by
  funext k'
  unfold upd
  split <;> rfl

/-- The two give the same records. -/
def SameV (V V' : SKey → Option (Nat × Obj)) : Prop := ∀ k, (V' k).map (fun p => p.2.bare) = (V k).map (fun p => p.2.bare)

theorem SameV.some {V V' : SKey → Option (Nat × Obj)} (h : SameV V V') {k : SKey} {r' : Nat} {o' : Obj} (hk : V' k = some (r', o')) :
    ∃ r o, V k = some (r, o) ∧ o.bare = o'.bare := by
  have := h k
  rw [hk] at this
  cases hv : V k with
  | none => rw [hv] at this; cases this
  | some p =>
    rw [hv] at this
    exact ⟨p.1, p.2, rfl, (Option.some.inj this).symm⟩

theorem SameV.info {V V' : SKey → Option (Nat × Obj)} (h : SameV V V') {k : SKey} {r' : Nat} {i : SInfo}
    (hk : V' k = .some (r', .info i)) : ∃ r, V k = .some (r, .info i) := by
  obtain ⟨r, o, h1, h2⟩ := h.some hk
  exact ⟨r, by rw [h1, bare_eq_info h2]⟩

theorem SameV.symm {V V' : SKey → Option (Nat × Obj)} (h : SameV V V') : SameV V' V := fun k => (h k).symm

theorem SameV.vinv {V V' : SKey → Option (Nat × Obj)} (h : SameV V V') (hv : VInv V) : VInv V' := by
  constructor
  · intro u r o hk
    obtain ⟨r', o', h1, h2⟩ := h.some hk
    obtain ⟨i, rfl⟩ := hv.typedU _ _ _ h1
    exact ⟨i, bare_eq_info h2.symm⟩
  · intro u c r o hk
    obtain ⟨r', o', h1, h2⟩ := h.some hk
    obtain ⟨i, rfl⟩ := hv.typedC _ _ _ _ h1
    exact ⟨i, bare_eq_info h2.symm⟩
  · intro u c g r o hk
    obtain ⟨r', o', h1, h2⟩ := h.some hk
    obtain ⟨i, rfl⟩ := hv.typedG _ _ _ _ _ h1
    obtain ⟨j, h3⟩ := bare_eq_grant h2.symm
    exact ⟨_, h3⟩
  · intro u r i c hk hm
    obtain ⟨r', h1⟩ := h.info hk
    obtain ⟨x, h2⟩ := hv.down1 _ _ _ _ h1 hm
    obtain ⟨r2, o2, h3, _⟩ := h.symm.some (o' := x.2) (r' := x.1) h2
    exact ⟨_, h3⟩
  · intro u c r i g hk hm
    obtain ⟨r', h1⟩ := h.info hk
    obtain ⟨x, h2⟩ := hv.down2 _ _ _ _ _ h1 hm
    obtain ⟨r2, o2, h3, _⟩ := h.symm.some (o' := x.2) (r' := x.1) h2
    exact ⟨_, h3⟩
  · intro u c x hk
    obtain ⟨r', o', h1, _⟩ := h.some (o' := x.2) (r' := x.1) hk
    obtain ⟨r2, i, h2, hm⟩ := hv.up1 _ _ _ h1
    obtain ⟨r3, h3⟩ := h.symm.info h2
    exact ⟨r3, i, h3, hm⟩
  · intro u c g x hk
    obtain ⟨r', o', h1, _⟩ := h.some (o' := x.2) (r' := x.1) hk
    obtain ⟨r2, i, h2, hm⟩ := hv.up2 _ _ _ _ h1
    obtain ⟨r3, h3⟩ := h.symm.info h2
    exact ⟨r3, i, h3, hm⟩

theorem SameV.once {A : String → Prop} {V V' : SKey → Option (Nat × Obj)} (h : SameV V V') (hv : Once A V) : Once A V' := by
  constructor
  · intro u r i c hk
    obtain ⟨r', h1⟩ := h.info hk
    exact hv.usr _ _ _ _ h1
  · intro u c r i g hk hA
    obtain ⟨r', h1⟩ := h.info hk
    exact hv.cli _ _ _ _ _ h1 hA

/-! ### Writing out and reading back -/

theorem dump_get (h : List Obj) (db : Dict Nat) (k : String) (hv : ∀ r, db.get? k = some r → r < h.length) :
    Dict.get? (db.filterMap (fun p => (h[p.2]?).map (fun o => (p.1, o)))) k = (db.get? k).bind (fun r => h[r]?) := by
  induction db with
  | nil => rfl
  | cons a t ih =>
    obtain ⟨k', r⟩ := a
    by_cases e : k' = k
    · subst e
      have hr : r < h.length := hv r (by simp [Dict.get?])
      simp [Dict.get?, List.getElem?_eq_getElem hr]
    · have ih' := ih (by intro r hr; exact hv r (by simpa [Dict.get?, e] using hr))
      cases ho : h[r]? with
      | none => simp [Dict.get?, ho, e, ih']
      | some o => simp [Dict.get?, ho, e, ih']

theorem mapIdx_get (d : Dict Obj) (k : String) (m : Nat) :
    (∃ i o, d[i]? = some (k, o) ∧ d.get? k = some o ∧ Dict.get? (d.mapIdx (fun i p => (p.1, i + m))) k = some (i + m)) ∨
      (d.get? k = none ∧ Dict.get? (d.mapIdx (fun i p => (p.1, i + m))) k = none) := by
  induction d generalizing m with
  | nil => exact .inr ⟨rfl, rfl⟩
  | cons a t ih =>
    obtain ⟨k', o⟩ := a
    rw [List.mapIdx_cons]
    by_cases e : k' = k
    · subst e
      exact .inl ⟨0, o, rfl, by simp [Dict.get?], by simp [Dict.get?]⟩
    · have hf : (fun (i : Nat) (p : String × Obj) => (p.1, i + 1 + m)) = (fun i p => (p.1, i + (m + 1))) := by
        funext i p; rw [Nat.add_assoc, Nat.add_comm 1 m]
      rw [hf]
      rcases ih (m + 1) with ⟨i, o', h1, h2, h3⟩ | ⟨h1, h2⟩
      · refine .inl ⟨i + 1, o', h1, by simpa [Dict.get?, e] using h2, ?_⟩
        simp only [Dict.get?, e, if_false]
        rw [h3]; congr 1; omega
      · exact .inr ⟨by simpa [Dict.get?, e] using h1, by simpa [Dict.get?, e] using h2⟩

theorem loaded_lookup {s : Store} (hv : Valid s) (ids : Nat → String) (k : String) :
    (∃ i r o, s.lookup k = some (r, o) ∧ s.dump[i]? = some (k, o) ∧
      (Store.loaded ids s.dump).lookup k = some (i, o.reborn (ids i))) ∨
    (s.lookup k = none ∧ (Store.loaded ids s.dump).lookup k = none) := by
  have hd : s.dump.get? k = (s.db.get? k).bind (fun r => s.heap[r]?) := dump_get s.heap s.db k (fun r hr => hv k r hr)
  have hm := mapIdx_get s.dump k 0
  simp only [Nat.add_zero] at hm
  rcases hm with ⟨i, o, h1, h2, h3⟩ | ⟨h1, h2⟩
  · rw [hd] at h2
    cases hg : s.db.get? k with
    | none => rw [hg] at h2; cases h2
    | some r =>
      rw [hg] at h2
      simp only [Option.bind_some] at h2
      refine .inl ⟨i, r, o, ?_, h1, ?_⟩
      · simp [Store.lookup, hg, Store.obj, h2]
      · unfold Store.lookup
        simp only [Store.loaded, h3, Store.obj, List.getElem?_mapIdx, h1, Option.map_some]
  · rw [hd] at h1
    refine .inr ⟨?_, ?_⟩
    · unfold Store.lookup
      cases hg : s.db.get? k with
      | none => rfl
      | some r =>
        rw [hg] at h1
        simp only [Option.bind_some] at h1
        simp [Store.obj, h1]
    · unfold Store.lookup
      simp only [Store.loaded, h2]

theorem loaded_valid (s : Store) (ids : Nat → String) : Valid (Store.loaded ids s.dump) := by
  intro k r h
  have hm := mapIdx_get s.dump k 0
  simp only [Nat.add_zero] at hm
  rcases hm with ⟨i, o, h1, _, h3⟩ | ⟨_, h2⟩
  · simp only [Store.loaded] at h
    rw [h3] at h; cases h
    simp only [Store.loaded, List.length_mapIdx]
    exact (List.getElem?_eq_some_iff.1 h1).1
  · simp only [Store.loaded] at h
    rw [h2] at h; cases h

theorem loaded_view {U : String → Prop} {s : Store} (hv : Valid s) (ids : Nat → String) (k : SKey) :
    (∃ i r o, view U s k = some (r, o) ∧ s.dump[i]? = some (SKey.str k, o) ∧
      view U (Store.loaded ids s.dump) k = some (i, o.reborn (ids i))) ∨
    (view U s k = none ∧ view U (Store.loaded ids s.dump) k = none) := by
  by_cases hk : k.Good U
  · rw [view_good _ hk, view_good _ hk]
    exact loaded_lookup hv ids _
  · exact .inr ⟨by simp [view, hk], by simp [view, hk]⟩

theorem loaded_same {U : String → Prop} {s : Store} (hv : Valid s) (ids : Nat → String) :
    SameV (view U s) (view U (Store.loaded ids s.dump)) := by
  intro k
  rcases loaded_view (U := U) hv ids k with ⟨i, r, o, h1, _, h3⟩ | ⟨h1, h2⟩
  · rw [h1, h3]; simp [bare_reborn]
  · rw [h1, h2]

theorem loaded_hinv {U A : String → Prop} {s : Store} (h : HInv U A s) (ids : Nat → String) :
    HInv U A (Store.loaded ids s.dump) := by
  have hs := loaded_same (U := U) h.inv.wf.valid ids
  refine ⟨⟨⟨loaded_valid s ids, ?_⟩, hs.vinv h.inv.links⟩, hs.once h.once⟩
  intro k k' r o o' h1 h2
  rcases loaded_view (U := U) h.inv.wf.valid ids k with ⟨i, _, o1, _, h4, h5⟩ | ⟨_, h5⟩
  · rcases loaded_view (U := U) h.inv.wf.valid ids k' with ⟨i', _, o2, _, h7, h8⟩ | ⟨_, h8⟩
    · rw [h1] at h5; rw [h2] at h8
      cases h5; cases h8
      rw [h4] at h7
      have := (Option.some.inj h7)
      exact skey_str_inj (view_some h1).1 (view_some h2).1 (Prod.mk.inj this).1
    · rw [h2] at h8; cases h8
  · rw [h1] at h5; cases h5

theorem loaded_av {U : String → Prop} {s : Store} (hv : Valid s) (ids : Nat → String) :
    av U (Store.loaded ids s.dump) = av U s := funext (loaded_same hv ids)

/-! ### What the operations do to the records -/

/-- The record if there is one, a new one otherwise. -/
def infoOr (o : Option Obj) (d : SInfo) : SInfo :=
  match o with
  | some (.info i) => i
  | _ => d

def aGrant (u c : String) (g : Grant) (V : SKey → Option Obj) : SKey → Option Obj :=
  let ci := infoOr (V (.cli u c)) { isUser := false }
  let ui := infoOr (V (.usr u)) { isUser := true }
  upd (upd (upd V (.gra u c g.id) (some (.grant (g.withId ""))))
    (.cli u c) (some (.info { ci with subordinate := addS g.id ci.subordinate })))
    (.usr u) (some (.info { ui with subordinate := addS c ui.subordinate }))

def aUser (u : String) (V : SKey → Option Obj) : SKey → Option Obj :=
  upd V (.usr u) (some (.info (infoOr (V (.usr u)) { isUser := true, ident := u })))

def aClient (u c : String) (V : SKey → Option Obj) : SKey → Option Obj :=
  let ui := infoOr (V (.usr u)) { isUser := true }
  upd (upd V (.cli u c) (some (.info (infoOr (V (.cli u c)) { isUser := false, ident := c }))))
    (.usr u) (some (.info { ui with subordinate := addS c ui.subordinate }))

theorem infoOr_fromV {V : SKey → Option (Nat × Obj)} {n : Nat} {k : SKey} {b : Bool} {r : Nat} {i : SInfo}
    (h : FromV V n k b r i) : infoOr ((V k).map (fun p => p.2.bare)) { isUser := b } = i := by
  rcases h with h | ⟨h, rfl, _⟩
  · rw [h]; rfl
  · rw [h]; rfl

theorem av_createGrant {U : String → Prop} {s : Store} (hi : DbInv U s) {u c : String} {g : Grant}
    (hk : (SKey.gra u c g.id).Good U) : av U (createGrant u c g s).2 = aGrant u c g (av U s) := by
  obtain ⟨s', he, hs⟩ := createGrant_spec hi hk
  rw [he]
  obtain ⟨rc, ci, ru, ui, hc, hu, hv⟩ := hs.view
  have hval := view_alloc (U := U) hi.wf.valid (.grant g)
  rw [hval] at hc hu hv
  have e1 := infoOr_fromV hc
  have e2 := infoOr_fromV hu
  show (fun k => (view U s' k).map _) = _
  rw [hv, map_upd, map_upd, map_upd]
  unfold aGrant av
  simp only [e1, e2]
  rfl

theorem av_ensureUser {U : String → Prop} {s : Store} (hi : DbInv U s) {u : String} (hk : (SKey.usr u).Good U) :
    ∃ s' r i, ensureUser u s = (.ok (), s') ∧ DbInv U s' ∧ av U s' = aUser u (av U s) ∧ view U s' (.usr u) = some (r, .info i) := by
  obtain ⟨s', r, i, he, hi', _, hv, hf⟩ := ensureUser_spec hi hk
  refine ⟨s', r, i, he, hi', ?_, by rw [hv]; simp⟩
  have e : infoOr ((view U s (.usr u)).map (fun p => p.2.bare)) { isUser := true, ident := u } = i := by
    rcases hf with h | ⟨h, rfl⟩ <;> rw [h] <;> rfl
  show (fun k => (view U s' k).map _) = _
  rw [hv, map_upd]
  unfold aUser av
  rw [e]
  rfl

theorem av_ensureClient {U : String → Prop} {s : Store} (hi : DbInv U s) {u c : String} (hk : (SKey.cli u c).Good U)
    {ru : Nat} {ui : SInfo} (hu : view U s (.usr u) = some (ru, .info ui)) :
    ∃ s', ensureClient u c s = (.ok (), s') ∧ DbInv U s' ∧ av U s' = aClient u c (av U s) := by
  obtain ⟨s', rc, ci, he, hi', _, hv, hf⟩ := ensureClient_spec hi hk hu
  refine ⟨s', he, hi', ?_⟩
  have e : infoOr ((view U s (.cli u c)).map (fun p => p.2.bare)) { isUser := false, ident := c } = ci := by
    rcases hf with h | ⟨h, rfl⟩ <;> rw [h] <;> rfl
  have e2 : infoOr ((view U s (.usr u)).map (fun p => p.2.bare)) { isUser := true } = ui := by rw [hu]; rfl
  show (fun k => (view U s' k).map _) = _
  rw [hv, map_upd, map_upd]
  unfold aClient av
  simp only [e, e2]
  rfl

theorem av_createSession {U : String → Prop} {s : Store} (hi : DbInv U s) {u c : String} {g : Grant}
    (hk : (SKey.gra u c g.id).Good U) :
    av U (createSession u c g s).2 = aGrant u c g (aClient u c (aUser u (av U s))) := by
  have hkc := good_cli_of_gra hk
  have hku := good_usr_of_cli hkc
  obtain ⟨s1, ru, ui, he1, hi1, ha1, hu⟩ := av_ensureUser hi hku
  obtain ⟨s2, he2, hi2, ha2⟩ := av_ensureClient hi1 hkc hu
  have ha3 := av_createGrant hi2 hk
  have : (createSession u c g s).2 = (createGrant u c g s2).2 := by
    unfold createSession
    simp only [SE.bind_apply, he1, he2]
  rw [this, ha3, ha2, ha1]

theorem av_put {U : String → Prop} {s : Store} (hi : DbInv U s) {u c g : String} {r : Nat} {gr : Grant}
    (hv : view U s (.gra u c g) = some (r, .grant gr)) (gr' : Grant) :
    av U (s.put r (.grant gr')) = upd (av U s) (.gra u c g) (some (.grant (gr'.withId ""))) := by
  show (fun k => (view U _ k).map _) = _
  rw [(inv_put_grant hi hv gr').2, map_upd]
  rfl

def aRevoked (u c : String) (gs : List String) (V : SKey → Option Obj) (k : SKey) : Option Obj :=
  match k with
  | .gra u' c' g' => if u' = u ∧ c' = c ∧ g' ∈ gs then (V k).map Obj.revoke else V k
  | _ => V k

theorem bare_revoke (o : Obj) : o.revoke.bare = o.bare.revoke := by cases o <;> rfl

theorem map_revokedView (V : SKey → Option (Nat × Obj)) (u c : String) (gs : List String) :
    (fun k => (revokedView V u c gs k).map (fun p => p.2.bare)) = aRevoked u c gs (fun k => (V k).map (fun p => p.2.bare)) := by
  funext k
  cases k with
  | usr _ => rfl
  | cli _ _ => rfl
  | gra u' c' g' =>
    simp only [revokedView, aRevoked]
    split
    · cases V (.gra u' c' g') <;> simp [bare_revoke]
    · rfl

/-- The record of a client session is marked, and its grants. -/
def aRevokeClient (u c : String) (V : SKey → Option Obj) : SKey → Option Obj :=
  match V (.cli u c) with
  | some (.info ci) => upd (aRevoked u c ci.subordinate V) (.cli u c) (some (.info { ci with revoked := true }))
  | _ => V

theorem view_of_av_none {U : String → Prop} {s : Store} {k : SKey} (h : av U s k = none) : view U s k = none := by
  unfold av at h
  cases hv : view U s k with
  | none => rfl
  | some p => rw [hv] at h; cases h

theorem av_revokeClient {U : String → Prop} {s : Store} (hi : DbInv U s) {u c : String} (hk : (SKey.cli u c).Good U) :
    av U (revokeClientSession u c s).2 = aRevokeClient u c (av U s) := by
  cases hv : view U s (.cli u c) with
  | none =>
    have hg : ∃ e, dbGet ⟨u, some c, none⟩ s = .error e := by
      cases hg : dbGet ⟨u, some c, none⟩ s with
      | error e => exact ⟨e, rfl⟩
      | ok r =>
        obtain ⟨o, ho⟩ := (dbGet_iff hi (k := .cli u c) hk r).1 hg
        rw [hv] at ho; cases ho
    obtain ⟨e, hg⟩ := hg
    have ha : av U s (.cli u c) = none := by simp [av, hv]
    simp only [revokeClientSession, hg, aRevokeClient, ha]
  | some p =>
    obtain ⟨r, o⟩ := p
    obtain ⟨ci, rfl⟩ := hi.links.typedC _ _ _ _ hv
    obtain ⟨s', he, _, hv', _⟩ := revokeClientSession_spec hi hv
    have ha : av U s (.cli u c) = some (.info ci) := by simp [av, hv, Obj.bare]
    rw [he]
    simp only [aRevokeClient, ha]
    show (fun k => (view U s' k).map _) = _
    rw [hv', map_upd, map_revokedView]
    rfl

def aRevokeGrant (u c g : String) (V : SKey → Option Obj) : SKey → Option Obj :=
  match V (.gra u c g) with
  | some o => upd V (.gra u c g) (some o.revoke)
  | none => V

theorem av_revokeGrant {U : String → Prop} {s : Store} (hi : DbInv U s) {u c g : String} (hk : (SKey.gra u c g).Good U) :
    av U (revokeGrant ⟨u, some c, some g⟩ s).2 = aRevokeGrant u c g (av U s) := by
  cases hv : view U s (.gra u c g) with
  | none =>
    have hg : ∃ e, dbGet ⟨u, some c, some g⟩ s = .error e := by
      cases hg : dbGet ⟨u, some c, some g⟩ s with
      | error e => exact ⟨e, rfl⟩
      | ok r =>
        obtain ⟨o, ho⟩ := (dbGet_iff hi (k := .gra u c g) hk r).1 hg
        rw [hv] at ho; cases ho
    obtain ⟨e, hg⟩ := hg
    have ha : av U s (.gra u c g) = none := by simp [av, hv]
    simp only [revokeGrant, hg, aRevokeGrant, ha]
  | some p =>
    obtain ⟨r, o⟩ := p
    obtain ⟨gr, rfl⟩ := hi.links.typedG _ _ _ _ _ hv
    obtain ⟨s', he, _, hv', _⟩ := revokeGrant_spec hi hv
    have ha : av U s (.gra u c g) = some (.grant (gr.withId "")) := by simp [av, hv, Obj.bare]
    rw [he]
    simp only [aRevokeGrant, ha]
    show (fun k => (view U s' k).map _) = _
    rw [hv', map_upd]
    rfl

def aRemove (u c g : String) (V : SKey → Option Obj) : SKey → Option Obj :=
  match V (.cli u c), V (.usr u) with
  | some (.info ci), some (.info ui) =>
    let V1 := upd V (.gra u c g) none
    if (ci.subordinate.erase g).isEmpty then
      let V2 := upd V1 (.cli u c) none
      if (ui.subordinate.erase c).isEmpty then upd V2 (.usr u) none
      else upd V2 (.usr u) (some (.info { ui with subordinate := ui.subordinate.erase c }))
    else upd V1 (.cli u c) (some (.info { ci with subordinate := ci.subordinate.erase g }))
  | _, _ => V

theorem av_removeSession {U A : String → Prop} {s : Store} (h : HInv U A s) {u c g : String} (hk : (SKey.gra u c g).Good U)
    (hc : ¬ U c) (hA : ¬ A g) : av U (removeSession u c g s).2 = aRemove u c g (av U s) := by
  have hfor := foreign_of hk.2.2.1.2 hc
  cases hv : view U s (.cli u c) with
  | none =>
    obtain ⟨res, s', he, hi, hv', _⟩ := removeSession_none h.inv hk hfor hv
    have ha : av U s (.cli u c) = none := by simp [av, hv]
    rw [he]
    simp only [aRemove, ha]
    show (fun k => (view U s' k).map _) = _
    rw [hv']
    rfl
  | some p =>
    obtain ⟨rc, o⟩ := p
    obtain ⟨ci, rfl⟩ := h.inv.links.typedC _ _ _ _ hv
    obtain ⟨ru, ui, hu, hm⟩ := h.inv.links.up1 _ _ _ hv
    obtain ⟨s', he, hi, hv', _⟩ := removeSession_some h.inv hk hfor hu hv
      (not_mem_erase_of_count (h.once.cli _ _ _ _ _ hv hA)) (not_mem_erase_of_count (h.once.usr _ _ _ _ hu))
    have ha : av U s (.cli u c) = some (.info ci) := by simp [av, hv, Obj.bare]
    have hb : av U s (.usr u) = some (.info ui) := by simp [av, hu, Obj.bare]
    rw [he]
    simp only [aRemove, ha, hb]
    show (fun k => (view U s' k).map _) = _
    rw [hv']
    unfold removedView
    simp only []
    split
    · split
      · rw [map_upd, map_upd, map_upd]; rfl
      · rw [map_upd, map_upd, map_upd]; rfl
    · rw [map_upd, map_upd]; rfl

/-! ### Sessions -/

theorem dbGet_none {U : String → Prop} {s : Store} (hi : DbInv U s) {u c g : String} (hk : (SKey.gra u c g).Good U)
    (hv : av U s (.gra u c g) = none) :
    dbGet ⟨u, some c, some g⟩ s = .error (if (av U s (.usr u)).isNone then .keyError else .valueError) := by
  have hkc := good_cli_of_gra hk
  have hku := good_usr_of_cli hkc
  have hv := view_of_av_none hv
  have h1 : s.lookup u = view U s (.usr u) := (view_good s hku).symm
  have h2 : s.lookup (key2 u c) = view U s (.cli u c) := (view_good s hkc).symm
  have h3 : s.lookup (key3 u c g) = view U s (.gra u c g) := (view_good s hk).symm
  unfold dbGet
  simp only [h1, h2, h3]
  cases hu : view U s (.usr u) with
  | none => simp [av, hu]
  | some p =>
    obtain ⟨ru, o⟩ := p
    obtain ⟨ui, rfl⟩ := hi.links.typedU _ _ _ hu
    simp only [subordinateOf, av, hu, Option.map_some, Option.isNone_some, Bool.false_eq_true, if_false]
    by_cases hm : c ∈ ui.subordinate
    · obtain ⟨x, hx⟩ := hi.links.down1 _ _ _ _ hu hm
      obtain ⟨rc, o⟩ := x
      obtain ⟨ci, rfl⟩ := hi.links.typedC _ _ _ _ hx
      simp only [hm, not_true, if_false, hx]
      by_cases hg : g ∈ ci.subordinate
      · obtain ⟨y, hy⟩ := hi.links.down2 _ _ _ _ _ hx hg
        rw [hv] at hy; cases hy
      · simp [hg]
    · simp [hm]

/-- Two lookups of a session: the same error, or the same session but for the reference and the grant's id. -/
inductive SessRel : Except Exc Sess → Except Exc Sess → Prop
  | error (e : Exc) : SessRel (.error e) (.error e)
  | ok (s : Sess) (r : Nat) (i : String) : SessRel (.ok s) (.ok { s with ref := r, grant := s.grant.withId i })

theorem sessRel {E : Env} {U : String → Prop} {st st' : Store} (hi : DbInv U st) (hi' : DbInv U st')
    (ha : av U st' = av U st) {sid : String} (hs : SidFor E U sid) :
    SessRel (sessionOf E st sid) (sessionOf E st' sid) := by
  obtain ⟨n, u, c, g, hgood, _, hd⟩ := sidFor_decrypt hs
  unfold sessionOf
  simp only [hd]
  cases hv : view U st (.gra u c g) with
  | none =>
    have h1 : av U st (.gra u c g) = none := by simp [av, hv]
    have h2 : av U st' (.gra u c g) = none := by rw [ha]; exact h1
    rw [dbGet_none hi hgood h1, dbGet_none hi' hgood h2, ha]
    exact .error _
  | some p =>
    obtain ⟨r, o⟩ := p
    obtain ⟨gr, rfl⟩ := hi.links.typedG _ _ _ _ _ hv
    have h1 : av U st' (.gra u c g) = some (.grant (gr.withId "")) := by rw [ha]; simp [av, hv, Obj.bare]
    cases hv' : view U st' (.gra u c g) with
    | none => simp [av, hv'] at h1
    | some p' =>
      obtain ⟨r', o'⟩ := p'
      simp only [av, hv', Option.map_some, Option.some.injEq] at h1
      obtain ⟨i, rfl⟩ := bare_eq_grant h1
      have g1 : dbGet ⟨u, some c, some g⟩ st = .ok r := (dbGet_iff hi (k := .gra u c g) hgood r).2 ⟨_, hv⟩
      have g2 : dbGet ⟨u, some c, some g⟩ st' = .ok r' := (dbGet_iff hi' (k := .gra u c g) hgood r').2 ⟨_, hv'⟩
      simp only [g1, g2, view_some_obj hv, view_some_obj hv']
      exact .ok ⟨sid, u, c, g, r, gr⟩ r' i

theorem commit_av {E : Env} {U A : String → Prop} {w : World} (hi : HInv U A w.st)
    (hU : ∀ n u c g, (SKey.gra u c g).Good U → ¬ U (E.encSid n [u, c, g])) {s : Sess} {sid : String} (hS : SidFor E U sid)
    (hs : sessionOf E w.st sid = .ok s) (gs : GS) :
    HInv U A (w.commit s gs).st ∧
      av U (w.commit s gs).st = upd (av U w.st) (.gra s.user s.client s.gid) (some (.grant (gs.g.withId ""))) := by
  refine ⟨(commit_refines (P := fun _ => True) hi hU hS hs gs trivial).hinv hi, ?_⟩
  obtain ⟨hgood, hcl, n, u, c, g, hgd, he⟩ := sidFor_session hS hs
  obtain ⟨hg, _, _, hd⟩ := sessionOf_spec hs
  obtain ⟨o, ho⟩ := (dbGet_iff hi.inv (k := .gra s.user s.client s.gid) hgood s.ref).1 hd
  obtain ⟨gr, rfl⟩ := hi.inv.links.typedG _ _ _ _ _ ho
  have hp := av_put hi.inv ho gs.g
  unfold World.commit
  simp only []
  split
  · exact hp
  · have hi2 := (inv_put_grant hi.inv ho gs.g).1
    have hlt : s.ref < (w.st.put s.ref (.grant gs.g)).heap.length := by
      simp only [Store.put, List.length_set]
      exact view_lt ho
    obtain ⟨s', he', _, hv, _⟩ := aliasSid_spec hi2 (foreign_of hcl (by rw [he]; exact hU _ _ _ _ hgd)) hlt
    rw [he', ← hp]
    show (fun k => (view U s' k).map _) = _
    rw [hv]
    rfl

end OidcOp
