/-
C118: the records of the user, the client and the session behind a session id, and the session id behind a token.
-/
import Verif.Props.Queries
import Verif.Props.Answered
import Verif.Lemmas.Bare
import Verif.Model.TokenSession

namespace OidcOp
open Spec

/-! ### What is stored for a user is a user's record, and what is stored for a client a client's -/

structure Kinds (V : SKey → Option Obj) : Prop where
  usr : ∀ u i, V (.usr u) = some (.info i) → i.isUser = true
  cli : ∀ u c i, V (.cli u c) = some (.info i) → i.isUser = false

theorem infoOr_kind {V : Option Obj} {d : SInfo} {b : Bool} (h : ∀ i, V = some (.info i) → i.isUser = b) (hd : d.isUser = b) :
    (infoOr V d).isUser = b := by
  unfold infoOr
  split
  · exact h _ rfl
  · exact hd

theorem Kinds.gra {V : SKey → Option Obj} (h : Kinds V) (u c g : String) (o : Option Obj) : Kinds (upd V (.gra u c g) o) :=
  ⟨fun u' i hx => h.usr u' i (by simpa [upd] using hx), fun u' c' i hx => h.cli u' c' i (by simpa [upd] using hx)⟩

theorem Kinds.setUsr {V : SKey → Option Obj} (h : Kinds V) (u : String) (o : Option Obj)
    (ho : ∀ i, o = some (.info i) → i.isUser = true) : Kinds (upd V (.usr u) o) := by
  refine ⟨fun u' i hx => ?_, fun u' c' i hx => h.cli u' c' i (by simpa [upd] using hx)⟩
  unfold upd at hx
  split at hx
  · exact ho i hx
  · exact h.usr u' i hx

theorem Kinds.setCli {V : SKey → Option Obj} (h : Kinds V) (u c : String) (o : Option Obj)
    (ho : ∀ i, o = some (.info i) → i.isUser = false) : Kinds (upd V (.cli u c) o) := by
  refine ⟨fun u' i hx => h.usr u' i (by simpa [upd] using hx), fun u' c' i hx => ?_⟩
  unfold upd at hx
  split at hx
  · exact ho i hx
  · exact h.cli u' c' i hx

theorem kinds_aGrant {V : SKey → Option Obj} (h : Kinds V) (u c : String) (g : Grant) : Kinds (aGrant u c g V) := by
  unfold aGrant
  refine ((h.gra u c g.id _).setCli u c _ ?_).setUsr u _ ?_
  · intro i hi; cases hi; exact infoOr_kind (d := { isUser := false }) (h.cli u c) rfl
  · intro i hi; cases hi; exact infoOr_kind (d := { isUser := true }) (h.usr u) rfl

theorem kinds_aUser {V : SKey → Option Obj} (h : Kinds V) (u : String) : Kinds (aUser u V) := by
  unfold aUser
  refine h.setUsr u _ ?_
  intro i hi; cases hi; exact infoOr_kind (h.usr u) rfl

theorem kinds_aClient {V : SKey → Option Obj} (h : Kinds V) (u c : String) : Kinds (aClient u c V) := by
  unfold aClient
  refine (h.setCli u c _ ?_).setUsr u _ ?_
  · intro i hi; cases hi; exact infoOr_kind (h.cli u c) rfl
  · intro i hi; cases hi; exact infoOr_kind (d := { isUser := true }) (h.usr u) rfl

theorem kinds_aRevokeClient {V : SKey → Option Obj} (h : Kinds V) (u c : String) : Kinds (aRevokeClient u c V) := by
  unfold aRevokeClient
  split
  · rename_i ci hci
    refine Kinds.setCli (V := aRevoked u c ci.subordinate V) ⟨fun u' i hx => h.usr u' i hx, fun u' c' i hx => h.cli u' c' i hx⟩ u c _ ?_
    intro i hi
    cases hi
    exact h.cli u c ci hci
  · exact h

theorem kinds_aRemove {V : SKey → Option Obj} (h : Kinds V) (u c g : String) : Kinds (aRemove u c g V) := by
  unfold aRemove
  split
  · rename_i ci ui hci hui
    simp only []
    split
    · split
      · exact ((h.gra u c g none).setCli u c none nofun).setUsr u none nofun
      · refine ((h.gra u c g none).setCli u c none nofun).setUsr u _ ?_
        intro i hi; cases hi; exact h.usr u ui hui
    · refine (h.gra u c g none).setCli u c _ ?_
      intro i hi; cases hi; exact h.cli u c ci hci
  · exact h

theorem kinds_step {U A : String → Prop} {s : Store} (h : HInv U A s) (hk : Kinds (av U s)) {op : SOp} (hf : FairOp U op)
    (hrem : ∀ u c g, op = .removeSession u c g → ¬ A g) : Kinds (av U (runOp s op)) := by
  cases op with
  | createSession u c g =>
    simp only [runOp]
    rw [av_createSession h.inv hf]
    exact kinds_aGrant (kinds_aClient (kinds_aUser hk u) u c) u c g
  | createGrant u c g =>
    simp only [runOp]
    rw [av_createGrant h.inv hf]
    exact kinds_aGrant hk u c g
  | addGrant u c g =>
    obtain ⟨s', he, hi, _, _, hother, hu, ⟨r, i, hfc, hvc⟩, ⟨r2, i2, hfu, hvu⟩⟩ := addGrant_spec h.inv hf
    simp only [runOp, he]
    constructor
    · intro u' i' hx
      by_cases e : u' = u
      · subst e
        unfold av at hx
        rw [hvu] at hx
        cases hx
        rcases hfu with h' | ⟨_, rfl, _⟩
        · exact hk.usr u' i2 (by unfold av; rw [h']; rfl)
        · rfl
      · unfold av at hx
        rw [hother _ (by simp [e]) (by simp) (by simp)] at hx
        exact hk.usr u' i' hx
    · intro u' c' i' hx
      by_cases e : u' = u ∧ c' = c
      · obtain ⟨rfl, rfl⟩ := e
        unfold av at hx
        rw [hvc] at hx
        cases hx
        rcases hfc with h' | ⟨_, rfl, _⟩
        · exact hk.cli u' c' i (by unfold av; rw [h']; rfl)
        · rfl
      · unfold av at hx
        rw [hother _ (by simp) (by simpa using e) (by simp)] at hx
        exact hk.cli u' c' i' hx
  | update u c g f =>
    simp only [runOp]
    cases hg : dbGet ⟨u, some c, some g⟩ s with
    | error e => exact hk
    | ok r =>
      obtain ⟨o, ho⟩ := (dbGet_iff h.inv (k := .gra u c g) hf r).1 hg
      obtain ⟨gr, rfl⟩ := h.inv.links.typedG _ _ _ _ _ ho
      simp only []
      rw [mutate_eq (view_some_obj ho)]
      show Kinds (av U (s.put r (.grant (f gr))))
      rw [av_put h.inv ho]
      exact hk.gra ..
  | store u c g =>
    simp only [runOp]
    cases hg : dbGet ⟨u, some c, some g⟩ s with
    | error e => exact hk
    | ok r =>
      obtain ⟨o, ho⟩ := (dbGet_iff h.inv (k := .gra u c g) hf r).1 hg
      obtain ⟨gr, rfl⟩ := h.inv.links.typedG _ _ _ _ _ ho
      obtain ⟨s', he, hi, hv, _⟩ := dbSet_grant_same h.inv ho
      simp only [he]
      have : av U s' = av U s := by unfold av; rw [hv]
      rw [this]; exact hk
  | «alias» u c g sid =>
    simp only [runOp]
    cases hg : dbGet ⟨u, some c, some g⟩ s with
    | error e => exact hk
    | ok r =>
      obtain ⟨o, ho⟩ := (dbGet_iff h.inv (k := .gra u c g) hf.1 r).1 hg
      obtain ⟨s', he, hi, hv, _⟩ := aliasSid_spec h.inv (foreign_of hf.2.1 hf.2.2) (view_lt ho)
      simp only [he]
      have : av U s' = av U s := by unfold av; rw [hv]
      rw [this]; exact hk
  | revokeGrant u c g =>
    simp only [runOp]
    rw [av_revokeGrant h.inv hf]
    unfold aRevokeGrant
    split
    · exact hk.gra ..
    · exact hk
  | revokeClientSession u c =>
    simp only [runOp]
    rw [av_revokeClient h.inv hf]
    exact kinds_aRevokeClient hk u c
  | removeSession u c g =>
    simp only [runOp]
    rw [av_removeSession h hf.1 hf.2 (hrem _ _ _ rfl)]
    exact kinds_aRemove hk u c g

theorem kinds_history {U : String → Prop} (ops : List SOp) (hf : ∀ op ∈ ops, FairOp U op)
    (hrem : ∀ u c g, SOp.removeSession u c g ∈ ops → ¬ addedWith ops g) : Kinds (av U (history ops)) := by
  have gen : ∀ (A : String → Prop) (l : List SOp) (s : Store), HInv U A s → Kinds (av U s) → (∀ op ∈ l, FairOp U op) →
      (∀ u c g, SOp.addGrant u c g ∈ l → A g.id) → (∀ u c g, SOp.removeSession u c g ∈ l → ¬ A g) →
      Kinds (av U (l.foldl runOp s)) := by
    intro A l
    induction l with
    | nil => exact fun s _ h _ _ _ => h
    | cons op l ih =>
      intro s h hk hf ha hr
      refine ih _ (hinv_step h (hf op List.mem_cons_self) (fun u c g e => ha u c g (by rw [e]; exact List.mem_cons_self))
        (fun u c g e => hr u c g (by rw [e]; exact List.mem_cons_self)))
        (kinds_step h hk (hf op List.mem_cons_self) (fun u c g e => hr u c g (by rw [e]; exact List.mem_cons_self)))
        (fun o ho => hf o (List.mem_cons_of_mem _ ho)) (fun u c g ho => ha u c g (List.mem_cons_of_mem _ ho))
        (fun u c g ho => hr u c g (List.mem_cons_of_mem _ ho))
  have start : HInv U (addedWith ops) (history []) := by
    have := hinv_history (U := U) [] (by simp) (by simp)
    exact ⟨this.inv, ⟨fun u r i x hx => this.once.usr u r i x hx, fun u c r i x hx _ => this.once.cli u c r i x hx (by rintro ⟨_, _, _, h, _⟩; cases h)⟩⟩
  refine gen (addedWith ops) ops {} start ?_ hf (fun u c g h => ⟨u, c, g, h, rfl⟩) hrem
  constructor
  · intro u i hx
    have : view U {} (.usr u) = none := by
      cases hv : view U {} (.usr u) with
      | none => rfl
      | some p => have := (view_some hv).2; simp [Store.lookup, Dict.get?] at this
    rw [av, this] at hx
    cases hx
  · intro u c i hx
    have : view U {} (.cli u c) = none := by
      cases hv : view U {} (.cli u c) with
      | none => rfl
      | some p => have := (view_some hv).2; simp [Store.lookup, Dict.get?] at this
    rw [av, this] at hx
    cases hx

theorem kinds_found {U : String → Prop} {ops : List SOp} (hf : ∀ op ∈ ops, FairOp U op)
    (hrem : ∀ u c g, SOp.removeSession u c g ∈ ops → ¬ addedWith ops g) {k : SKey} (hk : k.Good U) {o : Obj}
    (h : found (history ops) k = some o) : av U (history ops) k = some o.bare := by
  rw [found_view (hinv_history ops hf hrem).inv hk] at h
  unfold av
  cases hv : view U (history ops) k with
  | none => rw [hv] at h; cases h
  | some p => rw [hv] at h; cases h; rfl

/-! ### C118 -/

/-- C118, the records above a session.  After any history, the user's record and the client session's record behind the id of a
session that exists are told as they are stored: the user's record lists the client and the client session's record the grant, and
neither is taken for one of the other sort. -/
theorem C118_records_told_partial (U : String → Prop) (ops : List SOp) (hfair : ∀ op ∈ ops, FairOp U op)
    (hrem : ∀ u c g, SOp.removeSession u c g ∈ ops → ¬ addedWith ops g)
    (dec : String → Except Exc (List String)) (sid u c g : String) (hsid : dec sid = .ok [u, c, g])
    (hk : (SKey.gra u c g).Good U) (gr : Grant) (hg : found (history ops) (.gra u c g) = some (.grant gr)) :
    (∃ i, getUserSessionInfo dec sid (history ops) = .ok i ∧ getUserInfo u (history ops) = .ok i ∧
      found (history ops) (.usr u) = some (.info i) ∧ i.isUser = true ∧ c ∈ i.subordinate) ∧
    (∃ i, getClientSessionInfo dec sid (history ops) = .ok i ∧
      found (history ops) (.cli u c) = some (.info i) ∧ i.isUser = false ∧ g ∈ i.subordinate) := by
  obtain ⟨ui, ci, hu, hmc, hc, hmg⟩ := records_above (hinv_history ops hfair hrem).inv hk hg
  have hkc := good_cli_of_gra hk
  have kinds := kinds_history ops hfair hrem
  have ku := kinds.usr u _ (kinds_found hfair hrem (good_usr_of_cli hkc) hu)
  have kc := kinds.cli u c _ (kinds_found hfair hrem hkc hc)
  have r1 : recordAt ⟨u, none, none⟩ (history ops) = .ok (.info ui) := recordAt_ok hu
  have r2 : recordAt ⟨u, some c, none⟩ (history ops) = .ok (.info ci) := recordAt_ok hc
  refine ⟨⟨ui, ?_, ?_, hu, ku, hmc⟩, ⟨ci, ?_, hc, kc, hmg⟩⟩
  · simp only [getUserSessionInfo, threeParts_ok hsid, ok_bind, r1, infoOfKind, ku, if_true]
  · simp only [getUserInfo, r1, ok_bind, infoOfKind, ku, if_true]
  · simp only [getClientSessionInfo, threeParts_ok hsid, ok_bind, r2, infoOfKind, kc, if_true]

/-- C118, records that are not there.  Whatever the database holds, a user or a client session that `get` does not find is told
nothing of; and whatever is told is what `get` finds, of the sort that was asked for. -/
theorem C118_records_stored (s : Store) (dec : String → Except Exc (List String)) (sid u c g : String)
    (hsid : dec sid = .ok [u, c, g]) (i : SInfo) :
    (getUserInfo u s = .ok i ↔ found s (.usr u) = some (.info i) ∧ i.isUser = true) ∧
    (getUserSessionInfo dec sid s = .ok i ↔ found s (.usr u) = some (.info i) ∧ i.isUser = true) ∧
    (getClientSessionInfo dec sid s = .ok i ↔ found s (.cli u c) = some (.info i) ∧ i.isUser = false) := by
  have key : ∀ (k : SKey) (b : Bool), ((recordAt k.path s >>= infoOfKind b) = .ok i) ↔
      found s k = some (.info i) ∧ i.isUser = b := by
    intro k b
    cases hf : found s k with
    | none =>
      obtain ⟨e, he⟩ := recordAt_error hf
      rw [he, error_bind]
      simp
    | some o =>
      rw [recordAt_ok hf, ok_bind]
      cases o with
      | grant gr => simp [infoOfKind]
      | info j =>
        simp only [infoOfKind]
        constructor
        · intro h
          split at h
          · rename_i hb
            obtain rfl := Except.ok.inj h
            exact ⟨rfl, hb⟩
          · cases h
        · rintro ⟨h, hb⟩
          cases h
          simp [hb]
  refine ⟨key (.usr u) true, ?_, ?_⟩
  · unfold getUserSessionInfo
    rw [threeParts_ok hsid, ok_bind]
    exact key (.usr u) true
  · unfold getClientSessionInfo
    rw [threeParts_ok hsid, ok_bind]
    exact key (.cli u c) false

/-- C118, the session behind a token.  Whatever the state, when the session behind a token value can be told then the session id
that is told for the value is the id of that session, and the grant told under that id is that session's. -/
theorem C118_id_of_token (E : Env) (w : World) (v : String) (s : Sess) (h : sessionByToken E w v = .ok s) :
    sessionIdByToken E w v = .ok s.sid ∧ E.decrypt s.sid = .ok [s.user, s.client, s.gid] ∧
    getGrant E.decrypt s.sid w.st = .ok s.grant ∧ found w.st (.gra s.user s.client s.gid) = some (.grant s.grant) := by
  unfold sessionByToken at h
  unfold sessionIdByToken
  cases hi : E.info v w.now with
  | error e => rw [hi] at h; cases h
  | ok sid? =>
    rw [hi] at h
    simp only [] at h ⊢
    cases sid? with
    | none => simp [truthyStr] at h
    | some sid =>
      have ht : truthyStr (some sid) = none ∨ truthyStr (some sid) = some sid := by
        unfold truthyStr
        cases he : decide (sid = "") <;> simp_all
      rcases ht with ht | ht
      · rw [ht] at h; cases h
      · rw [ht] at h
        simp only [] at h ⊢
        unfold sessionOf at h
        generalize hsid : compatibleSid E w.n sid = sd at h ⊢
        split at h
        · cases h
        · rename_i u c g hd
          split at h
          · cases h
          · rename_i r hr
            split at h
            · rename_i gr ho
              cases h
              have hf : found w.st (.gra u c g) = some (.grant gr) := by
                unfold found
                simp only [SKey.path, hr]
                exact ho
              refine ⟨rfl, hd, ?_, hf⟩
              have r3 : recordAt ⟨u, some c, some g⟩ w.st = .ok (.grant gr) := recordAt_ok hf
              unfold getGrant
              rw [threeParts_ok hd, ok_bind]
              simp only [r3]
            · cases h
        · cases h

/-- C118, tokens without a session: for an ID Token, or a value that no handler knows, no session id is told. -/
theorem C118_no_id_of_token (E : Env) (w : World) (v : String) (h : ∀ sid, E.info v w.now ≠ .ok (some sid)) :
    ∃ e, sessionIdByToken E w v = .error e := by
  unfold sessionIdByToken
  split
  · exact ⟨_, rfl⟩
  · exact ⟨_, rfl⟩
  · rename_i sid hs; exact absurd hs (h sid)

/-- Alice's record lists the client, the client session's record both grants. -/
example : (getUserSessionInfo exDec "sid1" (history exAsked)).toOption.map (·.subordinate) = some ["c1"] ∧
    (getClientSessionInfo exDec "sid1" (history exAsked)).toOption.map (·.subordinate) = some ["g1", "g3"] ∧
    (getUserInfo "nobody" (history exAsked)).isOk = false := by
  refine ⟨?_, ?_, ?_⟩ <;> decide +kernel

/-- The premise of `C118_id_of_token` holds of the code of a login, which is told under the id of the session. -/
example : (match sessionByToken Ex.E Ex.asked0 Ex.code0 with | .ok s => some s.sid | .error _ => none) = some (Ex.sid "c1" 0) ∧
    (sessionIdByToken Ex.E Ex.asked0 Ex.code0).toOption = some (Ex.sid "c1" 0) := by
  refine ⟨?_, ?_⟩ <;> decide +kernel

end OidcOp
