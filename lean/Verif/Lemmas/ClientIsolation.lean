/-
The operations of the provider as operations on the session database, one record at a time.
-/
import Verif.Lemmas.Isolation
import Verif.Spec.ClientIsolation

namespace OidcOp
open Spec

/-- The records that an operation on the session database may change. -/
def Touches : SOp → SKey → Prop
  | .createSession u c g, k => k = .usr u ∨ k = .cli u c ∨ k = .gra u c g.id
  | .createGrant u c g, k => k = .usr u ∨ k = .cli u c ∨ k = .gra u c g.id
  | .addGrant u c g, k => k = .usr u ∨ k = .cli u c ∨ k = .gra u c g.id
  | .update u c g _, k => k = .gra u c g
  | .store _ _ _, _ => False
  | .alias _ _ _ _, _ => False
  | .revokeGrant u c g, k => k = .gra u c g
  | .revokeClientSession u c, k => k = .cli u c ∨ ∃ g, k = .gra u c g
  | .removeSession u c g, k => k = .usr u ∨ k = .cli u c ∨ k = .gra u c g

/-- An operation leaves the records of the other users as they are. -/
theorem runOp_fine {U A : String → Prop} {s : Store} (h : HInv U A s) {op : SOp} (hf : FairOp U op)
    (hrem : ∀ u c g, op = .removeSession u c g → ¬ A g) {k : SKey} (hk : ¬ Touches op k) :
    view U (runOp s op) k = view U s k := by
  cases op with
  | createSession u c g =>
    have n1 : k ≠ .usr u := fun e => hk (.inl e)
    have n2 : k ≠ .cli u c := fun e => hk (.inr (.inl e))
    have n3 : k ≠ .gra u c g.id := fun e => hk (.inr (.inr e))
    obtain ⟨s', r, he, hi, _, ho, _⟩ := createSession_spec h.inv hf
    simp only [runOp, he]
    exact ho.other k n1 n2 n3
  | createGrant u c g =>
    have n1 : k ≠ .usr u := fun e => hk (.inl e)
    have n2 : k ≠ .cli u c := fun e => hk (.inr (.inl e))
    have n3 : k ≠ .gra u c g.id := fun e => hk (.inr (.inr e))
    obtain ⟨s', he, hi, _, ho, _⟩ := createGrant_outside h.inv hf
    simp only [runOp, he]
    exact ho.other k n1 n2 n3
  | addGrant u c g =>
    have n1 : k ≠ .usr u := fun e => hk (.inl e)
    have n2 : k ≠ .cli u c := fun e => hk (.inr (.inl e))
    have n3 : k ≠ .gra u c g.id := fun e => hk (.inr (.inr e))
    obtain ⟨s', he, hi, _, _, hother, _⟩ := addGrant_spec h.inv hf
    simp only [runOp, he]
    exact hother k n1 n2 n3
  | update u c g f =>
    simp only [runOp]
    cases hg : dbGet ⟨u, some c, some g⟩ s with
    | error e => rfl
    | ok r =>
      obtain ⟨o, ho⟩ := (dbGet_iff h.inv (k := .gra u c g) hf r).1 hg
      obtain ⟨gr, rfl⟩ := h.inv.links.typedG _ _ _ _ _ ho
      simp only []
      rw [mutate_eq (view_some_obj ho), (inv_put_grant h.inv ho (f gr)).2]
      exact upd_ne _ _ (fun e => hk e)
  | store u c g =>
    simp only [runOp]
    cases hg : dbGet ⟨u, some c, some g⟩ s with
    | error e => rfl
    | ok r =>
      obtain ⟨o, ho⟩ := (dbGet_iff h.inv (k := .gra u c g) hf r).1 hg
      obtain ⟨gr, rfl⟩ := h.inv.links.typedG _ _ _ _ _ ho
      obtain ⟨s', he, hi, hv, _⟩ := dbSet_grant_same h.inv ho
      simp only [he, hv]
  | alias u c g sid =>
    simp only [runOp]
    cases hg : dbGet ⟨u, some c, some g⟩ s with
    | error e => rfl
    | ok r =>
      obtain ⟨o, ho⟩ := (dbGet_iff h.inv (k := .gra u c g) hf.1 r).1 hg
      obtain ⟨s', he, hi, hv, _⟩ := aliasSid_spec h.inv (foreign_of hf.2.1 hf.2.2) (view_lt ho)
      simp only [he, hv]
  | revokeGrant u c g =>
    simp only [runOp]
    cases hg : dbGet ⟨u, some c, some g⟩ s with
    | error e => simp only [revokeGrant, hg]
    | ok r =>
      obtain ⟨o, ho⟩ := (dbGet_iff h.inv (k := .gra u c g) hf r).1 hg
      obtain ⟨gr, rfl⟩ := h.inv.links.typedG _ _ _ _ _ ho
      obtain ⟨s', he, hi, hv, _⟩ := revokeGrant_spec h.inv ho
      simp only [he, hv]
      exact upd_ne _ _ (fun e => hk e)
  | revokeClientSession u c =>
    simp only [runOp]
    cases hg : dbGet ⟨u, some c, none⟩ s with
    | error e => simp only [revokeClientSession, hg]
    | ok r =>
      obtain ⟨o, ho⟩ := (dbGet_iff h.inv (k := .cli u c) hf r).1 hg
      obtain ⟨ci, rfl⟩ := h.inv.links.typedC _ _ _ _ ho
      obtain ⟨s', he, hi, hv, _⟩ := revokeClientSession_spec h.inv ho
      simp only [he, hv]
      rw [upd_ne _ _ (fun e => hk (.inl e))]
      cases k with
      | usr _ => rfl
      | cli _ _ => rfl
      | gra u' c' g' =>
        have : ¬ (u' = u ∧ c' = c ∧ g' ∈ ci.subordinate) := fun hh => hk (.inr ⟨g', by rw [hh.1, hh.2.1]⟩)
        simp only [revokedView, if_neg this]
  | removeSession u c g =>
    have n1 : k ≠ .usr u := fun e => hk (.inl e)
    have n2 : k ≠ .cli u c := fun e => hk (.inr (.inl e))
    have n3 : k ≠ .gra u c g := fun e => hk (.inr (.inr e))
    simp only [runOp]
    have hfor := foreign_of hf.1.2.2.1.2 hf.2
    have hA := hrem _ _ _ rfl
    cases hc : view U s (.cli u c) with
    | none =>
      obtain ⟨res, s', he, hi, hv, _⟩ := removeSession_none h.inv hf.1 hfor hc
      rw [he]
      exact congrFun hv k
    | some p =>
      obtain ⟨rc, o⟩ := p
      obtain ⟨ci, rfl⟩ := h.inv.links.typedC _ _ _ _ hc
      obtain ⟨ru, ui, hu, hm⟩ := h.inv.links.up1 _ _ _ hc
      obtain ⟨s', he, hi, hv, _⟩ := removeSession_some h.inv hf.1 hfor hu hc
        (not_mem_erase_of_count (h.once.cli _ _ _ _ _ hc hA)) (not_mem_erase_of_count (h.once.usr _ _ _ _ hu))
      rw [he]
      show view U s' k = _
      rw [hv]
      simp only [removedView]
      split
      · split
        · rw [upd_ne _ _ n1, upd_ne _ _ n2, upd_ne _ _ n3]
        · rw [upd_ne _ _ n1, upd_ne _ _ n2, upd_ne _ _ n3]
      · rw [upd_ne _ _ n2, upd_ne _ _ n3]

/-- The change of the database is a list of fair operations, each about a user that satisfies `P`. -/
def RefinesK (U A : String → Prop) (P : SKey → Prop) (s s' : Store) : Prop :=
  ∃ sops : List SOp, s' = sops.foldl runOp s ∧ ∀ op ∈ sops, FairOp U op ∧ (∀ k, Touches op k → P k) ∧
    (∀ u c g, op = .addGrant u c g → A g.id) ∧ (∀ u c g, op = .removeSession u c g → ¬ A g)

theorem RefinesK.refl (U A : String → Prop) (P : SKey → Prop) (s : Store) : RefinesK U A P s s := ⟨[], rfl, by simp⟩

theorem RefinesK.one {U A : String → Prop} {P : SKey → Prop} {s : Store} (op : SOp) (hf : FairOp U op) (hp : (∀ k, Touches op k → P k))
    (h1 : ∀ u c g, op = .addGrant u c g → A g.id) (h2 : ∀ u c g, op = .removeSession u c g → ¬ A g) :
    RefinesK U A P s (runOp s op) := ⟨[op], rfl, by rintro o ho; simp at ho; subst ho; exact ⟨hf, hp, h1, h2⟩⟩

theorem RefinesK.hinv {U A : String → Prop} {P : SKey → Prop} {s s' : Store} (h : RefinesK U A P s s') (hi : HInv U A s) : HInv U A s' := by
  obtain ⟨sops, rfl, hall⟩ := h
  induction sops generalizing s with
  | nil => exact hi
  | cons op r ih =>
    obtain ⟨h1, _, h3, h4⟩ := hall op (by simp)
    exact ih (hinv_step hi h1 h3 h4) (fun o ho => hall o (by simp [ho]))

theorem RefinesK.other {U A : String → Prop} {P : SKey → Prop} {s s' : Store} (h : RefinesK U A P s s') (hi : HInv U A s) {k : SKey}
    (hk : ¬ P k) : view U s' k = view U s k := by
  obtain ⟨sops, rfl, hall⟩ := h
  induction sops generalizing s with
  | nil => rfl
  | cons op r ih =>
    obtain ⟨h1, h2, h3, h4⟩ := hall op (by simp)
    have := ih (hinv_step hi h1 h3 h4) (fun o ho => hall o (by simp [ho]))
    show view U (r.foldl runOp (runOp s op)) k = _
    rw [this]
    exact runOp_fine hi h1 h4 (fun e => hk (h2 k e))

theorem put_refinesK {U A : String → Prop} {P : SKey → Prop} {st : Store} (_hi : HInv U A st) {u c g : String} {r : Nat} {gr gr' : Grant}
    (hgood : (SKey.gra u c g).Good U) (hd : dbGet ⟨u, some c, some g⟩ st = .ok r) (hg : st.grantAt r = some gr)
    (hP : P (.gra u c g)) : RefinesK U A P st (st.put r (.grant gr')) := by
  have he : st.put r (.grant gr') = runOp st (.update u c g (fun _ => gr')) := by
    simp only [runOp, hd]
    rw [mutate_eq (grantAt_iff.1 hg)]
  rw [he]
  exact .one _ hgood (fun k e => (show k = _ from e) ▸ hP) (by simp) (by simp)

theorem put_alias_refinesK {U A : String → Prop} {P : SKey → Prop} {st : Store} (hi : HInv U A st) {u c g sid : String} {r : Nat} {gr gr' : Grant}
    (hgood : (SKey.gra u c g).Good U) (hd : dbGet ⟨u, some c, some g⟩ st = .ok r) (hg : st.grantAt r = some gr)
    (hs : ';' ∉ sid.toList) (hU : ¬ U sid)
    (hP : P (.gra u c g)) : RefinesK U A P st (aliasSid sid r (st.put r (.grant gr'))).2 := by
  obtain ⟨o, ho⟩ := (dbGet_iff hi.inv (k := .gra u c g) hgood r).1 hd
  obtain ⟨gr1, rfl⟩ := hi.inv.links.typedG _ _ _ _ _ ho
  obtain ⟨hi2, hv2⟩ := inv_put_grant hi.inv ho gr'
  have hd2 : dbGet ⟨u, some c, some g⟩ (st.put r (.grant gr')) = .ok r := by
    apply (dbGet_iff hi2 (k := .gra u c g) hgood r).2
    rw [hv2]
    exact ⟨.grant gr', by simp [upd]⟩
  have he : st.put r (.grant gr') = runOp st (.update u c g (fun _ => gr')) := by
    simp only [runOp, hd]
    rw [mutate_eq (grantAt_iff.1 hg)]
  refine ⟨[.update u c g (fun _ => gr'), .alias u c g sid], ?_, ?_⟩
  · simp only [List.foldl_cons, List.foldl_nil]
    rw [← he]
    simp only [runOp, hd2]
  · intro op hop
    simp only [List.mem_cons, List.not_mem_nil, or_false] at hop
    rcases hop with rfl | rfl
    · exact ⟨hgood, fun k e => (show k = _ from e) ▸ hP, by simp, by simp⟩
    · exact ⟨⟨hgood, hs, hU⟩, fun k e => e.elim, by simp, by simp⟩

theorem commit_refinesK {E : Env} {U A : String → Prop} {P : SKey → Prop} {w : World} (hi : HInv U A w.st)
    (hU : ∀ n u c g, (SKey.gra u c g).Good U → ¬ U (E.encSid n [u, c, g])) {s : Sess} {sid : String} (hS : SidFor E U sid)
    (hs : sessionOf E w.st sid = .ok s) (gs : GS) (hP : P (.gra s.user s.client s.gid)) : RefinesK U A P w.st (w.commit s gs).st := by
  obtain ⟨hgood, hcl, n, u, c, g, hgd, he⟩ := sidFor_session hS hs
  obtain ⟨hg, _, _, hd⟩ := sessionOf_spec hs
  unfold World.commit
  simp only []
  split
  · exact put_refinesK hi hgood hd hg hP
  · exact put_alias_refinesK hi hgood hd hg hcl (by rw [he]; exact hU _ _ _ _ hgd) hP

theorem tokenParse_refinesK {E : Env} {U A : String → Prop} {w : World} (hw : WInv E (SidFor E U) w) (hi : HInv U A w.st)
    (hU : ∀ n u c g, (SKey.gra u c g).Good U → ¬ U (E.encSid n [u, c, g])) (client : String) (req : TokenReq) :
    RefinesK U A (PresentsGrant E w req) w.st (tokenParse E w client req).2.st := by
  unfold tokenParse
  split
  · exact .refl _ _ _ _
  · split
    · exact .refl _ _ _ _
    · split
      · exact .refl _ _ _ _
      · split
        · unfold codeParseW
          split
          · exact .refl _ _ _ _
          · rename_i code hcode
            split
            · split <;> exact .refl _ _ _ _
            · rename_i s hs
              have hg := sessionByToken_grantAt hs
              cases hgt : s.grant.getToken code with
              | none =>
                have hun := codeParse_unknown (cfg := E.cfg) (clock := w.now) (req := req) hgt
                cases hp : codeParse E.cfg w.now req code s.grant with
                | mk res g' =>
                  rw [hp] at hun
                  simp only [] at hun
                  subst hun
                  simp only [World.commit, if_true]
                  rw [put_self hg]
                  exact .refl _ _ _ _
              | some t =>
                obtain ⟨hm, hval⟩ := getToken_mem hgt
                obtain ⟨i, hti⟩ := List.getElem?_of_mem hm
                obtain ⟨sid, h1, h2⟩ := issued_sidFor hw hs hg hti hval
                exact commit_refinesK hi hU h1 h2 _ ⟨code, s, .inl hcode, hs, rfl⟩
        · split <;> exact .refl _ _ _ _

theorem tokenHelper_refinesK {E : Env} {U A : String → Prop} {w : World} (hw : WInv E (SidFor E U) w) (hi : HInv U A w.st)
    (hU : ∀ n u c g, (SKey.gra u c g).Good U → ¬ U (E.encSid n [u, c, g])) (kw : Option Bool) {req : TokenReq}
    (hp : req ∈ w.pool) : RefinesK U A (PresentsGrant E w req) w.st (tokenHelper E w kw req).2.st := by
  have hok := hw.pool req hp
  unfold tokenHelper
  split
  · exact .refl _ _ _ _
  · rename_i gt hgt
    split
    · rename_i hc
      subst hc
      split
      · exact .refl _ _ _ _
      · rename_i code hcode
        obtain ⟨r, g, i, t, h1, h2, h3, h4⟩ := hok.code code hgt hcode
        have hplus : spaceToPlus code = code := by
          obtain ⟨k, sid, _, hk, _⟩ := hw.core.prov r g i t h1 h2
          rw [← h3]; exact hk.plus
        simp only [hplus]
        split
        · exact .refl _ _ _ _
        · rename_i s hs
          obtain ⟨sid, h5, h6⟩ := issued_sidFor hw hs h1 h2 h3
          split <;> exact commit_refinesK hi hU h5 h6 _ ⟨code, s, .inl hcode, hs, rfl⟩
    · split
      · rename_i hc
        subst hc
        split
        · exact .refl _ _ _ _
        · rename_i v hv
          obtain ⟨r, g, i, t, h1, h2, h3, _⟩ := hok.refresh v hgt hv
          split
          · exact .refl _ _ _ _
          · rename_i s hs
            obtain ⟨sid, h5, h6⟩ := issued_sidFor hw hs h1 h2 h3
            split <;> exact commit_refinesK hi hU h5 h6 _ ⟨v, s, .inr hv, hs, rfl⟩
      · exact .refl _ _ _ _

/-- Every operation of the provider is a list of session database operations about the users it is about. -/
theorem step_refinesK {E : Env} {U : String → Prop} {adds : Bool} {w : World} (hw : WInv E (SidFor E U) w)
    (hi : HInv U (fun _ => adds = true) w.st)
    (hU : ∀ n u c g, (SKey.gra u c g).Good U → ¬ U (E.encSid n [u, c, g])) {op : WOp} (hf : FairW E U adds op) :
    RefinesK U (fun _ => adds = true) (Concerns E w op) w.st (step E w op).st := by
  cases op with
  | tick d => exact .refl _ _ _ _
  | login u c req ev =>
    exact .one (.createSession u c _) ⟨hf.1, hf.2.1, hf.2.2, E.uuid_clean _⟩ (fun _ e => e) (by simp) (by simp)
  | again u c req ev =>
    exact .one (.createGrant u c _) ⟨hf.1, hf.2.1, hf.2.2, E.uuid_clean _⟩ (fun _ e => e) (by simp) (by simp)
  | addGrant u c g =>
    exact .one (.addGrant u c { g with id := E.uuid w.n, issuedToken := [] })
      ⟨hf.1.1, hf.1.2.1, hf.1.2.2, E.uuid_clean _⟩ (fun _ e => e) (fun _ _ _ _ => hf.2) (by simp)
  | authorize sid req =>
    show RefinesK _ _ _ _ (authzPart2 E w sid req).st
    have key : RefinesK U (fun _ => adds = true) (Concerns E w (.authorize sid req)) w.st
        (postAuthentication E w sid req).2.st := by
      unfold postAuthentication
      split
      · exact .refl _ _ _ _
      · rename_i s hs
        have hab : Concerns E w (.authorize sid req) (.gra s.user s.client s.gid) := ⟨_, _, _, (sessionOf_spec hs).2.2.1, rfl⟩
        split
        · exact commit_refinesK (P := Concerns E w (.authorize sid req)) hi hU hf hs _ hab
        · split
          · exact commit_refinesK (P := Concerns E w (.authorize sid req)) hi hU hf hs _ hab
          · split <;> exact commit_refinesK (P := Concerns E w (.authorize sid req)) hi hU hf hs _ hab
    unfold authzPart2
    split
    · rename_i s r hr w' hp
      rw [hp] at key
      split <;> exact key
    · rename_i w' _ hp
      rw [hp] at key
      exact key
  | parse client req =>
    have h := tokenParse_refinesK hw hi hU client { req with clientId := some client }
    have hst : step E w (.parse client req) = (match tokenParse E w client { req with clientId := some client } with
      | (.ok (.req r), w') => { w' with pool := w'.pool ++ [r] }
      | (_, w') => w') := rfl
    rw [hst]
    split
    · rename_i r w' hp
      rw [hp] at h
      exact h
    · rename_i r w' _ hp
      rw [hp] at h
      exact h
  | process i kw =>
    have hst : step E w (.process i kw) = (match w.pool[i]? with
      | none => w
      | some req => (tokenProcess E w kw req).2) := rfl
    rw [hst]
    cases hi' : w.pool[i]? with
    | none => exact .refl _ _ _ _
    | some req =>
      simp only []
      rw [tokenProcess_st]
      obtain ⟨sops, h1, h2⟩ := tokenHelper_refinesK hw hi hU kw (List.mem_of_getElem? hi')
      refine ⟨sops, h1, fun op hop => ?_⟩
      obtain ⟨h3, h4, h5⟩ := h2 op hop
      exact ⟨h3, fun k e => ⟨req, hi', h4 k e⟩, h5⟩
  | revokeToken sid v rec =>
    show RefinesK _ _ _ _ (revokeTokenW E w sid v rec).st
    unfold revokeTokenW
    split
    · exact .refl _ _ _ _
    · rename_i s hs
      have hab : Concerns E w (.revokeToken sid v rec) (.gra s.user s.client s.gid) := ⟨_, _, _, (sessionOf_spec hs).2.2.1, rfl⟩
      obtain ⟨hg, _, _, hd⟩ := sessionOf_spec hs
      split
      · exact .refl _ _ _ _
      · exact put_refinesK (P := Concerns E w (.revokeToken sid v rec)) hi (sidFor_session hf hs).1 hd hg hab
  | revokeGrant sid =>
    obtain ⟨n, u, c, g, hgood, rfl, hd⟩ := sidFor_decrypt hf
    have he : (step E w (.revokeGrant (E.encSid n [u, c, g]))).st = runOp w.st (.revokeGrant u c g) := by
      show (revokeGrantW E w (E.encSid n [u, c, g])).st = _
      simp only [revokeGrantW, hd, evalPath, runOp]
    rw [he]
    exact .one (.revokeGrant u c g) hgood (fun _ e => ⟨_, _, _, hd, e⟩) (by simp) (by simp)
  | revokeClientSession sid =>
    obtain ⟨n, u, c, g, hgood, rfl, hd⟩ := sidFor_decrypt hf
    have he : (step E w (.revokeClientSession (E.encSid n [u, c, g]))).st = runOp w.st (.revokeClientSession u c) := by
      show (revokeClientSessionW E w (E.encSid n [u, c, g])).st = _
      simp only [revokeClientSessionW, hd, runOp]
    rw [he]
    exact .one (.revokeClientSession u c) (good_cli_of_gra hgood) (fun _ e => ⟨_, _, _, hd, e⟩) (by simp) (by simp)
  | removeSession sid =>
    obtain ⟨ha, n, u, c, g, hgood, hc, rfl⟩ := hf
    have hd := E.decrypt_enc n u c g hgood.2.1 hgood.2.2.1 hgood.2.2.2
    have he : (step E w (.removeSession (E.encSid n [u, c, g]))).st = runOp w.st (.removeSession u c g) := by
      show (removeSessionW E w (E.encSid n [u, c, g])).st = _
      simp only [removeSessionW, hd, runOp]
    rw [he]
    exact .one (.removeSession u c g) ⟨hgood, hc⟩ (fun _ e => ⟨_, _, _, hd, e⟩) (by simp) (by simp [ha])

end OidcOp
