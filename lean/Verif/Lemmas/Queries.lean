/-
Lemmas about what the session manager tells (C118).
-/
import Verif.Lemmas.Session
import Verif.Spec.Queries

namespace OidcOp
open Spec

theorem recordAt_ok {s : Store} {k : SKey} {o : Obj} (h : found s k = some o) : recordAt k.path s = .ok o := by
  unfold found at h
  unfold recordAt
  cases hg : dbGet k.path s with
  | error e => rw [hg] at h; cases h
  | ok r => rw [hg] at h; simp only [] at h ⊢; rw [h]

theorem recordAt_error {s : Store} {k : SKey} (h : found s k = none) : ∃ e, recordAt k.path s = .error e := by
  unfold found at h
  unfold recordAt
  cases hg : dbGet k.path s with
  | error e => exact ⟨e, rfl⟩
  | ok r => rw [hg] at h; simp only [] at h ⊢; rw [h]; exact ⟨_, rfl⟩

/-- The records above a stored grant. -/
theorem records_above {U : String → Prop} {s : Store} (hi : DbInv U s) {u c g : String} (hk : (SKey.gra u c g).Good U)
    {gr : Grant} (h : found s (.gra u c g) = some (.grant gr)) :
    ∃ ui ci, found s (.usr u) = some (.info ui) ∧ c ∈ ui.subordinate ∧
      found s (.cli u c) = some (.info ci) ∧ g ∈ ci.subordinate := by
  rw [found_view hi hk] at h
  cases hv : view U s (.gra u c g) with
  | none => rw [hv] at h; cases h
  | some p =>
    obtain ⟨rc, ci, hc, hmg⟩ := hi.links.up2 _ _ _ _ hv
    obtain ⟨ru, ui, hu, hmc⟩ := hi.links.up1 _ _ _ hc
    refine ⟨ui, ci, ?_, hmc, ?_, hmg⟩
    · rw [found_view hi (good_usr_of_cli (good_cli_of_gra hk)), hu]; rfl
    · rw [found_view hi (good_cli_of_gra hk), hc]; rfl

theorem threeParts_ok {dec : String → Except Exc (List String)} {sid u c g : String} (h : dec sid = .ok [u, c, g]) :
    threeParts dec sid = .ok (u, c, g) := by simp [threeParts, h]

theorem whenAsked_ok {α : Type} (b : Bool) {x : Except Exc α} {a : α} (h : x = .ok a) :
    whenAsked b x = .ok (if b then some a else none) := by
  subst h; cases b <;> rfl

theorem ok_bind {α β : Type} (a : α) (f : α → Except Exc β) : ((Except.ok a : Except Exc α) >>= f) = f a := rfl
theorem error_bind {α β : Type} (e : Exc) (f : α → Except Exc β) : ((Except.error e : Except Exc α) >>= f) = .error e := rfl

theorem mapM_records {s : Store} {u c : String} (gids : List String)
    (h : ∀ g ∈ gids, ∃ gr, found s (.gra u c g) = some (.grant gr)) :
    eventsFrom u c s gids = .ok (gids.map (loginOf s u c)) := by
  have h1 : ∃ os, gids.mapM (fun g => recordAt ⟨u, some c, some g⟩ s) = Except.ok os ∧
      os.mapM Obj.event = .ok (gids.map (loginOf s u c)) := by
    induction gids with
    | nil => exact ⟨[], rfl, rfl⟩
    | cons g gs ih =>
      obtain ⟨os, ho, hf⟩ := ih (fun g' hg' => h g' (by simp [hg']))
      obtain ⟨gr, hg⟩ := h g (by simp)
      have hr : recordAt ⟨u, some c, some g⟩ s = .ok (.grant gr) := recordAt_ok hg
      refine ⟨.grant gr :: os, ?_, ?_⟩
      · rw [List.mapM_cons, hr, ho]; rfl
      · rw [List.mapM_cons, hf, List.map_cons, show loginOf s u c g = gr.authnEvent by simp [loginOf, hg]]; rfl
  obtain ⟨os, ho, hf⟩ := h1
  unfold eventsFrom
  rw [ho, ok_bind]; exact hf

end OidcOp
