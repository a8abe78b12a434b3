/-
C66: operations about one user's sessions leave every other user's sessions as they are.
-/
import Verif.Lemmas.Isolation
import Verif.Props.WorldExamples

namespace OidcOp
open Spec

/-- C66.  After any fair history, whatever operation comes next (login, authorization, code exchange, refresh, token
requests with arbitrary values, revocation of tokens, grants, client sessions, removal of sessions): every record of
a user the operation is not about - the user's own record, client sessions and grants with all their tokens - is found
exactly as it was before. -/
theorem C66_user_isolation (E : Env) (U : String → Prop) (adds : Bool)
    (hU : ∀ n u c g, (SKey.gra u c g).Good U → ¬ U (E.encSid n [u, c, g]))
    (now : Int) (ops : List WOp) (hops : ∀ op ∈ ops, FairW E U adds op) (op : WOp) (hop : FairW E U adds op)
    (k : SKey) (hk : k.Good U) (hnot : ¬ About E (run E { now := now } ops) k.user op) :
    found (step E (run E { now := now } ops) op).st k = found (run E { now := now } ops).st k := by
  obtain ⟨hw, hi⟩ := fair_run hU ops hops (fair_init (E := E) (U := U) (adds := adds) now).1 (fair_init (E := E) (U := U) (adds := adds) now).2
  have href := step_refines hw hi hU hop
  rw [found_view (href.hinv hi).inv hk, found_view hi.inv hk, href.other hi hnot]

/-- The same over a stretch of history: as long as no operation is about the user, nothing of the user's changes. -/
theorem C66_user_isolation_history (E : Env) (U : String → Prop) (adds : Bool)
    (hU : ∀ n u c g, (SKey.gra u c g).Good U → ¬ U (E.encSid n [u, c, g]))
    (now : Int) (ops later : List WOp) (hops : ∀ op ∈ ops ++ later, FairW E U adds op)
    (k : SKey) (hk : k.Good U)
    (hnot : ∀ pre op post, later = pre ++ op :: post → ¬ About E (run E { now := now } (ops ++ pre)) k.user op) :
    found (run E { now := now } (ops ++ later)).st k = found (run E { now := now } ops).st k := by
  induction later generalizing ops with
  | nil => simp
  | cons op r ih =>
    have h1 := C66_user_isolation E U adds hU now ops (fun o ho => hops o (by simp [ho])) op (hops op (by simp)) k hk
      (by simpa using hnot [] op r rfl)
    have h2 := ih (ops ++ [op]) (by simpa using hops) (by
      intro pre op' post he
      have := hnot (op :: pre) op' post (by rw [he]; rfl)
      simpa using this)
    rw [List.append_assoc] at h2
    rw [List.singleton_append] at h2
    rw [h2, ← h1, run_append]
    rfl

/-- The session database stays consistent through every fair history of the provider (C06 for histories of endpoint
operations with session ids and token requests). -/
theorem C06_provider_histories_consistent_partial (E : Env) (U : String → Prop) (adds : Bool) (hclean : ∀ u, U u → CleanId u)
    (hU : ∀ n u c g, (SKey.gra u c g).Good U → ¬ U (E.encSid n [u, c, g]))
    (now : Int) (ops : List WOp) (hops : ∀ op ∈ ops, FairW E U adds op) :
    Consistent U (run E { now := now } ops).st :=
  consistent_of_inv hclean (fair_run hU ops hops (fair_init (E := E) (U := U) (adds := adds) now).1 (fair_init (E := E) (U := U) (adds := adds) now).2).2.inv

namespace Ex

/-- The two users of the examples. -/
def Users (u : String) : Prop := u = "d" ∨ u = "b"

theorem users_sid (n : Nat) (u c g : String) (_ : (SKey.gra u c g).Good Users) : ¬ Users (E.encSid n [u, c, g]) := by
  have he : 'e' ∈ (E.encSid n [u, c, g]).toList := by
    show 'e' ∈ (String.ofList (enc ([u, c, g].map String.toList))).toList
    simp [enc]
  rintro (h | h) <;> rw [h] at he <;> exact absurd he (by decide)

/-- A login of one user, with authorization and code exchange, is fair ... -/
theorem fair_start : ∀ op ∈ start "c1", FairW E Users false op := by
  have hg : (SKey.gra "d" "c1" (E.uuid 0)).Good Users :=
    ⟨.inl rfl, ⟨by decide, by decide⟩, ⟨by decide, by decide⟩, E.uuid_clean 0⟩
  intro op hop
  simp only [start, List.mem_cons, List.not_mem_nil, or_false] at hop
  rcases hop with rfl | rfl | rfl | rfl | rfl
  · exact good_cli_of_gra hg
  · exact ⟨0, "d", "c1", E.uuid 0, hg, rfl⟩
  · trivial
  · trivial
  · trivial

/-- ... and the login of the other user, which follows, is not about the first, whose grant has tokens. -/
example : FairW E Users false (.login "b" "c1" (authzReq "c1") event) ∧
    ¬ About E (run E init (start "c1")) "d" (.login "b" "c1" (authzReq "c1") event) ∧
    found (run E init (start "c1")).st (.gra "d" "c1" (E.uuid 0)) = some (.grant (grant1 "c1")) := by
  refine ⟨⟨.inr rfl, ⟨by decide, by decide⟩, ⟨by decide, by decide⟩⟩, ?_, by decide +kernel⟩
  show ¬ ("b" = "d")
  decide

end Ex
end OidcOp
