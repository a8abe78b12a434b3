/-
C36: filtering of scopes and the policy on unknown scopes.
-/
import Verif.Spec.Scopes

namespace OidcOp
open Spec

theorem mem_keys {m : ScopeMap} {s : String} : s ∈ m.keys ↔ InMapping m s := by
  unfold Dict.keys InMapping
  simp

theorem mem_allowed (cfg : ScopeCfg) (s : String) : s ∈ cfg.allowed ↔ ServerAllows cfg s := by
  have hmap : s ∈ cfg.map.keys ↔ ((∃ m, cfg.scopesToClaims = some m ∧ m ≠ [] ∧ InMapping m s) ∨
     ((cfg.scopesToClaims = none ∨ cfg.scopesToClaims = some []) ∧
      s ∈ ["openid", "profile", "email", "address", "phone", "offline_access"])) := by
    unfold ScopeCfg.map
    cases h : cfg.scopesToClaims with
    | none =>
      simp only [reduceCtorEq, false_and, exists_false, true_or, true_and, false_or]
      rfl
    | some m =>
      cases m with
      | nil =>
        simp only [List.isEmpty_nil, if_true, Option.some.injEq, reduceCtorEq, false_or, true_and]
        constructor
        · intro h; exact .inr h
        · rintro (⟨m, rfl, h, _⟩ | h)
          · exact absurd rfl h
          · exact h
      | cons p r =>
        simp only [List.isEmpty_cons, Bool.false_eq_true, if_false, mem_keys]
        constructor
        · intro h; exact .inl ⟨_, rfl, by simp, h⟩
        · rintro (⟨m, h, _, h2⟩ | ⟨h | h, _⟩)
          · cases h; exact h2
          · cases h
          · cases h
  unfold ScopeCfg.allowed ServerAllows
  cases h : cfg.allowedScopes with
  | none => simp only [reduceCtorEq, false_and, exists_false, true_or, true_and, false_or]; exact hmap
  | some l =>
    cases l with
    | nil =>
      simp only [List.isEmpty_nil, if_true, hmap]
      constructor
      · intro h; exact .inr ⟨by simp, h⟩
      · rintro (⟨l, h, h2, _⟩ | ⟨_, h⟩)
        · cases h; exact absurd rfl h2
        · exact h
    | cons a r =>
      simp only [List.isEmpty_cons, Bool.false_eq_true, if_false]
      constructor
      · intro h; exact .inl ⟨_, rfl, by simp, h⟩
      · rintro (⟨l, h, _, h2⟩ | ⟨h | h, _⟩)
        · cases h; exact h2
        · cases h
        · cases h

theorem mem_allowedScopes (cfg : ScopeCfg) (client s : String) (hne : client ≠ "") (hc : cfg.cdb.get? client ≠ none) :
    s ∈ allowedScopes cfg (some client) ↔ AllowedScope cfg client s := by
  cases h : cfg.cdb.get? client with
  | none => exact absurd h hc
  | some cl =>
    have he : AllowedScope cfg client s ↔ ((∃ l, cl.allowedScopes = some l ∧ s ∈ l) ∨
     (cl.allowedScopes = none ∧ ∃ m, cl.scopesToClaims = some m ∧ InMapping m s) ∨
     (cl.allowedScopes = none ∧ cl.scopesToClaims = none ∧ ServerAllows cfg s)) := by
      unfold AllowedScope
      rw [h]
      simp
    rw [he]
    unfold allowedScopes
    simp only [hne, if_false, h]
    cases h1 : cl.allowedScopes with
    | some l => simp
    | none =>
      cases h2 : cl.scopesToClaims with
      | some m => simp [mem_keys]
      | none => simp [mem_allowed]

/-- C36, filtering.  For a registered client the result is the requested list without the scopes that the client may not
use: what remains is in the order of the request, with the same repetitions. -/
theorem C36_filter_exact (cfg : ScopeCfg) (client : String) (scopes : List String) (hne : client ≠ "")
    (hc : cfg.cdb.get? client ≠ none) :
    (filterScopes cfg (some client) scopes).Sublist scopes ∧
    ∀ s, (AllowedScope cfg client s → (filterScopes cfg (some client) scopes).count s = scopes.count s) ∧
      (¬ AllowedScope cfg client s → s ∉ filterScopes cfg (some client) scopes) := by
  refine ⟨List.filter_sublist, fun s => ⟨fun h => ?_, fun h hm => ?_⟩⟩
  · rw [← mem_allowedScopes cfg client s hne hc] at h
    unfold filterScopes
    rw [List.count_filter]
    simpa using h
  · unfold filterScopes at hm
    rw [List.mem_filter] at hm
    exact h ((mem_allowedScopes cfg client s hne hc).1 (by simpa using hm.2))

/-- C36, policy.  With deny_unknown_scopes the request of a registered client passes exactly if it has a scope parameter
and the client may use every scope in it. -/
theorem C36_deny_unknown (cfg : ScopeCfg) (client : String) (scope : Option (List String)) (hne : client ≠ "")
    (hc : cfg.cdb.get? client ≠ none) (hd : cfg.denyUnknown = true) :
    checkUnknownScopes cfg client scope = .ok () ↔ ∃ sc, scope = some sc ∧ ∀ s ∈ sc, AllowedScope cfg client s := by
  unfold checkUnknownScopes
  rw [if_neg (by rw [hd]; simp)]
  cases scope with
  | none => simp
  | some sc =>
    simp only [Option.some.injEq, exists_eq_left']
    have key : (sc.all (fun s => (filterScopes cfg (some client) sc).contains s) &&
        (filterScopes cfg (some client) sc).all (fun s => sc.contains s)) = true ↔ ∀ s ∈ sc, AllowedScope cfg client s := by
      rw [Bool.and_eq_true, List.all_eq_true, List.all_eq_true]
      constructor
      · rintro ⟨h, _⟩ s hs
        have h1 := h s hs
        rw [List.contains_iff_mem] at h1
        unfold filterScopes at h1
        rw [List.mem_filter] at h1
        exact (mem_allowedScopes cfg client s hne hc).1 (by simpa using h1.2)
      · intro h
        constructor
        · intro s hs
          rw [List.contains_iff_mem]
          unfold filterScopes
          rw [List.mem_filter]
          exact ⟨hs, by simpa using (mem_allowedScopes cfg client s hne hc).2 (h s hs)⟩
        · intro s hs
          rw [List.contains_iff_mem]
          unfold filterScopes at hs
          exact (List.mem_filter.1 hs).1
    by_cases hk : ∀ s ∈ sc, AllowedScope cfg client s
    · rw [if_pos (key.2 hk)]; exact ⟨fun _ => hk, fun _ => rfl⟩
    · rw [if_neg (fun h => hk (key.1 h))]; exact ⟨fun h => (by cases h), fun h => absurd h hk⟩

namespace Ex

def scopeCfg (deny : Bool) : ScopeCfg :=
  { denyUnknown := deny,
    cdb := [("own", { allowedScopes := some ["openid", "api"] }), ("map", { scopesToClaims := some [("x", ["y"])] }), ("plain", {})] }

/-- The three kinds of clients. -/
example : filterScopes (scopeCfg false) (some "own") ["api", "email", "openid", "api"] = ["api", "openid", "api"] ∧
    filterScopes (scopeCfg false) (some "map") ["x", "openid"] = ["x"] ∧
    filterScopes (scopeCfg false) (some "plain") ["x", "openid"] = ["openid"] ∧
    (scopeCfg false).cdb.get? "own" ≠ none := by
  decide +kernel

/-- The policy refuses and lets through. -/
example : checkUnknownScopes (scopeCfg true) "own" (some ["openid", "email"]) = .error (.other "UnAuthorizedClientScope") ∧
    checkUnknownScopes (scopeCfg true) "own" (some ["openid", "api"]) = .ok () ∧
    checkUnknownScopes (scopeCfg false) "own" (some ["openid", "email"]) = .ok () := by
  decide +kernel

end Ex

end OidcOp
