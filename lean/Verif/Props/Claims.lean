/-
C41, C42: matching of claims and release of a user's claims.
-/
import Verif.Spec.Claims

namespace OidcOp
open Spec

theorem claimsLoop_spec (v : Json) (d : List (String × Json)) (hv : ∀ x, ("values", x) ∈ d → ∃ l, x = .arr l) :
    ∃ b, claimsLoop v d = .ok b ∧ (b = true ↔
      ((∃ x, ("value", x) ∈ d ∧ pyEq v x = true) ∨ (∃ l y, ("values", .arr l) ∈ d ∧ y ∈ l ∧ pyEq v y = true))) := by
  induction d with
  | nil => exact ⟨false, rfl, by simp⟩
  | cons p r ih =>
    obtain ⟨k, x⟩ := p
    obtain ⟨b, hb, hiff⟩ := ih (fun x hx => hv x (List.mem_cons_of_mem _ hx))
    unfold claimsLoop
    by_cases h1 : k = "value"
    · subst h1
      rw [if_pos rfl]
      by_cases h2 : pyEq v x = true
      · rw [if_pos h2]
        exact ⟨true, rfl, by simp only [true_iff]; exact .inl ⟨x, List.mem_cons_self .., h2⟩⟩
      · rw [if_neg h2]
        refine ⟨b, hb, hiff.trans ?_⟩
        constructor
        · rintro (⟨y, hy, he⟩ | ⟨l, y, hy, he⟩)
          · exact .inl ⟨y, List.mem_cons_of_mem _ hy, he⟩
          · exact .inr ⟨l, y, List.mem_cons_of_mem _ hy, he⟩
        · rintro (⟨y, hy, he⟩ | ⟨l, y, hy, he⟩)
          · rcases List.mem_cons.1 hy with h | h
            · cases h; exact absurd he h2
            · exact .inl ⟨y, h, he⟩
          · rcases List.mem_cons.1 hy with h | h
            · simp at h
            · exact .inr ⟨l, y, h, he⟩
    · rw [if_neg h1]
      by_cases h2 : k = "values"
      · subst h2
        rw [if_pos rfl]
        obtain ⟨l, rfl⟩ := hv x (List.mem_cons_self ..)
        simp only [pyIn]
        cases h3 : l.any (fun y => pyEq v y) with
        | true =>
          obtain ⟨y, hy, he⟩ := List.any_eq_true.1 h3
          exact ⟨true, rfl, by simp only [true_iff]; exact .inr ⟨l, y, List.mem_cons_self .., hy, he⟩⟩
        | false =>
          refine ⟨b, hb, hiff.trans ?_⟩
          constructor
          · rintro (⟨y, hy, he⟩ | ⟨l, y, hy, he⟩)
            · exact .inl ⟨y, List.mem_cons_of_mem _ hy, he⟩
            · exact .inr ⟨l, y, List.mem_cons_of_mem _ hy, he⟩
          · rintro (⟨y, hy, he⟩ | ⟨l', y, hy, hm, he⟩)
            · rcases List.mem_cons.1 hy with h | h
              · simp at h
              · exact .inl ⟨y, h, he⟩
            · rcases List.mem_cons.1 hy with h | h
              · cases h
                have : l.any (fun y => pyEq v y) = true := List.any_eq_true.2 ⟨y, hm, he⟩
                rw [h3] at this; cases this
              · exact .inr ⟨l', y, h, hm, he⟩
      · rw [if_neg h2]
        refine ⟨b, hb, hiff.trans ?_⟩
        constructor
        · rintro (⟨y, hy, he⟩ | ⟨l, y, hy, he⟩)
          · exact .inl ⟨y, List.mem_cons_of_mem _ hy, he⟩
          · exact .inr ⟨l, y, List.mem_cons_of_mem _ hy, he⟩
        · rintro (⟨y, hy, he⟩ | ⟨l, y, hy, he⟩)
          · rcases List.mem_cons.1 hy with h | h
            · cases h; exact absurd rfl h1
            · exact .inl ⟨y, h, he⟩
          · rcases List.mem_cons.1 hy with h | h
            · cases h; exact absurd rfl h2
            · exact .inr ⟨l, y, h, he⟩

/-- C41: `claims_match` decides OpenID Connect Core 5.5.1 for every value and every specification of the form given there,
without an exception. -/
theorem C41_claims_match (v spec : Json) (hs : ProperSpec spec) :
    ∃ b, claimsMatch v spec = .ok b ∧ (b = true ↔ MatchesSpec v spec) := by
  unfold claimsMatch MatchesSpec
  by_cases hv : v = .null
  · rw [if_pos hv]; exact ⟨false, rfl, by simp [hv]⟩
  · rw [if_neg hv]
    rcases hs with rfl | ⟨d, rfl, hd⟩
    · exact ⟨true, rfl, by simp [hv]⟩
    · obtain ⟨b, hb, hiff⟩ := claimsLoop_spec v d hd
      simp only [hb]
      cases b with
      | true =>
        refine ⟨true, rfl, ?_⟩
        simp only [true_iff] at hiff ⊢
        exact ⟨hv, .inr (.inr ⟨d, rfl, hiff⟩)⟩
      | false =>
        refine ⟨_, rfl, ?_⟩
        rw [decide_eq_true_iff]
        constructor
        · intro h
          refine ⟨hv, .inr (.inl ?_)⟩
          match d, h with
          | [(k, x)], h =>
            simp at h; subst h; exact ⟨x, rfl⟩
        · rintro ⟨_, h | ⟨x, h⟩ | ⟨d', h, h2⟩⟩
          · cases h
          · cases h; rfl
          · cases h; exact absurd (hiff.2 h2) (by simp)

example : claimsMatch (.str "c") (.obj [("essential", .bool true), ("values", .arr [.str "a", .str "c"])]) = .ok true := by
  decide +kernel
example : ProperSpec (.obj [("essential", .bool true), ("values", .arr [.str "a", .str "c"])]) :=
  .inr ⟨_, rfl, by intro x hx; simp at hx; exact ⟨_, hx⟩⟩
example : claimsMatch (.str "c") (.obj []) = .ok false := by decide +kernel
example : claimsMatch (.num 1) (.obj [("value", .bool true)]) = .ok true := by decide +kernel

/-- C41, the rest of the domain: a specification that is no object makes the matching of any value fail, and "values" given
as a string is searched for the value as a piece of text. -/
theorem C41_other_specifications (v spec : Json) (hv : v ≠ .null) :
    ((∀ d, spec ≠ .obj d) → spec ≠ .null → claimsMatch v spec = .error .attributeError) ∧
    (∀ x s, v = .str x → spec = .obj [("values", .str s)] →
      claimsMatch v spec = .ok (isInfix x.toList s.toList)) := by
  constructor
  · intro h1 h2
    unfold claimsMatch
    rw [if_neg hv]
    cases spec <;> first | rfl | exact absurd rfl h2 | exact absurd rfl (h1 _)
  · rintro x s rfl rfl
    unfold claimsMatch
    rw [if_neg hv]
    simp only [claimsLoop, pyIn]
    cases isInfix x.toList s.toList <;> simp

example : claimsMatch (.str "b") (.obj [("values", .str "abc")]) = .ok true := by decide +kernel

theorem pickClaims_spec (info : Dict Json) (restr : List (String × Json)) (r : Dict Json)
    (h : pickClaims info restr = .ok r) :
    (∀ k ∈ Dict.keys r, k ∈ Dict.keys restr) ∧
    ∀ k v, (k, v) ∈ r ↔ v ≠ .null ∧ info.get? k = some v ∧ ∃ spec, (k, spec) ∈ restr ∧ claimsMatch v spec = .ok true := by
  induction restr generalizing r with
  | nil => cases h; simp [Dict.keys]
  | cons p rest ih =>
    obtain ⟨k0, spec0⟩ := p
    unfold pickClaims at h
    cases hm : claimsMatch ((info.get? k0).getD .null) spec0 with
    | error e => rw [hm] at h; cases h
    | ok b =>
      rw [hm] at h
      cases hp : pickClaims info rest with
      | error e => rw [hp] at h; cases h
      | ok r' =>
        rw [hp] at h
        obtain ⟨ihk, ih⟩ := ih r' hp
        cases b with
        | false =>
          simp only [Bool.false_eq_true, if_false, Except.ok.injEq] at h
          subst h
          refine ⟨fun k hk => List.mem_cons_of_mem _ (ihk k hk), fun k v => (ih k v).trans ?_⟩
          constructor
          · rintro ⟨h1, h2, spec, h3, h4⟩; exact ⟨h1, h2, spec, List.mem_cons_of_mem _ h3, h4⟩
          · rintro ⟨h1, h2, spec, h3, h4⟩
            rcases List.mem_cons.1 h3 with h5 | h5
            · cases h5; rw [h2] at hm; simp only [Option.getD_some] at hm; rw [hm] at h4; cases h4
            · exact ⟨h1, h2, spec, h5, h4⟩
        | true =>
          simp only [if_true, Except.ok.injEq] at h
          subst h
          have hne : (info.get? k0).getD .null ≠ .null := by
            intro h0; rw [h0] at hm; simp [claimsMatch] at hm
          obtain ⟨v0, hv0⟩ : ∃ v, info.get? k0 = some v := by
            cases h0 : info.get? k0 with
            | none => rw [h0] at hne; exact absurd rfl hne
            | some v => exact ⟨v, rfl⟩
          rw [hv0, Option.getD_some] at hne hm
          rw [hv0, Option.getD_some]
          refine ⟨?_, fun k v => ?_⟩
          · intro k hk
            rcases List.mem_cons.1 hk with h5 | h5
            · exact h5 ▸ List.mem_cons_self ..
            · exact List.mem_cons_of_mem _ (ihk k h5)
          · constructor
            · intro hkv
              rcases List.mem_cons.1 hkv with h5 | h5
              · cases h5
                exact ⟨hne, hv0, spec0, List.mem_cons_self .., hm⟩
              · obtain ⟨h1, h2, spec, h3, h4⟩ := (ih k v).1 h5
                exact ⟨h1, h2, spec, List.mem_cons_of_mem _ h3, h4⟩
            · rintro ⟨h1, h2, spec, h3, h4⟩
              rcases List.mem_cons.1 h3 with h5 | h5
              · cases h5; rw [h2] at hv0; cases hv0; exact List.mem_cons_self ..
              · exact List.mem_cons_of_mem _ ((ih k v).2 ⟨h1, h2, spec, h5, h4⟩)

theorem get?_of_mem_nodup {α : Type} {d : Dict α} (h : d.keys.Nodup) {k : String} {v : α} (hm : (k, v) ∈ d) :
    d.get? k = some v := by
  induction d with
  | nil => cases hm
  | cons p r ih =>
    obtain ⟨k', v'⟩ := p
    rw [Dict.get?_cons]
    unfold Dict.keys at h
    rw [List.map_cons, List.nodup_cons] at h
    rcases List.mem_cons.1 hm with h1 | h1
    · cases h1; rw [if_pos rfl]
    · have : k' ≠ k := by
        rintro rfl
        exact h.1 (List.mem_map.2 ⟨_, h1, rfl⟩)
      rw [if_neg this]; exact ih h.2 h1

theorem get?_isSome_of_mem {α : Type} {d : Dict α} {k : String} {v : α} (hm : (k, v) ∈ d) : ∃ v', d.get? k = some v' := by
  have := (Dict.get?_isSome_iff d k).2 (List.mem_map.2 ⟨_, hm, rfl⟩)
  exact Option.isSome_iff_exists.1 this

/-- C42, one half: whatever the restriction, each claim that is released is named in it, its value is the one the user
database has for this user, and it matches what the restriction says for it. -/
theorem C42_user_claims_sound (db : UserDb) (user : String) (restr r : Dict Json)
    (h : getUserClaims (some db) user restr = .ok r) (k : String) (v : Json) (hk : (k, v) ∈ r) :
    UserHas db user k v ∧ v ≠ .null ∧ ∃ spec, (k, spec) ∈ restr ∧ (ProperSpec spec → MatchesSpec v spec) := by
  simp only [getUserClaims] at h
  by_cases he : restr.isEmpty = true
  · rw [if_pos he] at h; cases h; cases hk
  · rw [if_neg he] at h
    obtain ⟨h1, h2, spec, h3, h4⟩ := ((pickClaims_spec _ _ _ h).2 k v).1 hk
    refine ⟨?_, h1, spec, h3, ?_⟩
    · unfold userInfo at h2
      cases hd : db.get? user with
      | none => rw [hd] at h2; cases h2
      | some d => rw [hd] at h2; exact ⟨d, hd, h2⟩
    · intro hp
      obtain ⟨b, hb, hiff⟩ := C41_claims_match v spec hp
      rw [h4] at hb; cases hb
      exact hiff.1 rfl

/-- C42 in full for restrictions whose specifications have the form of OpenID Connect Core 5.5.1: there is an answer, and
its claims are exactly those named in the restriction for which the user has a value that matches. -/
theorem C42_user_claims (db : UserDb) (user : String) (restr : Dict Json) (hn : restr.keys.Nodup)
    (hp : ∀ k spec, (k, spec) ∈ restr → ProperSpec spec) :
    ∃ r, getUserClaims (some db) user restr = .ok r ∧
      ∀ k v, (k, v) ∈ r ↔ UserHas db user k v ∧ ∃ spec, restr.get? k = some spec ∧ MatchesSpec v spec := by
  have hex : ∀ (info : Dict Json) (l : List (String × Json)), (∀ k spec, (k, spec) ∈ l → ProperSpec spec) →
      ∃ r, pickClaims info l = .ok r := by
    intro info l
    induction l with
    | nil => intro _; exact ⟨[], rfl⟩
    | cons p rest ih =>
      intro hl
      obtain ⟨k, spec⟩ := p
      obtain ⟨b, hb, _⟩ := C41_claims_match ((info.get? k).getD .null) spec (hl k spec (List.mem_cons_self ..))
      obtain ⟨r, hr⟩ := ih (fun k spec h => hl k spec (List.mem_cons_of_mem _ h))
      exact ⟨_, by unfold pickClaims; rw [hb, hr]⟩
  simp only [getUserClaims]
  by_cases he : restr.isEmpty = true
  · rw [if_pos he]
    refine ⟨[], rfl, fun k v => ?_⟩
    rw [List.isEmpty_iff.1 he]
    simp
  · rw [if_neg he]
    obtain ⟨r, hr⟩ := hex (userInfo db user) restr hp
    refine ⟨r, hr, fun k v => ((pickClaims_spec _ _ _ hr).2 k v).trans ?_⟩
    have huser : ∀ k v, Dict.get? (userInfo db user) k = some v ↔ UserHas db user k v := by
      intro k v
      unfold userInfo UserHas
      cases hd : db.get? user with
      | none => simp
      | some d => simp
    constructor
    · rintro ⟨h1, h2, spec, h3, h4⟩
      obtain ⟨b, hb, hiff⟩ := C41_claims_match v spec (hp k spec h3)
      rw [h4] at hb; cases hb
      exact ⟨(huser k v).1 h2, spec, get?_of_mem_nodup hn h3, hiff.1 rfl⟩
    · rintro ⟨h2, spec, h3, h4⟩
      have h3' := Dict.get?_mem h3
      obtain ⟨b, hb, hiff⟩ := C41_claims_match v spec (hp k spec h3')
      rw [hiff.2 h4] at hb
      exact ⟨h4.1, (huser k v).2 h2, spec, h3', hb⟩

example : getUserClaims (some [("diana", [("email", .str "d@x"), ("age", .num 3)])]) "diana"
    [("age", .obj [("value", .num 4)]), ("email", .null), ("name", .null)] = .ok [("email", .str "d@x")] := by
  decide +kernel

end OidcOp
