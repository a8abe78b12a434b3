/-
Specification vocabulary for the encoding properties (C01-C04). No model function is mentioned.
-/
import Verif.Base.Str
namespace OidcOp.Spec

/-- `s` ends in a white space character (as `str.strip` understands it). -/
def EndsInSpace (s : List Char) : Prop := ∃ pre c, s = pre ++ [c] ∧ pyIsSpace c = true

instance (s : List Char) : Decidable (EndsInSpace s) :=
  decidable_of_iff (∃ c ∈ s.getLast?, pyIsSpace c = true) (by
    constructor
    · rintro ⟨c, hc, hs⟩
      obtain ⟨pre, h⟩ := List.getLast?_eq_some_iff.1 hc
      exact ⟨pre, c, h, hs⟩
    · rintro ⟨pre, c, rfl, hs⟩
      exact ⟨c, by simp, hs⟩)

/-- `t` is `s` without its trailing white space. -/
def IsRTrimOf (t s : List Char) : Prop :=
  ¬ EndsInSpace t ∧ ∃ ws, s = t ++ ws ∧ ∀ c ∈ ws, pyIsSpace c = true

/-- `;;` occurs in `s`. -/
def ContainsDivider (s : List Char) : Prop := ∃ a b, s = a ++ [';', ';'] ++ b

/-- `s` ends in `;`. -/
def EndsInSemicolon (s : List Char) : Prop := ∃ a, s = a ++ [';']

/-- The identifiers of a path can be told apart after joining with `;;`: no component contains the
divider and only the last one may end in `;`. -/
def Separable (ids : List (List Char)) : Prop :=
  (∀ x ∈ ids, ¬ ContainsDivider x) ∧ (∀ x ∈ ids.dropLast, ¬ EndsInSemicolon x)

end OidcOp.Spec
