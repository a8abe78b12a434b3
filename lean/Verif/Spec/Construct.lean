/-
Specification vocabulary for published algorithms (C65).
-/
import Verif.Model.Construct

namespace OidcOp.Spec

/-- `sub` occurs in `s`. -/
def OccursIn (sub s : String) : Prop := ∃ a b, s.toList = a ++ sub.toList ++ b

/-- The list of algorithms an attribute is about: the first that fits. -/
inductive AlgsAbout (lib : CryptoAlgs) (attr : String) : List String → Prop where
  | sign : OccursIn "signing_alg_values_supported" attr → AlgsAbout lib attr lib.sign
  | alg : ¬ OccursIn "signing_alg_values_supported" attr → OccursIn "encryption_alg_values_supported" attr →
      AlgsAbout lib attr lib.alg
  | enc : ¬ OccursIn "signing_alg_values_supported" attr → ¬ OccursIn "encryption_alg_values_supported" attr →
      OccursIn "encryption_enc_values_supported" attr → AlgsAbout lib attr lib.enc

/-- All values in a published value are strings of the list: a list of them, or a dictionary with such keys, or a string of
one-character names. -/
def AllFrom (algs : List String) : Json → Prop
  | .arr l => ∀ v ∈ l, ∃ a ∈ algs, v = .str a
  | .obj d => ∀ p ∈ d, p.1 ∈ algs
  | .str s => ∀ c ∈ s.toList, String.ofList [c] ∈ algs
  | _ => False

/-- The first two characters. -/
def Prefix2 (p alg : String) : Prop := ∃ rest, alg.toList = p.toList ++ rest ∧ p.toList.length = 2

/-- One of the families of signing algorithms. -/
def KnownAlg (alg : String) : Prop :=
  Prefix2 "RS" alg ∨ Prefix2 "ES" alg ∨ Prefix2 "HS" alg ∨ Prefix2 "PS" alg ∨ Prefix2 "no" alg

/-- `a` may stand before `b`. -/
def Before (a b : String) : Prop := sortSignAlg a b = .ok (-1) ∨ sortSignAlg a b = .ok 0

end OidcOp.Spec
