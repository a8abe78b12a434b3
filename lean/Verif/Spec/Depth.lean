/-
How far a token is from the code it comes from (C95).
-/
import Verif.Spec.Token

namespace OidcOp.Spec

/-- Position `i` holds a token that descends from the token value `v` through `d` links of `based_on`. -/
inductive DerivedIn (ts : List Token) (v : String) : Nat → Nat → Prop where
  | child {i : Nat} {t : Token} : ts[i]? = some t → t.basedOn = some v → DerivedIn ts v 1 i
  | step {d i j : Nat} {p t : Token} : DerivedIn ts v d j → ts[j]? = some p → ts[i]? = some t →
      t.basedOn = some p.value → DerivedIn ts v (d + 1) i

/-- Every descendant of `v` is fewer than `n` links away. -/
def Shallow (ts : List Token) (v : String) (n : Nat) : Prop := ∀ d i, DerivedIn ts v d i → d < n

/-- `ts'` is `ts` with some more tokens revoked, all of them at positions in `S`; nothing else differs. -/
def RevokedWithin (S : Nat → Prop) (ts ts' : List Token) : Prop :=
  ts'.length = ts.length ∧
  ∀ (i : Nat) (t : Token), ts[i]? = some t → ts'[i]? = some t ∨ (S i ∧ ts'[i]? = some { t with revoked := true })

end OidcOp.Spec
