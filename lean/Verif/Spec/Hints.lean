/-
Specification vocabulary for hints about the user (C106).
-/
import Verif.Model.Hints

namespace OidcOp.Spec

/-- The user's record has this value for the attribute, or a list with it. -/
def HasValue (rec : Dict Json) (attr value : String) : Prop :=
  rec.get? attr = some (.str value) ∨ ∃ l, rec.get? attr = some (.arr l) ∧ .str value ∈ l

/-- A login hint speaks of the user with this record: "tel:" and an international number, "tel:" and a Swedish number with
its leading digit, or "mail:" and an address. -/
inductive Identifies : String → Dict Json → Prop where
  | international {n : String} {rec : Dict Json} :
      HasValue rec "phone_number" ("+" ++ n) → Identifies ("tel:+" ++ n) rec
  | national {c : Char} {n : String} {rec : Dict Json} : c ≠ '+' →
      HasValue rec "phone_number" ("+46" ++ n) → Identifies ("tel:" ++ String.ofList [c] ++ n) rec
  | mail {a : String} {rec : Dict Json} : HasValue rec "email" a → Identifies ("mail:" ++ a) rec

/-- No authentication context is asked for. -/
def AsksNoAcr (req : AuthzReq) : Prop := req.acrValues = none ∧ req.claims.get? "id_token" = none

end OidcOp.Spec
