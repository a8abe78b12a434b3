/-
Specification vocabulary for C101: grant types configured, registered and published.
-/
import Verif.Model.GrantTypes
import Verif.Model.Metadata

namespace OidcOp.Spec

/-- The grant type of a token response: an exchange of a refresh token, or of a code. -/
def grantTypeOf (refresh : Bool) : String := if refresh then "refresh_token" else "authorization_code"

/-- The configuration turns a grant type on: it has an entry for it that is not switched off. -/
def TurnedOn (conf : Option (Dict GOpt)) (gt : String) : Prop :=
  match conf with
  | none => gt = "authorization_code" ∨ gt = "refresh_token"
  | some d => ∃ cls, (gt, GOpt.dict false cls) ∈ d

/-- The configuration has one entry per grant type, and an entry that names a helper class names the one for its grant type. -/
def Sensible (conf : Option (Dict GOpt)) : Prop :=
  ∀ d, conf = some d → (d.map (·.1)).Nodup ∧ ∀ gt k, (gt, GOpt.dict false (some (some k))) ∈ d → gt = k.grantType

/-- The operation is a token request for a grant type that is not turned on. -/
def ForOther (conf : Option (Dict GOpt)) : WOp → Prop
  | .parse _ r => ∀ gt, r.grantType = some gt → ¬ TurnedOn conf gt
  | _ => False

end OidcOp.Spec
