/-
What C130 speaks of.
-/
import Verif.Spec.World

namespace OidcOp.Spec

/-- The event is a successful token response for the refresh token `v`. -/
def isRefreshResponse (v : String) : Event → Bool
  | .token _ _ true v' _ _ => decide (v' = v)
  | _ => false

/-- A client for which rotation is in force has got a successful token response for the refresh token `v`. -/
def Rotated (cfg : TokenCfg) (log : List Event) (v : String) : Prop :=
  ∃ ref client req resp, Event.token ref client true v req resp ∈ log ∧ RotationInForce cfg client

end OidcOp.Spec
