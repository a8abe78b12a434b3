/-
Exchanges of codes and refresh tokens (C76).
-/
import Verif.Model.World

namespace OidcOp.Spec

/-- The event is a successful token response for the code or refresh token `v`. -/
def isTokenResponse (v : String) : Event → Bool
  | .token _ _ _ v' _ _ => decide (v' = v)
  | _ => false

end OidcOp.Spec
