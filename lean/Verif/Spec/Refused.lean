/-
What it means that a token is good for nothing at the endpoints for resources.
-/
import Verif.Model.Resource

namespace OidcOp.Spec
open OidcOp

/-- The user information endpoint refuses the token and introspection does not call it active, if they answer at all. -/
def Refused (E : Env) (w : World) (v : String) : Prop :=
  ∀ db : Option UserDb,
    (∀ info client, userinfoProcess E db w v ≠ .ok (.claims info client)) ∧
    (∀ issuer extra username resp, introspectProcess E db issuer extra username w v = .ok resp → resp = [("active", .bool false)])

end OidcOp.Spec
