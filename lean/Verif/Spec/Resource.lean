/-
Specification vocabulary for C25, C45, C46: live tokens, and what may be said about a user.
-/
import Verif.Model.Resource
import Verif.Spec.World
import Verif.Spec.Claims

namespace OidcOp.Spec

/-- `t` is a token of grant object `g` with value `v`, and it is active now. -/
def LiveToken (w : World) (v : String) (g : Grant) (t : Token) : Prop :=
  (∃ r, GrantAt w r g) ∧ t ∈ g.issuedToken ∧ t.value = v ∧ ItemActive t.item w.now

/-- The user database has the value for the user, and the grant allows to release it at the point. -/
def MayRelease (db : UserDb) (g : Grant) (user point k : String) (x : Json) : Prop :=
  UserHas db user k x ∧
  ∃ restr spec, g.claims.get? point = some restr ∧ (k, spec) ∈ restr ∧ (ProperSpec spec → MatchesSpec x spec)

end OidcOp.Spec
