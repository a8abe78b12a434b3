/-
Specification vocabulary for C86: session cookies and the sessions they lead to.
-/
import Verif.Model.TokenCookie
import Verif.Spec.Provider

namespace OidcOp.Spec

/-- The provider can read the cookie, and it is for the user and the client. -/
def LeadsTo (E : Env) (k : SessionCookie) (user client : String) : Prop :=
  ∃ gid, E.decrypt k.sid = .ok [user, client, gid]

end OidcOp.Spec
