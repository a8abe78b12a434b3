/-
Specification vocabulary for the life time of logins (C80).
-/
import Verif.Model.Provider

namespace OidcOp.Spec

/-- How long a login by the method lasts: as long as its "expires_in" says if that is not 0, and an hour otherwise. -/
def LoginLife (m : AuthnMethod) (t : Int) : Prop :=
  ((m.expiresIn = none ∨ m.expiresIn = some 0) ∧ t = 3600) ∨ (m.expiresIn = some t ∧ t ≠ 0)

/-- The event says what happened in the login: who, how and when, and until when it counts. -/
def EventOf (x : LoginRec) (ev : AuthnEvent) : Prop :=
  ev.uid = x.user ∧ ev.authnInfo = x.method.acr ∧ ev.authnTime = x.time ∧
    ∃ t, LoginLife x.method t ∧ ev.validUntil = x.time + t

end OidcOp.Spec
