/-
Specification vocabulary for C47 and C48: what the provider itself has to say in a token.
-/
import Verif.Model.Payload
import Verif.Spec.Claims

namespace OidcOp.Spec

/-- When the user authenticated (no statement for the time 0). -/
def AuthTime (g : Grant) : Option Json :=
  g.authnEvent.bind (fun ev => if ev.authnTime = 0 then none else some (.num ev.authnTime))

/-- How the user authenticated (no statement for an empty value). -/
def AuthContext (g : Grant) : Option Json :=
  g.authnEvent.bind (fun ev => if ev.authnInfo = "" then none else some (.str ev.authnInfo))

/-- The nonce of the authorization request. -/
def RequestNonce (g : Grant) : Option Json := g.authzReq.bind (fun r => r.nonce.map Json.str)

/-- The end of a life time that starts now (none for the life time 0). -/
def Expiry (now lifetime : Int) : Option Json := if lifetime = 0 then none else some (.num (now + lifetime))

/-- The user's record has nothing under a name. -/
def NotInRecord (users : Option UserDb) (user k : String) : Prop := ∀ db x, users = some db → ¬ UserHas db user k x

end OidcOp.Spec
