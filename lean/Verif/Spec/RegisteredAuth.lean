/-
Specification vocabulary for C90: what the answer to a registration promises.
-/
import Verif.Model.RegisteredAuth
import Verif.Spec.ClientAuthn
import Verif.Spec.Registration

namespace OidcOp.Spec

/-- The answer to a registration gives out the client id and the secret. -/
def Issued (args : Dict Json) (id secret : String) : Prop :=
  args.get? "client_id" = some (.str id) ∧ args.get? "client_secret" = some (.str secret)

/-- By the answer to a registration the secret is good at a time: the answer has no expiry time, or 0, or one that is not over.
(A text in its place is no expiry time.) -/
def GoodAt (args : Dict Json) (now : Int) : Prop :=
  ∀ t, args.get? "client_secret_expires_at" = some (.num t) → t = 0 ∨ now ≤ t

/-- The request brings these credentials in the header or, without header, in the body. -/
def PresentsSecret (X : AuthnCtx) (req : AuthnReq) (header : Option String) (id secret : String) : Prop :=
  BasicCredentials X header id secret ∨ (header = none ∧ PostCredentials req id secret)

end OidcOp.Spec
