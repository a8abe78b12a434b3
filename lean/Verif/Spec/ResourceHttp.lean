/-
Specification vocabulary for C91: what a request to a resource endpoint has with it.
-/
import Verif.Model.ResourceHttp
import Verif.Spec.ClientAuthn
import Verif.Spec.TokenHttp
import Verif.Spec.Algs
import Verif.Spec.Resource

namespace OidcOp.Spec

/-- The request has the token with it: in the authorization header as a bearer token, or in the body. -/
def CarriesToken (h : ResHttp) (v : String) : Prop := BearerToken h.header v ∨ h.authn.accessToken = some v

/-- An answer has the form that a client asks for: signed if it asks for it, encrypted if it asks for both algorithms. -/
def FormOf (ci : Cinfo) (form : Option JwtArgs) : Prop :=
  (∀ alg, SignedBy form alg ↔ Asks ci "userinfo_signed_response_alg" alg) ∧
  (∀ alg enc, EncryptedBy form alg enc ↔
    Asks ci "userinfo_encrypted_response_alg" alg ∧ Asks ci "userinfo_encrypted_response_enc" enc)

/-- At the time, the sender of the request has shown to be the client. -/
def ShowsClient (A : TokenAuth) (now : Int) (h : ResHttp) (client : String) : Prop :=
  InForce A.cdb now client ∧
  ((∃ s, BasicCredentials (checkedAt A now) h.header client s ∧ HasSecret A.cdb client s) ∨
   (∃ s, h.authn.clientId = some client ∧ h.authn.clientSecret = some s ∧ HasSecret A.cdb client s) ∨
   (∃ pk t a, h.authn.clientAssertion = some t ∧ GoodAssertion (checkedAt A now) pk t a client))

/-- No client has the empty string as its name, and no assertion is by such a client. -/
def NoNameless (A : TokenAuth) : Prop :=
  A.cdb.get? "" = none ∧ ∀ now t a, A.unpack now t = some a → a.iss ≠ some ""

end OidcOp.Spec
