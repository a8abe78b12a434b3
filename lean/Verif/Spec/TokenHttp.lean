/-
Specification vocabulary for C89: who is at the token endpoint.
-/
import Verif.Model.TokenHttp
import Verif.Spec.ClientAuthn
import Verif.Spec.World

namespace OidcOp.Spec

/-- What a request is checked against at a time: the records of the clients, the clock, and the keys as they then are. -/
def checkedAt (A : TokenAuth) (now : Int) : AuthnCtx where
  cdb := A.cdb
  now := now
  targets := A.targets
  decode := A.decode
  unquote := A.unquote
  unpack := A.unpack now

/-- At the time, the sender of the request has shown to be the client: by the client's secret in the header or in the body, or
by an assertion of the client for this endpoint, made with its secret or its private key; and the client's secret has not
expired. -/
def ProvesClient (A : TokenAuth) (now : Int) (h : TokenHttp) (client : String) : Prop :=
  InForce A.cdb now client ∧
  ((∃ s, BasicCredentials (checkedAt A now) h.header client s ∧ HasSecret A.cdb client s) ∨
   (∃ s, h.req.clientId = some client ∧ h.creds.clientSecret = some s ∧ HasSecret A.cdb client s) ∨
   (∃ pk t a, h.creds.clientAssertion = some t ∧ GoodAssertion (checkedAt A now) pk t a client))

/-- The methods that authenticate a client. -/
def RealMethods (ms : List (Option CAuthn)) : Prop :=
  ms ≠ [] ∧ ∀ m ∈ ms, m = some .basic ∨ m = some .post ∨ m = some .secretJwt ∨ m = some .privateKeyJwt

/-- All token requests of the history come in over HTTP. -/
def OverHttp (ops : List HOp) : Prop := ∀ c r, HOp.plain (.parse c r) ∉ ops

end OidcOp.Spec
