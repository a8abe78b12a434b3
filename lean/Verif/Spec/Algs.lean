/-
Specification vocabulary for C88: what a client has asked for, and what it gets.
-/
import Verif.Model.Algs

namespace OidcOp.Spec

/-- The client's record names this algorithm. -/
def Asks (ci : Cinfo) (name alg : String) : Prop := ci.get? name = some (.json (.str alg))

/-- The client's record does not say. -/
def Silent (ci : Cinfo) (name : String) : Prop := ci.get? name = none

/-- The algorithm for the ID tokens of a client: the one it asks for.  If it asks for none, RS256 if the provider supports it
or does not say what it supports, and otherwise the first that it supports. -/
def IdTokenAlg (pi : Dict (List String)) (ci : Cinfo) (alg : String) : Prop :=
  Asks ci "id_token_signed_response_alg" alg ∨
  Silent ci "id_token_signed_response_alg" ∧
    ((alg = "RS256" ∧ ∀ sup, pi.get? "id_token_signing_alg_values_supported" = some sup → sup = [] ∨ "RS256" ∈ sup) ∨
     (∃ rest, pi.get? "id_token_signing_alg_values_supported" = some (alg :: rest) ∧ "RS256" ∉ alg :: rest))

/-- User info for a client is signed with `alg`. -/
def SignedBy (args : Option JwtArgs) (alg : String) : Prop := ∃ a, args = some a ∧ a.sign = true ∧ a.signAlg = some alg

/-- What the client gets is encrypted with `alg` and `enc`. -/
def EncryptedBy (args : Option JwtArgs) (alg enc : String) : Prop :=
  ∃ a, args = some a ∧ a.encrypt = true ∧ a.encAlg = some alg ∧ a.encEnc = some enc

end OidcOp.Spec
