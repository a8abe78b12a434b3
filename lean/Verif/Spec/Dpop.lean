/-
Specification vocabulary for C81 and C82 (DPoP, RFC 9449).
-/
import Verif.Model.Dpop
import Verif.Spec.World

namespace OidcOp.Spec

/-- The text is a signed JWT that names the key in its header and verifies with it: whoever made it had the private key. -/
def SignedWith (L : DpopLib) (p : String) (k : L.Key) (headers claims : Dict Json) : Prop :=
  ∃ jwk alg, L.factory p = some headers ∧ headers.get? "jwk" = some jwk ∧ L.keyOf jwk = .ok k ∧
    headers.get? "alg" = some alg ∧ L.verify p k alg = .ok claims

/-- What the signed text says about a member: its claim, or else its header parameter (both are covered by the signature). -/
def Says (headers claims : Dict Json) (name : String) (v : Json) : Prop :=
  claims.get? name = some v ∨ claims.get? name = none ∧ headers.get? name = some v

/-- The HTTP request carries a proof of possession of the key, made for the request's URL and method. -/
def ProvesKey (L : DpopLib) (h : HttpInfo) (k : L.Key) : Prop :=
  ∃ hd p headers claims url method, h.headers = some hd ∧ hd.get? "dpop" = some p ∧ SignedWith L p k headers claims ∧
    h.url = some url ∧ h.method = some method ∧ Says headers claims "htu" (.str url) ∧ Says headers claims "htm" (.str method)

/-- The proof has no claim "jwk". -/
def NoJwkClaim (L : DpopLib) (h : HttpInfo) : Prop :=
  ∀ hd p k headers claims, h.headers = some hd → hd.get? "dpop" = some p → SignedWith L p k headers claims →
    claims.get? "jwk" = none

/-- Every request to the token endpoint comes with HTTP information, and the proof in it has no claim "jwk". -/
def WithProofs (L : DpopLib) : DOp → Prop
  | .plain (.parse _ _) => False
  | .plain _ => True
  | .token _ _ http => ∃ h, http = some h ∧ NoJwkClaim L h

end OidcOp.Spec
