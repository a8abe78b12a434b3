/-
Specification vocabulary for C28 (PKCE, RFC 7636).
-/
import Verif.Model.Pkce
import Verif.Spec.World

namespace OidcOp.Spec

/-- The verifier is transformed to the challenge by the method. -/
def Transforms (H : CCHash) (method verifier challenge : String) : Prop :=
  (method = "plain" ∧ verifier = challenge) ∨ (method = "S256" ∧ H.s256 verifier = .ok challenge) ∨
  (method = "S384" ∧ H.s384 verifier = .ok challenge) ∨ (method = "S512" ∧ H.s512 verifier = .ok challenge)

/-- PKCE is required of the client: by its own setting, or by the provider's if it has none. -/
def PkceRequired (P : PkceCfg) (client : String) : Prop :=
  P.cdb.get? client = some (some true) ∨ (P.cdb.get? client = some none ∧ P.essential = some true)

/-- The authorization request is in order for the client. -/
def ChallengeInOrder (P : PkceCfg) (client : String) (ar : AuthzReq) : Prop :=
  (PkceRequired P client → ar.codeChallenge ≠ none) ∧
  (ar.codeChallenge ≠ none → ∃ m, ar.codeChallengeMethod = some m ∧ m ∈ P.methods)

/-- The token request proves possession of the verifier for the authorization request. -/
def Proven (H : CCHash) (ar : AuthzReq) (req : TokenReq) : Prop :=
  ∀ ch, ar.codeChallenge = some ch →
    ∃ m x, ar.codeChallengeMethod = some m ∧ req.codeVerifier = some x ∧ Transforms H m x ch

end OidcOp.Spec
