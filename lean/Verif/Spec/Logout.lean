/-
Specification vocabulary for logout (C62, C63, C73).
-/
import Verif.Model.Logout
import Verif.Spec.Isolation
import Verif.Spec.Uri

namespace OidcOp.Spec

/-- The attribute `session_id` of a token is the session id that the token's value was made for: both come from the same
argument, session/grant.py:328-346. -/
def SidAttr (K : LogoutCtx) : Prop := ∀ n c s t, K.E.Made n c s t.value → K.sidOf t = s

/-- The client has registered a logout URI. -/
def HasLogoutUri (reg : LogoutReg) : Prop := reg.backUri ≠ none ∨ reg.frontUri ≠ none

/-- A path below a base URI: with one slash between them if the base does not end in one. -/
def Below (base path uri : String) : Prop :=
  ((∃ b, base = b ++ "/") ∧ uri = base ++ path) ∨ ((¬ ∃ b, base = b ++ "/") ∧ uri = base ++ "/" ++ path)

/-- A logout token can be made for the client, if it wants one. -/
def CanTell (K : LogoutCtx) (reg : LogoutReg) : Prop :=
  reg.backUri ≠ none → reg.clientId ≠ none ∧ K.signFails (reg.alg.getD K.dfltAlg) = none

/-- The user's session with the client is one that a log out everywhere takes notice of: the client has a logout URI, and
some grant of it comes from an authentication and holds an ID token. -/
def Told (K : LogoutCtx) (U : String → Prop) (st : Store) (u c : String) : Prop :=
  (∃ reg, K.clients.get? c = some reg ∧ HasLogoutUri reg) ∧
  ∃ g gr, (SKey.gra u c g).Good U ∧ found st (.gra u c g) = some (.grant gr) ∧ gr.authnEvent ≠ none ∧
    ∃ t ∈ gr.issuedToken, t.cls = .idToken

/-- The client a record belongs to. -/
def clientOf : SKey → Option String
  | .usr _ => none
  | .cli _ c => some c
  | .gra _ c _ => some c

/-- In `st'` the user's session with the client and all its grants are those of `st`, revoked. -/
def SessionEnded (U : String → Prop) (st st' : Store) (u c : String) : Prop :=
  (∃ ci, found st (.cli u c) = some (.info ci) ∧ found st' (.cli u c) = some (.info { ci with revoked := true })) ∧
  ∀ g gr, (SKey.gra u c g).Good U → found st (.gra u c g) = some (.grant gr) →
    found st' (.gra u c g) = some (.grant { gr with revoked := true })

end OidcOp.Spec
