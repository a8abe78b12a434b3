/-
Specification vocabulary for C66: whose session an operation is about.
-/
import Verif.Spec.World

namespace OidcOp.Spec

/-- A session id made by `encrypted_session_id` for a user in `U`, a client and a grant. -/
def SidFor (E : Env) (U : String → Prop) (sid : String) : Prop :=
  ∃ n u c g, (SKey.gra u c g).Good U ∧ sid = E.encSid n [u, c, g]

/-- The identifiers that come with an operation are in order: users are in `U`, ids are clean, session ids are the
provider's own.  `adds` says whether the application uses `add_grant` (which lists the grant twice, so that
`remove_session` is then left out; see C07).  Token requests may contain anything. -/
def FairW (E : Env) (U : String → Prop) (adds : Bool) : WOp → Prop
  | .tick _ => True
  | .login u c _ _ => (SKey.cli u c).Good U
  | .again u c _ _ => (SKey.cli u c).Good U
  | .addGrant u c _ => (SKey.cli u c).Good U ∧ adds = true
  | .authorize sid _ => SidFor E U sid
  | .parse _ _ => True
  | .process _ _ => True
  | .revokeToken sid _ _ => SidFor E U sid
  | .revokeGrant sid => SidFor E U sid
  | .revokeClientSession sid => SidFor E U sid
  | .removeSession sid => adds = false ∧ ∃ n u c g, (SKey.gra u c g).Good U ∧ ¬ U c ∧ sid = E.encSid n [u, c, g]

/-- The token request presents a code or refresh token of user `u`'s session. -/
def Presents (E : Env) (w : World) (req : TokenReq) (u : String) : Prop :=
  ∃ v s, (req.code = some v ∨ req.refreshToken = some v) ∧ sessionByToken E w v = .ok s ∧ s.user = u

/-- The operation is about a session of user `u`. -/
def About (E : Env) (w : World) (u : String) : WOp → Prop
  | .tick _ => False
  | .login u' _ _ _ => u' = u
  | .again u' _ _ _ => u' = u
  | .addGrant u' _ _ => u' = u
  | .authorize sid _ => ∃ rest, E.decrypt sid = .ok (u :: rest)
  | .parse _ req => Presents E w req u
  | .process i _ => ∃ req, w.pool[i]? = some req ∧ Presents E w req u
  | .revokeToken sid _ _ => ∃ rest, E.decrypt sid = .ok (u :: rest)
  | .revokeGrant sid => ∃ rest, E.decrypt sid = .ok (u :: rest)
  | .revokeClientSession sid => ∃ rest, E.decrypt sid = .ok (u :: rest)
  | .removeSession sid => ∃ rest, E.decrypt sid = .ok (u :: rest)

end OidcOp.Spec
