/-
Specification vocabulary for what the session manager tells (C118).
-/
import Verif.Spec.Session
import Verif.Model.Queries

namespace OidcOp.Spec

/-- What the session manager has to tell of a session: who it is for, and of the rest what was asked for, as it is stored. -/
def TellsStored (s : Store) (sid u c g : String) (a : Ask) (gr : Grant) (t : Told) : Prop :=
  t.sessionId = sid ∧ t.userId = u ∧ t.clientId = c ∧ t.grantId = g ∧
  t.user = (if a.user then found s (.usr u) else none) ∧
  t.client = (if a.client then found s (.cli u c) else none) ∧
  t.grant = (if a.grant then some (.grant gr) else none) ∧
  t.event = (if a.event then some gr.authnEvent else none) ∧
  t.request = (if a.request then some gr.authzReq else none)

/-- The login behind a grant: the authentication event that is stored with it. -/
def loginOf (s : Store) (u c g : String) : Option AuthnEvent :=
  match found s (.gra u c g) with
  | some (.grant gr) => gr.authnEvent
  | _ => none

end OidcOp.Spec
