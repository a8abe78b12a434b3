/-
The session id behind a token: `get_session_id_by_token` of session/manager.py.
-/
import Verif.Model.World

namespace OidcOp

/-- `get_session_id_by_token`, session/manager.py:508-511.  A token without a session id, an ID Token, makes `_compatible_sid` split
`None`: an AttributeError. -/
def sessionIdByToken (E : Env) (w : World) (v : String) : Except Exc String :=
  match E.info v w.now with
  | .error e => .error e
  | .ok none => .error .attributeError
  | .ok (some sid) => .ok (compatibleSid E w.n sid)

end OidcOp
