/-
The client database that registration writes (Model/Registration), as client authentication reads it (Model/ClientAuthn).
-/
import Verif.Model.Registration
import Verif.Model.ClientAuthn

namespace OidcOp

/-- `cdb[id]["client_secret"]` and `cinfo.get("client_secret_expires_at", 0)`, client_authn.py:109, 136, 318.  A secret that is
no string equals none that a request carries.  An expiry time that is no number is taken for a missing one: `verify` of the
registration request lets through numbers only. -/
def authnClientOf (ci : Cinfo) : AuthnClient :=
  { secret := match ci.get? "client_secret" with | some (.json (.str s)) => some s | _ => none
    expiresAt := match ci.get? "client_secret_expires_at" with | some (.json (.num n)) => n | _ => 0 }

/-- The client database as authentication sees it. -/
def authnDb (s : RegState) : Dict CEntry := s.cdb.map (fun p => (p.1, .info (authnClientOf p.2)))

end OidcOp
