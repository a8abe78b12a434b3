/-
Specification vocabulary for C36: which scopes a client may use.
-/
import Verif.Model.Scopes

namespace OidcOp.Spec

/-- The scopes of a mapping. -/
def InMapping (m : ScopeMap) (s : String) : Prop := ∃ l, (s, l) ∈ m

/-- What the server allows: its list of allowed scopes; without one the scopes of its mapping, and without a mapping the
scopes of the standard. -/
def ServerAllows (cfg : ScopeCfg) (s : String) : Prop :=
  (∃ l, cfg.allowedScopes = some l ∧ l ≠ [] ∧ s ∈ l) ∨
  ((cfg.allowedScopes = none ∨ cfg.allowedScopes = some []) ∧
    ((∃ m, cfg.scopesToClaims = some m ∧ m ≠ [] ∧ InMapping m s) ∨
     ((cfg.scopesToClaims = none ∨ cfg.scopesToClaims = some []) ∧
      s ∈ ["openid", "profile", "email", "address", "phone", "offline_access"])))

/-- What a registered client may use: its own list, else the scopes of its own mapping, else what the server allows. -/
def AllowedScope (cfg : ScopeCfg) (client s : String) : Prop :=
  ∃ cl, cfg.cdb.get? client = some cl ∧
    ((∃ l, cl.allowedScopes = some l ∧ s ∈ l) ∨
     (cl.allowedScopes = none ∧ ∃ m, cl.scopesToClaims = some m ∧ InMapping m s) ∨
     (cl.allowedScopes = none ∧ cl.scopesToClaims = none ∧ ServerAllows cfg s))

end OidcOp.Spec
