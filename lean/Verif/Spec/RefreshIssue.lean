/-
When a refresh token is given (C78).
-/
import Verif.Model.World

namespace OidcOp.Spec

/-- The client may use the grant type: it is in the client's own list, or in the provider's if the client has none. -/
def GrantTypeOpen (cfg : TokenCfg) (client gt : String) : Prop :=
  ∃ cl, cfg.cdb.get? client = some cl ∧
    match cl.grantTypes with
    | some l => gt ∈ l
    | none => gt ∈ cfg.providerGrantTypes

/-- A refresh token is asked for: the server says so when it calls the endpoint (`issue_refresh`), or it says nothing, the
endpoint is the OpenID Connect one and `offline_access` is among the scopes. -/
def RefreshAsked (fl : Flavor) (kw : Option Bool) (scopes : List String) : Prop :=
  kw = some true ∨ (kw = none ∧ fl = .oidc ∧ "offline_access" ∈ scopes)

/-- The server never uses `issue_refresh`. -/
def NoOverride (ops : List WOp) : Prop := ∀ i kw, WOp.process i kw ∈ ops → kw = none

end OidcOp.Spec
