/-
What it takes for a live code or refresh token to be honoured (C94).
-/
import Verif.Spec.Token
import Verif.Spec.World
import Verif.Spec.RefreshIssue

namespace OidcOp.Spec

/-- From now on the token handlers work for a session: they do not fail, the access tokens they make are recognised, and the
session id is neither empty nor a text that the database uses for another purpose. -/
structure HandlersWork (E : Env) (w : World) (s : Sess) : Prop where
  make : ∀ k c, w.n ≤ k → c.known = true → E.fail k c = none
  read : ∀ k, w.n ≤ k → E.info (E.mkVal k .accessToken s.sid) w.now = .ok (some s.sid)
  named : s.sid ≠ ""
  plain : ';' ∉ s.sid.toList
  own : s.sid ≠ s.user

/-- The token is in the session's grant, active, and may be turned into tokens of the listed classes, access tokens among
them; the grant is active and has no limit on its use. -/
structure Live (w : World) (s : Sess) (i : Nat) (t : Token) (mints : List TokenClass) : Prop where
  held : s.grant.issuedToken[i]? = some t
  active : ItemActive t.item w.now
  grant : ItemActive s.grant.item w.now
  unlimited : s.grant.maxUsage = none
  rules : t.rules.supportsMinting = some mints
  access : TokenClass.accessToken ∈ mints

/-- The client is registered, and the grant type is not excluded by its registration. -/
def NotExcluded (cfg : TokenCfg) (client gt : String) : Prop :=
  ∃ cl, cfg.cdb.get? client = some cl ∧ ∀ l, cl.grantTypes = some l → gt ∈ l

/-- The response carries an access token that the provider recognises as one of the session. -/
def Usable (E : Env) (w : World) (s : Sess) (r : TokenResp) : Prop :=
  ∃ a, r.accessToken = some a ∧ E.info a w.now = .ok (some s.sid)

end OidcOp.Spec
