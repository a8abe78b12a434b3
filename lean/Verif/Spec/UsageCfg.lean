/-
The usage rules of the configuration and the tokens of a history (C103).
-/
import Verif.Model.World
import Verif.Spec.World
import Verif.Spec.LifeTime
import Verif.Spec.Configure

namespace OidcOp.Spec

/-- How often a token may be used and what it may be exchanged for is what the rules say for its class.  An authorization code can
be used once whatever they say; codes and refresh tokens for which nothing is said can be exchanged for the usual tokens. -/
structure UsedBy (rules : List (TokenClass × UsageRules)) (t : Token) : Prop where
  code : t.cls = .authorizationCode → t.rules.maxUsage = some 1
  other : t.cls ≠ .authorizationCode → t.rules.maxUsage = (rules.lookup t.cls).bind (·.maxUsage)
  said : ∀ r l, rules.lookup t.cls = some r → r.supportsMinting = some l → t.rules.supportsMinting = some l
  codeMints : t.cls = .authorizationCode → (∀ r, rules.lookup t.cls = some r → r.supportsMinting = none) →
    t.rules.supportsMinting = some [.accessToken, .refreshToken, .idToken]
  refreshMints : t.cls = .refreshToken → (∀ r, rules.lookup t.cls = some r → r.supportsMinting = none) →
    t.rules.supportsMinting = some [.accessToken, .refreshToken]

/-- The token ends `n` seconds after it was issued, or never (0). -/
structure LivesBy (rules : List (TokenClass × UsageRules)) (t : Token) : Prop where
  /-- a token made from another token -/
  made : t.basedOn ≠ none → ∀ n, LifeTime rules t.cls n → n ≠ 0 → t.expiresAt = t.issuedAt + n
  madeNone : t.basedOn ≠ none → NoLifeTime rules t.cls → t.expiresAt = 0
  /-- a token in an authorization response -/
  root : t.basedOn = none → ∀ n, SaysLifeTime rules t.cls n → n ≠ 0 → t.expiresAt = t.issuedAt + n
  rootNone : t.basedOn = none → (∀ n, ¬ SaysLifeTime rules t.cls n) → t.expiresAt = 0

/-- The names that the default grant configuration uses. -/
def grantConfigNames : List String :=
  ["class", "kwargs", "grant_config", "usage_rules", "authorization_code", "supports_minting", "max_usage", "access_token",
   "refresh_token", "expires_in"]

end OidcOp.Spec
