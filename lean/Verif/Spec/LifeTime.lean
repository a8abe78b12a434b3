/-
Life times of tokens (C23).
-/
import Verif.Model.World
import Verif.Spec.World

namespace OidcOp.Spec

/-- The usage rules of a grant give tokens of class `c` a life time of `n` seconds: the rules for the class say so, or there
are none, or empty ones, and `n` is the default of 1800. -/
def LifeTime (rules : List (TokenClass × UsageRules)) (c : TokenClass) (n : Int) : Prop :=
  (∃ r, rules.lookup c = some r ∧ r.expiresIn = some n) ∨
  ((rules.lookup c = none ∨ rules.lookup c = some {}) ∧ n = 1800)

/-- The rules for the class say something, but nothing about the life time. -/
def NoLifeTime (rules : List (TokenClass × UsageRules)) (c : TokenClass) : Prop :=
  ∃ r, rules.lookup c = some r ∧ r ≠ {} ∧ r.expiresIn = none

/-- The token response contains `a` as a token of class `c`. -/
def HandsOut (r : TokenResp) (c : TokenClass) (a : String) : Prop :=
  (c = .accessToken ∧ r.accessToken = some a) ∨ (c = .refreshToken ∧ r.refreshToken = some a) ∨
  (c = .idToken ∧ r.idToken = some a)

/-- The authorization response contains `a` as a token of class `c`. -/
def AuthzHandsOut (r : AuthzResp) (c : TokenClass) (a : String) : Prop :=
  (c = .authorizationCode ∧ r.code = some a) ∨ (c = .accessToken ∧ r.accessToken = some a) ∨
  (c = .idToken ∧ r.idToken = some a)

/-- The usage rules of a grant say that tokens of class `c` live `n` seconds. -/
def SaysLifeTime (rules : List (TokenClass × UsageRules)) (c : TokenClass) (n : Int) : Prop :=
  ∃ r, rules.lookup c = some r ∧ r.expiresIn = some n

end OidcOp.Spec
