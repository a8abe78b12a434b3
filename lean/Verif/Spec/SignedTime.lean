/-
When a signed token ends: what it says itself, and what the provider does (C93).
-/
import Verif.Spec.Parts
import Verif.Spec.LifeTime

namespace OidcOp.Spec

/-- The token handlers that were called between two states saw the time of the first one, and the usage rules of the grant. -/
structure CalledWith (p : Parts) (before after : World) (rules : List (TokenClass × UsageRules)) : Prop where
  clock : ∀ k, before.n ≤ k → k < after.n → p.clock k = before.now
  rules : ∀ k c s, before.n ≤ k → k < after.n → p.expiresIn k c s = (rules.lookup c).bind (·.expiresIn)

/-- Tokens of class `c` are signed, with `alg`; `lifetime` is the one their handler is configured with. -/
def SignedClass (p : Parts) (c : TokenClass) (alg : String) (lifetime : Int) : Prop :=
  p.handlers.get? c.name = some (.jwt c.name alg lifetime)

/-- The handler for `c` is asked before that for ID tokens. -/
def AskedInTime (p : Parts) (c : TokenClass) : Prop :=
  ∃ before after, p.order = before ++ c.name :: after ∧ "id_token" ∉ before

/-- The text is signed by the provider, says that it was made at `iat` by the provider, and when it ends, if it does. -/
def SaysEnd (p : Parts) (alg : String) (text : String) (iat : Int) (exp : Option Int) : Prop :=
  ∃ payload, p.jwt.unpack alg text.toList = .ok payload ∧ payload.get? "iss" = some (.str p.issuer) ∧
    payload.get? "iat" = some (.num iat) ∧ payload.get? "exp" = exp.map Json.num

/-- What userinfo, introspection and the token endpoint ask of a token itself: it leads to a session, and it is active. -/
def Accepted (p : Parts) (t : Token) (at' : Int) : Prop :=
  (∃ sid, p.tokenSid t.value at' = .ok (some sid)) ∧ t.isActive at' = true

end OidcOp.Spec
