/-
Specification vocabulary for C121: what it takes for the authorization code flow to work.
-/
import Verif.Spec.Provider
import Verif.Spec.LifeTime
import Verif.Spec.LoginLife
import Verif.Spec.Honoured
import Verif.Spec.Claims
import Verif.Spec.Pkce

namespace OidcOp.Spec

/-- The token handlers make every token they are asked for, and at the given time they recognise the codes and access tokens they
have made; session ids are not empty. -/
structure HandlersDo (E : Env) (now : Int) : Prop where
  make : ∀ k c, c.known = true → E.fail k c = none
  code : ∀ k sid, E.info (E.mkVal k .authorizationCode sid) now = .ok (some sid)
  access : ∀ k sid, E.info (E.mkVal k .accessToken sid) now = .ok (some sid)
  named : ∀ k u c g, E.encSid k [u, c, g] ≠ ""

/-- It can be told which claims a session gets, and what is told of them makes sense. -/
structure ClaimsWork (E : Env) : Prop where
  told : ∀ sid g sc, ∃ cl, E.claims sid g sc = .ok cl
  proper : ∀ sid g sc cl restr, E.claims sid g sc = .ok cl → cl.get? "userinfo" = some restr →
    restr.keys.Nodup ∧ ∀ k spec, (k, spec) ∈ restr → ProperSpec spec

/-- With the usage rules a code can be exchanged for tokens of these classes. -/
def ExchangedFor (rules : List (TokenClass × UsageRules)) (mints : List TokenClass) : Prop :=
  (∃ r, rules.lookup .authorizationCode = some r ∧ r.supportsMinting = some mints) ∨
  ((∀ r, rules.lookup .authorizationCode = some r → r.supportsMinting = none) ∧
    mints = [.accessToken, .refreshToken, .idToken])

/-- The usage rules let an access token be used at all. -/
structure AccessLives (rules : List (TokenClass × UsageRules)) : Prop where
  life : ∀ n, LifeTime rules .accessToken n → 0 ≤ n
  uses : ∀ r k, rules.lookup .accessToken = some r → r.maxUsage = some k → 0 < k

/-- What began with a login by method `m` at `t0` has not ended at `t`: the code, the grant and the login itself. -/
structure InTime (E : Env) (client : String) (m : AuthnMethod) (t0 t : Int) : Prop where
  code : ∀ n, SaysLifeTime (E.authz.rulesOf (some client)) .authorizationCode n → n ≠ 0 → t ≤ t0 + n
  grant : ∀ n, E.authz.expiresIn = some n → t ≤ t0 + n
  login : ∀ n, LoginLife m n → t ≤ t0 + n

/-- The same for an access token that came with the response to the login. -/
structure AccessInTime (E : Env) (client : String) (m : AuthnMethod) (t0 t : Int) : Prop where
  token : ∀ n, SaysLifeTime (E.authz.rulesOf (some client)) .accessToken n → n ≠ 0 → t ≤ t0 + n
  uses : ∀ r k, (E.authz.rulesOf (some client)).lookup .accessToken = some r → r.maxUsage = some k → 0 < k
  login : ∀ n, LoginLife m n → t ≤ t0 + n

/-- The token request is the one that goes with the authorization request and the code. -/
structure GoesWith (p : Prov) (req : AuthzReq) (code : String) (treq : TokenReq) : Prop where
  grantType : treq.grantType = some "authorization_code"
  code : treq.code = some code
  redirect : treq.redirectUri = req.redirectUri
  pkce : ∀ H P, p.pkce = some (H, P) → Proven H req treq

end OidcOp.Spec
