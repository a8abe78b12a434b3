/-
Specification vocabulary for clients that refresh again and again (C125).
-/
import Verif.Model.Resource
import Verif.Spec.Honoured
import Verif.Spec.Claims
import Verif.Spec.CodeFlow

namespace OidcOp.Spec

/-- In the session `s` the client holds the refresh token `t`, which can be turned into access tokens and refresh tokens with the
scope `sc`. -/
structure HoldsRefresh (E : Env) (w : World) (s : Sess) (t : Token) (sc : List String) : Prop where
  leads : sessionByToken E w t.value = .ok s
  held : t ∈ s.grant.issuedToken
  cls : t.cls = .refreshToken
  active : ItemActive t.item w.now
  grant : ItemActive s.grant.item w.now
  unlimited : s.grant.maxUsage = none
  mints : ∃ l, t.rules.supportsMinting = some l ∧ TokenClass.accessToken ∈ l ∧ TokenClass.refreshToken ∈ l
  scope : t.scope = sc
  base : EffScope s.grant t.basedOn sc

/-- What a refresh request with this token looks like. -/
def refreshWith (v : String) : TokenReq := { grantType := some "refresh_token", refreshToken := some v }

/-- Things happen, then the client sends the refresh request and it is processed. -/
def refreshed (E : Env) (client v : String) (w : World) (ops : List WOp) : World :=
  run E (run E w ops) [.parse client (refreshWith v), .process (run E w ops).pool.length none]

/-- At `now` this has not ended. -/
def NotEnded (x : Item) (now : Int) : Prop := x.expiresAt ≠ 0 → now ≤ x.expiresAt

/-- When the client comes, after `ops`, nothing has been done to its session, its refresh token and the grant have not ended, and the
token handlers work. -/
structure ComesInTime (E : Env) (v : String) (w : World) (ops : List WOp) : Prop where
  same : sessionByToken E (run E w ops) v = sessionByToken E w v
  token : ∀ s, sessionByToken E w v = .ok s → ∀ t ∈ s.grant.issuedToken, t.value = v → NotEnded t.item (run E w ops).now
  grant : ∀ s, sessionByToken E w v = .ok s → NotEnded s.grant.item (run E w ops).now
  handlers : ∀ s, sessionByToken E w v = .ok s → HandlersWork E (run E w ops) s ∧
    ∀ k, (run E w ops).n ≤ k → E.info (E.mkVal k .refreshToken s.sid) (run E w ops).now = .ok (some s.sid)

/-- The client comes again and again, each time in time and with the refresh token it got the last time; `rounds` are what happens
in between. -/
inductive KeepsComing (E : Env) (client : String) : World → String → List (List WOp) → Prop where
  | done {w : World} {v : String} : KeepsComing E client w v []
  | round {w : World} {v : String} {ops : List WOp} {rest : List (List WOp)} : ComesInTime E v w ops →
      (∀ ref q r v', (refreshed E client v w ops).log.getLast? = some (.token ref client true v q r) → r.refreshToken = some v' →
        KeepsComing E client (refreshed E client v w ops) v' rest) → KeepsComing E client w v (ops :: rest)

/-- Each time the client is given an access token and a refresh token with the scope `sc`, and as long as the login `ev` lives the
user info endpoint has claims about the subject `sub` for the access token. -/
inductive KeepsBeingServed (E : Env) (client : String) (sc : List String) (ev : AuthnEvent) (sub : String) :
    World → String → List (List WOp) → Prop where
  | done {w : World} {v : String} : KeepsBeingServed E client sc ev sub w v []
  | round {w : World} {v v' a : String} {ops : List WOp} {rest : List (List WOp)} {ref : Nat} {q : TokenReq} {r : TokenResp} :
      (refreshed E client v w ops).log = (run E w ops).log ++ [.token ref client true v q r] →
      r.accessToken = some a → r.refreshToken = some v' → r.scope = sc →
      ((refreshed E client v w ops).now ≤ ev.validUntil → ∀ db, ∃ info,
        userinfoProcess E (some db) (refreshed E client v w ops) a = .ok (.claims info client) ∧ info.get? "sub" = some (.str sub)) →
      KeepsBeingServed E client sc ev sub (refreshed E client v w ops) v' rest → KeepsBeingServed E client sc ev sub w v (ops :: rest)

/-- With the usage rules a refresh token can be turned into access tokens and refresh tokens. -/
def RefreshedFor (rules : List (TokenClass × UsageRules)) : Prop :=
  ∀ r l, rules.lookup .refreshToken = some r → r.supportsMinting = some l → TokenClass.accessToken ∈ l ∧ TokenClass.refreshToken ∈ l

/-- The usage rules let a refresh token be used at all. -/
structure RefreshLives (rules : List (TokenClass × UsageRules)) : Prop where
  life : ∀ n, LifeTime rules .refreshToken n → 0 ≤ n
  uses : ∀ r k, rules.lookup .refreshToken = some r → r.maxUsage = some k → 0 < k

end OidcOp.Spec
