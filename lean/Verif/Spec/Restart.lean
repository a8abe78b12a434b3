/-
Specification vocabulary for C87: what can be seen of a provider from outside.
-/
import Verif.Model.Restart
import Verif.Model.Resource
import Verif.Spec.Isolation

namespace OidcOp.Spec

/-- The same history without the stops and starts. -/
def uninterrupted : List ROp → List WOp
  | [] => []
  | .op o :: r => o :: uninterrupted r
  | .restart _ :: r => uninterrupted r

/-- Two grants have the same content; only the internal identifier may differ. -/
def SameGrant (g g' : Grant) : Prop := ∃ i, g' = { g with id := i }

/-- Two lookups deliver the same record. -/
def SameRecord : Option Obj → Option Obj → Prop
  | none, none => True
  | some (.info i), some (.info i') => i' = i
  | some (.grant g), some (.grant g') => SameGrant g g'
  | _, _ => False

/-- What the client got: the response with the client and the request, without the internal reference to the grant. -/
def Event.seen : Event → String × Option (Bool × String × TokenReq × TokenResp) × Option AuthzResp
  | .authz _ c r => (c, none, some r)
  | .token _ c rf v req r => (c, some (rf, v, req, r), none)

/-- The code and the refresh token in a request, if a token handler recognises them, carry a session id that the provider
made: token values are not forged. -/
def Unforged (E : Env) (U : String → Prop) (req : TokenReq) : Prop :=
  ∀ v, req.code = some v ∨ req.refreshToken = some v → ∀ t sid, E.info v t = .ok (some sid) → sid = "" ∨ SidFor E U sid

/-- The operation is fair, and the token requests present no forged values. -/
def FairR (E : Env) (U : String → Prop) : WOp → Prop
  | .parse c req => FairW E U false (.parse c req) ∧ Unforged E U req
  | op => FairW E U false op

/-- The claims that are granted do not depend on the internal identifier of the grant. -/
def ClaimsIgnoreId (E : Env) : Prop := ∀ sid g i sc, E.claims sid { g with id := i } sc = E.claims sid g sc

/-- The provider that was interrupted, `w'`, answers like the one that was not, `w`. -/
structure AnswersLike (E : Env) (U : String → Prop) (w w' : World) : Prop where
  /-- every answer so far -/
  log : w'.log.map Event.seen = w.log.map Event.seen
  /-- every record of a user, a client session or a grant -/
  records : ∀ k : SKey, k.Good U → SameRecord (found w.st k) (found w'.st k)
  /-- whether the next token request is accepted, and with which error it is refused -/
  parse : ∀ client req, Unforged E U req → (tokenParse E w' client req).1 = (tokenParse E w client req).1
  /-- what an accepted token request gets -/
  process : ∀ req ∈ w.pool, ∀ kw, (tokenProcess E w' kw req).1 = (tokenProcess E w kw req).1
  pool : w'.pool = w.pool
  /-- what the next authorization request of a session gets -/
  authz : ∀ sid req, SidFor E U sid →
    (postAuthentication E w' sid req).1.map (fun r => r.map Prod.snd) =
      (postAuthentication E w sid req).1.map (fun r => r.map Prod.snd)
  /-- what the user info endpoint tells for a token -/
  userinfo : ∀ db v, (∀ t sid, E.info v t = .ok (some sid) → sid = "" ∨ SidFor E U sid) →
    userinfoProcess E db w' v = userinfoProcess E db w v
  /-- what the introspection endpoint tells about a token -/
  introspection : ∀ db issuer extra username v, (∀ t sid, E.info v t = .ok (some sid) → sid = "" ∨ SidFor E U sid) →
    introspectProcess E db issuer extra username w' v = introspectProcess E db issuer extra username w v

end OidcOp.Spec
