/-
Specification vocabulary for C120: when a login counts for a request.
-/
import Verif.Spec.Provider
import Verif.Spec.Login

namespace OidcOp.Spec

/-- `k` is the first of the cookies that is for a session with the client. -/
def FirstFor (E : Env) (cookies : List SessionCookie) (k : SessionCookie) (client : String) : Prop :=
  ∃ pre post, cookies = pre ++ k :: post ∧ (∃ u, CookieFor E k u client) ∧ ∀ k' ∈ pre, ∀ u, ¬ CookieFor E k' u client

/-- The cookie is for a session that is in the database, whose grant is `g`. -/
def SessionIs (E : Env) (w : World) (k : SessionCookie) (user client : String) (g : Grant) : Prop :=
  ∃ gid, E.decrypt k.sid = .ok [user, client, gid] ∧ found w.st (.gra user client gid) = some (.grant g)

/-- The authentication of the session counts at the time. -/
def StillCounts (g : Grant) (now : Int) : Prop := ∃ ev, g.authnEvent = some ev ∧ now < ev.validUntil

/-- The cookie is not too old for the request. -/
def YoungEnough (req : AuthzReq) (k : SessionCookie) (now : Int) : Prop := ∀ a, req.maxAge = some a → now ≤ k.timestamp + a

/-- The request asks for nobody else than the user. -/
def NobodyElse (reqUser : Option (Option String)) (user : String) : Prop := ∀ u, reqUser = some u → u = some user

end OidcOp.Spec
