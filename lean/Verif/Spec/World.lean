/-
Specification vocabulary for histories of the provider (C11, C14-C16, C18-C22, C24, C26, C27, C66).
-/
import Verif.Model.World
import Verif.Spec.Token

namespace OidcOp.Spec

/-- `w` is the provider's state after some history of operations, starting with an empty session
database at some instant. -/
def Reachable (E : Env) (w : World) : Prop := ∃ now ops, w = run E { now := now } ops

/-- Grant object number `r` is `g`.  Objects keep their number for ever. -/
def GrantAt (w : World) (r : Nat) (g : Grant) : Prop := w.st.heap[r]? = some (.grant g)

/-- The `i`-th token issued under grant object `r` is `t`. -/
def TokenAt (w : World) (r i : Nat) (t : Token) : Prop := ∃ g, GrantAt w r g ∧ g.issuedToken[i]? = some t

/-- The token is revoked, used up, or past its expiry at the instant. -/
def Spent (t : Token) (now : Int) : Prop :=
  t.revoked = true ∨ (∃ m, t.rules.maxUsage = some m ∧ m ≤ t.used) ∨ (t.expiresAt ≠ 0 ∧ t.expiresAt < now)

/-- The event is a successful token response for the authorization code `v`. -/
def isCodeResponse (v : String) : Event → Bool
  | .token _ _ false v' _ _ => decide (v' = v)
  | _ => false

/-- Refresh token rotation is in force for a client: its own setting wins over the endpoint's. -/
def RotationInForce (cfg : TokenCfg) (client : String) : Prop :=
  (∃ cl, cfg.cdb.get? client = some cl ∧ cl.revokeRefresh = some true) ∨
  ((∀ cl, cfg.cdb.get? client = some cl → cl.revokeRefresh = none) ∧ cfg.revokeRefreshOnIssue = true)

/-- A session id made by `encrypted_session_id` for clean ids. -/
def GenuineSid (E : Env) (sid : String) : Prop :=
  ∃ n u c g, CleanId u ∧ CleanId c ∧ GrantId g ∧ sid = E.encSid n [u, c, g]

/-- In a history authorization continues only with session ids that the provider made. -/
def GenuineHistory (E : Env) (ops : List WOp) : Prop :=
  ∀ sid req, WOp.authorize sid req ∈ ops → GenuineSid E sid

end OidcOp.Spec
