/-
Specification vocabulary for usage rules (C59, C60).
-/
import Verif.Model.UsageState

namespace OidcOp.Spec

/-- The client's setting if there is one, else the server's. -/
def Own {α : Type} (client server result : Option α) : Prop :=
  match client with
  | some v => result = some v
  | none => result = server

/-- The rules for one token class that result from the server's and the client's, as far as there are any. -/
def Merged (server client result : Option UsageRules) : Prop :=
  match server, client with
  | none, r => result = r
  | some s, none => result = some s
  | some s, some r =>
    (r = {} → result = some {}) ∧
    (r ≠ {} → ∃ m, result = some m ∧ Own r.maxUsage s.maxUsage m.maxUsage ∧
      Own r.supportsMinting s.supportsMinting m.supportsMinting ∧ Own r.expiresIn s.expiresIn m.expiresIn)

/-- A call of `get_usage_rules`. -/
structure UsageCall where
  cls : TokenClass
  grantRules : Rules
  cid : String

/-- The state after a series of calls. -/
def usageHistory : UsageState → List UsageCall → UsageState
  | s, [] => s
  | s, k :: rest => usageHistory (getUsageRules k.cls k.grantRules k.cid s).2 rest

/-- The server has rules for the class, and the client does not empty them. -/
def Configured (s : UsageState) (k : UsageCall) : Prop :=
  ∃ r, Rules.get? (s.server.getD []) k.cls = some r ∧ r ≠ {} ∧
    ∀ pc, s.clients.get? k.cid = some pc → Rules.get? pc k.cls ≠ some {}

/-- The grant has no rules of its own for the class. -/
def NoGrantRules (k : UsageCall) : Prop := Rules.get? k.grantRules k.cls = none ∨ Rules.get? k.grantRules k.cls = some {}

end OidcOp.Spec
