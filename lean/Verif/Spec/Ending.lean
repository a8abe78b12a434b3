/-
Specification vocabulary for a logout while logins are served (C129).
-/
import Verif.Model.Ending
import Verif.Spec.Concurrent

namespace OidcOp.Spec

/-- What happened with logins. -/
def makesIn (ops : List EndOp) : List MakeOp := ops.filterMap (fun
  | .make op => some op
  | _ => none)

/-- The logouts of a history: users and clients. -/
def logoutsIn (ops : List EndOp) : List (String × String) := ops.filterMap (fun
  | .logout u c => some (u, c)
  | _ => none)

/-- Logins and logouts have names as the provider makes them, and each login a grant of its own. -/
structure OwnEnds (s : Store) (ops : List EndOp) : Prop where
  logins : OwnNames s (makesIn ops)
  logouts : ∀ u c, (u, c) ∈ logoutsIn ops → (SKey.cli u c).Good (fun _ => True)

/-- The logout that was asked for as number `k` was for this user and client, and it is over. -/
def Over (s : EndWorld) (k : Nat) (u c : String) : Prop := s.enders[k]? = some { user := u, client := c, pc := .done }

/-- What is stored under a key is stored under no other, and it is a grant if the key is one of a grant. -/
structure OwnObjects (s : Store) : Prop where
  there : ∀ k r, s.db.get? k = some r → r < s.heap.length
  own : ∀ k k' r, s.db.get? k = some r → s.db.get? k' = some r → k' = k
  grants : ∀ u c gid r, (SKey.gra u c gid).Good (fun _ => True) → s.db.get? (key3 u c gid) = some r → ∃ g, s.heap[r]? = some (.grant g)

/-- The session can be read, and it is revoked. -/
def IsRevoked (s : Store) (u c gid : String) : Prop := ∃ g, found s (.gra u c gid) = some (.grant g) ∧ g.revoked = true

end OidcOp.Spec
