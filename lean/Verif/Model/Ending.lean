/-
Logout while logins are served by other threads: `revoke_client_session` cut into the single accesses to the shared dictionaries, as
`create_session` is in Model/Concurrent.
-/
import Verif.Model.Concurrent

namespace OidcOp

/-- Where a thread is in `revoke_client_session`, session/manager.py:370-377, with `get` and `set`, session/database.py:63-126.
References are to objects that the thread holds in a local variable: `r` is `_info`, `i` the place of the loop in `_info.subordinate`. -/
inductive EndAt where
  /-- the user part of `self.get([_user_id, _client_id])`, manager.py:370, database.py:94-108 -/
  | getListed
  /-- the client part, database.py:110-117 -/
  | getClient
  /-- `_info.revoke()`, manager.py:372 -/
  | mark (r : Nat)
  /-- `self.db[cid_key] = value` in `self.set([_user_id, _client_id], …)`, manager.py:372, database.py:80 -/
  | storeClient (r : Nat)
  /-- `userinfo = self.db.get(uid, …)`, database.py:85 -/
  | readUser (r : Nat)
  /-- `if … client_id not in …: userinfo.add_subordinate(client_id)`, database.py:88-89 -/
  | addClient (r q : Nat)
  /-- `self.db[uid] = userinfo`, database.py:90 -/
  | storeUser (r q : Nat)
  /-- the next turn of `for gid in _info.subordinate`, manager.py:375; the list is the shared one, not a copy -/
  | next (r i : Nat)
  /-- the user part of `self.get([_user_id, _client_id, gid])`, manager.py:376, database.py:94-108 -/
  | findUser (r i : Nat) (x : String)
  /-- the client part, database.py:110-120 -/
  | findClient (r i : Nat) (x : String)
  /-- the grant part, database.py:122-126 -/
  | findGrant (r i : Nat) (x : String)
  /-- `_grant.revoke()`, manager.py:377 -/
  | revoke (r i q : Nat)
  | done
  /-- an exception that is not caught -/
  | failed
  deriving DecidableEq, Repr, Inhabited

/-- A thread that ends the sessions of a user at a client. -/
structure Ender where
  user : String
  client : String
  pc : EndAt := .getListed
  deriving DecidableEq, Repr, Inhabited

/-- The next step of a thread.  Client ids are taken to be non-empty. -/
def endGo (s : Store) (e : Ender) : Store × EndAt :=
  match e.pc with
  | .getListed =>
    match s.lookup e.user with
    | some (_, .info i) => if e.client ∈ i.subordinate then (s, .getClient) else (s, .failed)
    | _ => (s, .failed)
  | .getClient =>
    match s.lookup (key2 e.user e.client) with
    | some (r, .info _) => (s, .mark r)
    | _ => (s, .failed)
  | .mark r => (s.mutate r Obj.revoke, .storeClient r)
  | .storeClient r => (s.bind (key2 e.user e.client) r, .readUser r)
  | .readUser r =>
    let (q, s1) := s.getOr e.user { isUser := true }
    (s1, .addClient r q)
  | .addClient r q =>
    match s.addSub q e.client with
    | none => (s, .failed)
    | some (true, s1) => (s1, .storeUser r q)
    | some (false, s1) => (s1, .next r 0)
  | .storeUser r q => (s.bind e.user q, .next r 0)
  | .next r i =>
    match s.obj r with
    | some (.info ci) =>
      match ci.subordinate[i]? with
      | none => (s, .done)
      | some x => (s, .findUser r i x)
    | _ => (s, .failed)
  | .findUser r i x =>
    match s.lookup e.user with
    | some (_, .info ui) => if e.client ∈ ui.subordinate then (s, .findClient r i x) else (s, .failed)
    | _ => (s, .failed)
  | .findClient r i x =>
    match s.lookup (key2 e.user e.client) with
    | some (_, .info ci) => if x ∈ ci.subordinate then (s, .findGrant r i x) else (s, .failed)
    | _ => (s, .failed)
  | .findGrant r i x =>
    match s.lookup (key3 e.user e.client x) with
    | some (q, _) => (s, .revoke r i q)
    | none => (s, .failed)
  | .revoke r i q => (s.mutate q Obj.revoke, .next r (i + 1))
  | .done => (s, .done)
  | .failed => (s, .failed)

/-- The session database, the threads that create sessions and those that end them. -/
structure EndWorld where
  making : MakeWorld := {}
  enders : List Ender := []
  deriving DecidableEq, Repr, Inhabited

/-- What happens: something with a login, a user logs out of a client, or logout thread number `i` makes its next step. -/
inductive EndOp where
  | make (op : MakeOp)
  | logout (user client : String)
  | goEnd (i : Nat)

/-- One step. -/
def endStep (s : EndWorld) : EndOp → EndWorld
  | .make op => { s with making := makeStep s.making op }
  | .logout u c => { s with enders := s.enders ++ [{ user := u, client := c }] }
  | .goEnd i =>
    match s.enders[i]? with
    | none => s
    | some e => { making := { s.making with st := (endGo s.making.st e).1 }, enders := s.enders.set i { e with pc := (endGo s.making.st e).2 } }

/-- The state after a history. -/
def endRun (s : EndWorld) (ops : List EndOp) : EndWorld := ops.foldl endStep s

/-- A thread that runs alone, with at most `n` steps. -/
def endAlone (s : Store) (e : Ender) : Nat → Store × EndAt
  | 0 => (s, e.pc)
  | n + 1 => endAlone (endGo s e).1 { e with pc := (endGo s e).2 } n

end OidcOp
