/-
Requests that are served at the same time by several threads: the places where a value that can be used once is looked up and used
up, and the creation of sessions, cut into the single accesses to the shared dictionaries.  Each of these is one operation on a Python
dictionary or list, which no other thread can interrupt.
-/
import Verif.Model.Manager
import Verif.Model.Provider
import Verif.Model.ClientAuthn

namespace OidcOp

/-! ### Pushed authorization requests -/

/-- A thread in `_do_request_uri` for the URN of a pushed request, oauth2/authorization.py:359-366, and where it is. -/
inductive ParAt where
  /-- about to run `par_db.get(_request_uri)` -/
  | look
  /-- has found the request and is about to run `del par_db[_request_uri]` -/
  | drop (r : AuthzReq)
  /-- goes on with the request -/
  | goesOn (r : AuthzReq)
  /-- has raised ValueError or KeyError -/
  | failed
  deriving DecidableEq, Repr, Inhabited

/-- The shared dictionary, the number of URNs that were drawn, and the threads with the URNs they were asked for. -/
structure ParWorld where
  par : Dict AuthzReq := []
  pushes : Nat := 0
  threads : List (String × ParAt) := []
  deriving DecidableEq, Repr, Inhabited

/-- What happens: a request is pushed, a request with a URN comes in, or thread number `i` makes its next step. -/
inductive ParOp where
  | push (r : AuthzReq)
  | comes (uri : String)
  | go (i : Nat)

/-- The next step of a thread, oauth2/authorization.py:360-366.  An empty request, which is not taken for one, is left out: a
request has at least a client id. -/
def parGo (par : Dict AuthzReq) (uri : String) : ParAt → Dict AuthzReq × ParAt
  | .look =>
    match par.get? uri with
    | none => (par, .failed)
    | some r => (par, .drop r)
  | .drop r => if par.has uri then (par.erase uri, .goesOn r) else (par, .failed)
  | .goesOn r => (par, .goesOn r)
  | .failed => (par, .failed)

/-- One step.  Pushing is the single assignment in oauth2/pushed_authorization.py:34-35; `urn` are the URNs that are drawn. -/
def parStep (urn : Nat → String) (s : ParWorld) : ParOp → ParWorld
  | .push r => { s with par := s.par.set (urn s.pushes) r, pushes := s.pushes + 1 }
  | .comes uri => { s with threads := s.threads ++ [(uri, .look)] }
  | .go i =>
    match s.threads[i]? with
    | none => s
    | some (uri, a) => { s with par := (parGo s.par uri a).1, threads := s.threads.set i (uri, (parGo s.par uri a).2) }

/-- The state after a history. -/
def parRun (urn : Nat → String) (ops : List ParOp) : ParWorld := ops.foldl (parStep urn) {}

/-! ### Client assertions -/

/-- A thread in the check of the jti, client_authn.py:227-233 and 289-295, and where it is. -/
inductive JtiAt where
  /-- about to run `_key in jti_db` -/
  | look
  /-- has not found the key and is about to run `jti_db[_key] = …` -/
  | note
  | accepted
  /-- has raised MultipleUsage -/
  | refused
  deriving DecidableEq, Repr, Inhabited

/-- The keys of the shared dictionary, and the threads with the keys of their assertions. -/
structure JtiWorld where
  seen : List String := []
  threads : List (String × JtiAt) := []
  deriving DecidableEq, Repr, Inhabited

/-- What happens: an assertion with this issuer and jti comes in, or thread number `i` makes its next step. -/
inductive JtiOp where
  | comes (iss jti : String)
  | go (i : Nat)

/-- The next step of a thread, client_authn.py:229-233. -/
def jtiGo (seen : List String) (key : String) : JtiAt → List String × JtiAt
  | .look => if key ∈ seen then (seen, .refused) else (seen, .note)
  | .note => (key :: seen, .accepted)
  | .accepted => (seen, .accepted)
  | .refused => (seen, .refused)

/-- One step. -/
def jtiStep (s : JtiWorld) : JtiOp → JtiWorld
  | .comes iss jti => { s with threads := s.threads ++ [(jtiKey iss jti, .look)] }
  | .go i =>
    match s.threads[i]? with
    | none => s
    | some (k, a) => { seen := (jtiGo s.seen k a).1, threads := s.threads.set i (k, (jtiGo s.seen k a).2) }

/-- The state after a history. -/
def jtiRun (s : JtiWorld) (ops : List JtiOp) : JtiWorld := ops.foldl jtiStep s

/-! ### Sessions -/

/-- Where a thread is in `create_session`, session/manager.py:225-248, with `get`, session/database.py:92-126, and `set`,
session/database.py:63-90.  References are to objects that the thread holds in a local variable. -/
inductive MakeAt where
  /-- `self.get([user_id])`, manager.py:226 -/
  | getUser
  /-- `self.set([user_id], _usi)`, manager.py:228-229, database.py:87 -/
  | setUser
  /-- the user part of `self.get([user_id, client_id])`, manager.py:235, database.py:94-108 -/
  | getListed
  /-- the client part, database.py:110-114 -/
  | getClient
  /-- `self.db[cid_key] = value` in `self.set([user_id, client_id], client_info)`, manager.py:237-238, database.py:80 -/
  | setClient
  /-- `self.db[gid_key] = value` in `self.set([user_id, client_id, grant.id], grant)`, database.py:74 -/
  | setGrant
  /-- `cid_info = self.db.get(cid_key, …)`, database.py:78 -/
  | readClient
  /-- `if grant_id not in …: cid_info.add_subordinate(grant_id)`, database.py:81-82 -/
  | addGrant (r : Nat)
  /-- `self.db[cid_key] = cid_info`, database.py:83 -/
  | storeClient (r : Nat)
  /-- `userinfo = self.db.get(uid, …)`, database.py:85; the flag tells whether this is the last `set` -/
  | readUser (last : Bool)
  /-- `if … client_id not in …: userinfo.add_subordinate(client_id)`, database.py:88-89 -/
  | addClient (r : Nat) (last : Bool)
  /-- `self.db[uid] = userinfo`, database.py:90 -/
  | storeUser (r : Nat) (last : Bool)
  | done
  /-- an exception that is not caught -/
  | failed
  deriving DecidableEq, Repr, Inhabited

/-- A thread that creates a session. -/
structure Maker where
  user : String
  client : String
  grant : Grant
  pc : MakeAt := .getUser
  deriving DecidableEq, Repr, Inhabited

/-- What comes after a `set` has looked after the user's record. -/
def afterUser (last : Bool) : MakeAt := if last then .done else .setGrant

/-- The object that `self.db.get(key, default)` gives: the stored one or a new one. -/
def Store.getOr (s : Store) (k : String) (dflt : SInfo) : Nat × Store :=
  match s.lookup k with
  | some (r, _) => (r, s)
  | none => s.alloc (.info dflt)

/-- `if x not in info.subordinate: info.add_subordinate(x)` for the object at `r`: whether it was not in, and the store after it.  A
Grant has no such attribute.  The test and the addition are taken as one step. -/
def Store.addSub (s : Store) (r : Nat) (x : String) : Option (Bool × Store) :=
  match s.obj r with
  | some (.info i) =>
    if x ∈ i.subordinate then some (false, s)
    else some (true, s.put r (.info { i with subordinate := i.subordinate ++ [x] }))
  | _ => none

/-- The next step of a thread.  Client ids and grant ids are taken to be non-empty. -/
def makeGo (s : Store) (m : Maker) : Store × MakeAt :=
  match m.pc with
  | .getUser =>
    match s.lookup m.user with
    | none => (s, .setUser)
    | some _ => (s, .getListed)
  | .setUser =>
    let (r, s1) := s.alloc (.info { isUser := true, ident := m.user })
    (s1.bind m.user r, .getListed)
  | .getListed =>
    match s.lookup m.user with
    | none => (s, .failed)
    | some (_, .grant _) => (s, .failed)
    | some (_, .info i) => if m.client ∈ i.subordinate then (s, .getClient) else (s, .setClient)
  | .getClient =>
    match s.lookup (key2 m.user m.client) with
    | none => (s, .setClient)
    | some _ => (s, .setGrant)
  | .setClient =>
    let (r, s1) := s.alloc (.info { isUser := false, ident := m.client })
    (s1.bind (key2 m.user m.client) r, .readUser false)
  | .setGrant =>
    let (r, s1) := s.alloc (.grant m.grant)
    (s1.bind (key3 m.user m.client m.grant.id) r, .readClient)
  | .readClient =>
    let (r, s1) := s.getOr (key2 m.user m.client) { isUser := false }
    (s1, .addGrant r)
  | .addGrant r =>
    match s.addSub r m.grant.id with
    | none => (s, .failed)
    | some (true, s1) => (s1, .storeClient r)
    | some (false, s1) => (s1, .readUser true)
  | .storeClient r => (s.bind (key2 m.user m.client) r, .readUser true)
  | .readUser last =>
    let (r, s1) := s.getOr m.user { isUser := true }
    (s1, .addClient r last)
  | .addClient r last =>
    match s.addSub r m.client with
    | none => (s, .failed)
    | some (true, s1) => (s1, .storeUser r last)
    | some (false, s1) => (s1, afterUser last)
  | .storeUser r last => (s.bind m.user r, afterUser last)
  | .done => (s, .done)
  | .failed => (s, .failed)

/-- The session database and the threads that create sessions. -/
structure MakeWorld where
  st : Store := {}
  threads : List Maker := []
  deriving DecidableEq, Repr, Inhabited

/-- What happens: a user logs in for a client, or thread number `i` makes its next step. -/
inductive MakeOp where
  | login (user client : String) (grant : Grant)
  | go (i : Nat)

/-- One step. -/
def makeStep (s : MakeWorld) : MakeOp → MakeWorld
  | .login u c g => { s with threads := s.threads ++ [{ user := u, client := c, grant := g }] }
  | .go i =>
    match s.threads[i]? with
    | none => s
    | some m => { st := (makeGo s.st m).1, threads := s.threads.set i { m with pc := (makeGo s.st m).2 } }

/-- The state after a history. -/
def makeRun (s : MakeWorld) (ops : List MakeOp) : MakeWorld := ops.foldl makeStep s

/-- A thread that runs alone, with at most `n` steps. -/
def makeAlone (s : Store) (m : Maker) : Nat → Store × MakeAt
  | 0 => (s, m.pc)
  | n + 1 =>
    match m.pc with
    | .done => (s, .done)
    | .failed => (s, .failed)
    | _ => makeAlone (makeGo s m).1 { m with pc := (makeGo s m).2 } n

end OidcOp
