/-
Model of session/database.py and session/info.py.
-/
import Verif.Model.Grant

namespace OidcOp

/-- A `UserSessionInfo` or `ClientSessionInfo`, session/info.py:7-66.  `ident` is `user_id`
respectively `client_id`; `extra_args` is left out. -/
structure SInfo where
  isUser : Bool
  subordinate : List String := []
  revoked : Bool := false
  ident : String := ""
  deriving DecidableEq, Repr, Inhabited

/-- What a database entry refers to. -/
inductive Obj where
  | info (i : SInfo)
  | grant (g : Grant)
  deriving DecidableEq, Repr, Inhabited

/-- The session database with its objects.  `db` is `Database.db` (a DLDict, session/database.py:43):
it maps keys to object references, which are positions in `heap`.  Two keys can hold the same
reference. -/
structure Store where
  heap : List Obj := []
  db : Dict Nat := []
  deriving DecidableEq, Repr, Inhabited

namespace Store

/-- The object behind a reference. -/
def obj (s : Store) (r : Nat) : Option Obj := s.heap[r]?

/-- Create an object. -/
def alloc (s : Store) (o : Obj) : Nat × Store := (s.heap.length, { s with heap := s.heap ++ [o] })

/-- Mutate an object in place. -/
def put (s : Store) (r : Nat) (o : Obj) : Store := { s with heap := s.heap.set r o }

/-- `self.db[key] = obj` -/
def bind (s : Store) (k : String) (r : Nat) : Store := { s with db := s.db.set k r }

/-- `self.db.__delitem__(key)`; the KeyError for a missing key is raised by the callers. -/
def unbind (s : Store) (k : String) : Store := { s with db := s.db.erase k }

end Store

/-- `session_key(uid, client_id)`, session/database.py:175-176 with DIVIDER of constant.py -/
def key2 (u c : String) : String := u ++ ";;" ++ c

/-- `session_key(uid, client_id, grant_id)`, session/database.py:175-176 -/
def key3 (u c g : String) : String := u ++ ";;" ++ c ++ ";;" ++ g

/-- A path as `_eval_path` splits it, session/database.py:51-61. -/
structure Path where
  uid : String
  cid : Option String := none
  gid : Option String := none
  deriving DecidableEq, Repr, Inhabited

/-- `_eval_path`, session/database.py:51-61; a longer list is cut, an empty one is an IndexError. -/
def evalPath : List String → Except Exc Path
  | [] => .error .indexError
  | [u] => .ok ⟨u, none, none⟩
  | [u, c] => .ok ⟨u, some c, none⟩
  | u :: c :: g :: _ => .ok ⟨u, some c, some g⟩

/-- An optional identifier that is present and not the empty string (`if client_id:`). -/
def truthyId (o : Option String) : Option String :=
  match o with
  | some v => if v = "" then none else some v
  | none => none

/-- `x.subordinate`: a Grant has no such attribute. -/
def subordinateOf : Obj → Except Exc (List String)
  | .info i => .ok i.subordinate
  | .grant _ => .error .attributeError

/-- `self.db[key]` and dereferencing. -/
def Store.lookup (s : Store) (k : String) : Option (Nat × Obj) :=
  match s.db.get? k with
  | none => none
  | some r => match s.obj r with
    | none => none
    | some o => some (r, o)

/-- The client part of `Database.set`, session/database.py:76-83.  `val` is the reference of the
value to store. -/
def setClient (u c : String) (g : Option String) (val : Nat) : SE Store Unit := fun s =>
  match g with
  | none => (.ok (), s.bind (key2 u c) val)
  | some gid =>
    match s.lookup (key2 u c) with
    | none =>
      let (r, s1) := s.alloc (.info { isUser := false, subordinate := [gid] })
      (.ok (), s1.bind (key2 u c) r)
    | some (_, .grant _) => (.error .attributeError, s)
    | some (r, .info i) =>
      if gid ∈ i.subordinate then (.ok (), s)
      else (.ok (), (s.put r (.info { i with subordinate := i.subordinate ++ [gid] })).bind (key2 u c) r)

/-- The user part of `Database.set`, session/database.py:85-90.  `c` is the truthy client id;
`isNone` says whether the path had no client id at all. -/
def setUser (u : String) (c : Option String) (isNone : Bool) (val : Nat) : SE Store Unit := fun s =>
  match c with
  | none => if isNone then (.ok (), s.bind u val) else (.ok (), s)
  | some cid =>
    match s.lookup u with
    | none =>
      let (r, s1) := s.alloc (.info { isUser := true, subordinate := [cid] })
      (.ok (), s1.bind u r)
    | some (_, .grant _) => (.error .attributeError, s)
    | some (r, .info i) =>
      if cid ∈ i.subordinate then (.ok (), s)
      else (.ok (), (s.put r (.info { i with subordinate := i.subordinate ++ [cid] })).bind u r)

/-- `Database.set`, session/database.py:63-90.  A path with a grant id but without a client id makes
`session_key` fail (`DIVIDER.join` on None), a TypeError. -/
def dbSet (p : Path) (val : Nat) : SE Store Unit := do
  match truthyId p.gid with
  | none => pure ()
  | some g =>
    match p.cid with
    | none => SE.raise .typeError
    | some c => SE.modify (fun s => s.bind (key3 p.uid c g) val)
  match truthyId p.cid with
  | none => pure ()
  | some c => setClient p.uid c (truthyId p.gid) val
  setUser p.uid (truthyId p.cid) p.cid.isNone val

/-- `Database.get`, session/database.py:92-126: the reference that is returned. -/
def dbGet (p : Path) (s : Store) : Except Exc Nat :=
  match s.lookup p.uid with
  | none => .error .keyError
  | some (r, o) =>
    match p.cid with
    | none => .ok r
    | some c =>
      match subordinateOf o with
      | .error e => .error e
      | .ok sub =>
        if c ∉ sub then .error .valueError
        else
          match s.lookup (key2 p.uid c) with
          | none => .error .noSuchClientSession
          | some (r2, o2) =>
            match p.gid with
            | none => .ok r2
            | some g =>
              match subordinateOf o2 with
              | .error e => .error e
              | .ok sub2 =>
                if g ∉ sub2 then .error .valueError
                else
                  match s.lookup (key3 p.uid c g) with
                  | none => .error .noSuchGrant
                  | some (r3, _) => .ok r3

/-- `list.remove(x)`: drop the first occurrence. -/
def removeFirst (x : String) (l : List String) : List String := l.erase x

/-- The block for an existing client record in `Database.delete`, session/database.py:145-162.
Without a grant id the loop of lines 153-155 looks at one fixed key, `uid;;client;;`, once per grant.
The user record and the client record are taken to be different objects. -/
def deleteClient (u c : String) (g : Option String) (ru : Nat) (ui : SInfo) (rc : Nat) (ci : SInfo)
    (s : Store) : Store :=
  let s1 : Store × SInfo :=
    match g with
    | some gid =>
      (s.unbind (key3 u c gid), { ci with subordinate := removeFirst gid ci.subordinate })
    | none =>
      ((if ci.subordinate.isEmpty then s else s.unbind (key3 u c "")), { ci with subordinate := [] })
  let s2 := s1.1.put rc (.info s1.2)
  if s1.2.subordinate.isEmpty then
    (s2.unbind (key2 u c)).put ru (.info { ui with subordinate := removeFirst c ui.subordinate })
  else s2.bind c rc

/-- The end of `Database.delete`, session/database.py:164-167. -/
def deleteUserIfEmpty (u : String) (ru : Nat) (s : Store) : SE Store Unit := fun _ =>
  match s.obj ru with
  | some (.info i) => if i.subordinate.isEmpty then (.ok (), s.unbind u) else (.ok (), s.bind u ru)
  | _ => (.error .attributeError, s)

/-- `Database.delete`, session/database.py:128-167 -/
def dbDelete (p : Path) : SE Store Unit := fun s =>
  match s.lookup p.uid with
  | none => (.ok (), s)
  | some (ru, o) =>
    match truthyId p.cid with
    | none => (.ok (), s.unbind p.uid)
    | some c =>
      match o with
      | .grant _ => (.error .attributeError, s)
      | .info ui =>
        if c ∉ ui.subordinate then
          if s.db.has c then (.ok (), s.unbind c) else (.error .keyError, s)
        else
          match s.lookup (key2 p.uid c) with
          | none => deleteUserIfEmpty p.uid ru s s
          | some (_, .grant _) =>
            (.error .attributeError,
              match truthyId p.gid with
              | some g => s.unbind (key3 p.uid c g)
              | none => s)
          | some (rc, .info ci) =>
            deleteUserIfEmpty p.uid ru (deleteClient p.uid c (truthyId p.gid) ru ui rc ci s) s

end OidcOp
