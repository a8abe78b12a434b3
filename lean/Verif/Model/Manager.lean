/-
Model of session/manager.py: the operations of SessionManager on the session database.
The functions take the parts of a session id; Model/World.lean adds the decryption of session ids.
-/
import Verif.Model.Database

namespace OidcOp

/-- `x.revoke()`: SessionInfo.revoke (session/info.py:32-34), Item.revoke (session/token.py:73-74). -/
def Obj.revoke : Obj → Obj
  | .info i => .info { i with revoked := true }
  | .grant g => .grant g.revoke

/-- Mutate the object behind `r`. -/
def Store.mutate (s : Store) (r : Nat) (f : Obj → Obj) : Store :=
  match s.obj r with
  | some o => s.put r (f o)
  | none => s

/-- `SessionManager.create_grant`, session/manager.py:161-199: store a new grant.  The grant (its id is
a fresh uuid1, its subject is computed by the sub_func) is given by the caller. -/
def createGrant (u c : String) (g : Grant) : SE Store Nat := fun s =>
  let (r, s1) := s.alloc (.grant g)
  match dbSet ⟨u, some c, some g.id⟩ r s1 with
  | (.ok _, s2) => (.ok r, s2)
  | (.error e, s2) => (.error e, s2)

/-- The first part of `create_session`, session/manager.py:225-229. -/
def ensureUser (u : String) : SE Store Unit := fun s =>
  match dbGet ⟨u, none, none⟩ s with
  | .ok _ => (.ok (), s)
  | .error e =>
    if e.isKeyError then
      let (r, s1) := s.alloc (.info { isUser := true, ident := u })
      dbSet ⟨u, none, none⟩ r s1
    else (.error e, s)

/-- The second part of `create_session`, session/manager.py:234-238. -/
def ensureClient (u c : String) : SE Store Unit := fun s =>
  match dbGet ⟨u, some c, none⟩ s with
  | .ok _ => (.ok (), s)
  | .error e =>
    if e = .noSuchClientSession ∨ e = .valueError then
      let (r, s1) := s.alloc (.info { isUser := false, ident := c })
      dbSet ⟨u, some c, none⟩ r s1
    else (.error e, s)

/-- `SessionManager.create_session`, session/manager.py:201-248; `c` is the client id, taken from the
request if the argument is empty (lines 231-232). -/
def createSession (u c : String) (g : Grant) : SE Store Nat := do
  ensureUser u
  ensureClient u c
  createGrant u c g

/-- `SessionManager.add_grant`, session/manager.py:513-528: the grant id is appended to the client's
list although `set` has put it there already. -/
def addGrant (u c : String) (g : Grant) : SE Store Nat := fun s =>
  let (r, s1) := s.alloc (.grant g)
  match dbSet ⟨u, some c, some g.id⟩ r s1 with
  | (.error e, s2) => (.error e, s2)
  | (.ok _, s2) =>
    match dbGet ⟨u, some c, none⟩ s2 with
    | .error e => (.error e, s2)
    | .ok rc =>
      match s2.obj rc with
      | some (.info ci) =>
        let s3 := s2.put rc (.info { ci with subordinate := ci.subordinate ++ [g.id] })
        match dbSet ⟨u, some c, none⟩ rc s3 with
        | (.error e, s4) => (.error e, s4)
        | (.ok _, s4) => (.ok r, s4)
      | _ => (.error .attributeError, s2)

/-- The loop of `revoke_client_session`, session/manager.py:375-377. -/
def revokeGrants (u c : String) : List String → SE Store Unit
  | [] => fun s => (.ok (), s)
  | g :: gs => fun s =>
    match dbGet ⟨u, some c, some g⟩ s with
    | .error e => (.error e, s)
    | .ok r => revokeGrants u c gs (s.mutate r Obj.revoke)

/-- `SessionManager.revoke_client_session`, session/manager.py:356-377, after the session id has been
decrypted to two or three parts. -/
def revokeClientSession (u c : String) : SE Store Unit := fun s =>
  match dbGet ⟨u, some c, none⟩ s with
  | .error e => (.error e, s)
  | .ok r =>
    match s.obj r with
    | some (.info ci) =>
      let s1 := s.mutate r Obj.revoke
      match dbSet ⟨u, some c, none⟩ r s1 with
      | (.error e, s2) => (.error e, s2)
      | (.ok _, s2) => revokeGrants u c ci.subordinate s2
    | _ => (.error .attributeError, s)

/-- `SessionManager.revoke_grant`, session/manager.py:384-393 -/
def revokeGrant (p : Path) : SE Store Unit := fun s =>
  match dbGet p s with
  | .error e => (.error e, s)
  | .ok r => dbSet p r (s.mutate r Obj.revoke)

/-- `SessionManager.grants`, session/manager.py:395-417: the references of the grants. -/
def listGrants (u c : String) (s : Store) : Except Exc (List Nat) :=
  match dbGet ⟨u, some c, none⟩ s with
  | .error e => .error e
  | .ok r =>
    match s.obj r with
    | some (.info ci) => ci.subordinate.mapM (fun g => dbGet ⟨u, some c, some g⟩ s)
    | _ => .error .attributeError

/-- `SessionManager.remove_session`, session/manager.py:530-532 -/
def removeSession (u c g : String) : SE Store Unit := dbDelete ⟨u, some c, some g⟩

/-- The write `session_manager.set(unpack_session_key(session_id), grant)` that follows every minting
(oauth2/token.py:94, oauth2/authorization.py:347).  The session id is the encrypted one, which contains
no divider, so the path has one component and the grant is stored under `db[session_id]`. -/
def aliasSid (sid : String) (r : Nat) : SE Store Unit := dbSet ⟨sid, none, none⟩ r

end OidcOp
