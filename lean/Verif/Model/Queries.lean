/-
Model of the reading side of session/manager.py: what the session manager tells about a session.  `dec` is
`decrypt_session_id` (Model/Util.lean, `Parts.decSid`).
-/
import Verif.Model.Manager

namespace OidcOp

/-- `_user_id, _client_id, _grant_id = self.decrypt_session_id(session_id)`, session/manager.py:154 and elsewhere; another
number of parts is a ValueError. -/
def threeParts (dec : String → Except Exc (List String)) (sid : String) : Except Exc (String × String × String) :=
  match dec sid with
  | .error e => .error e
  | .ok [u, c, g] => .ok (u, c, g)
  | .ok _ => .error .valueError

/-- `self.get(path)`, session/database.py:92-126, with the object behind the reference; every reference in the database has
one. -/
def recordAt (p : Path) (s : Store) : Except Exc Obj :=
  match dbGet p s with
  | .error e => .error e
  | .ok r =>
    match s.obj r with
    | some o => .ok o
    | none => .error .keyError

/-- `x.authentication_event`: session information has no such attribute. -/
def Obj.event : Obj → Except Exc (Option AuthnEvent)
  | .grant g => .ok g.authnEvent
  | .info _ => .error .attributeError

/-- `x.authorization_request` -/
def Obj.request : Obj → Except Exc (Option AuthzReq)
  | .grant g => .ok g.authzReq
  | .info _ => .error .attributeError

/-- The keyword arguments of `get_session_info`, session/manager.py:419-427. -/
structure Ask where
  user : Bool := false
  client : Bool := false
  grant : Bool := false
  event : Bool := false
  request : Bool := false
  deriving DecidableEq, Repr, Inhabited

/-- What `get_session_info` returns; `none` for a key that is not in the dictionary. -/
structure Told where
  sessionId : String
  userId : String
  clientId : String
  grantId : String
  user : Option Obj := none
  client : Option Obj := none
  grant : Option Obj := none
  event : Option (Option AuthnEvent) := none
  request : Option (Option AuthzReq) := none
  deriving DecidableEq, Repr, Inhabited

/-- One `if <flag>: res[…] = …` of `get_session_info`. -/
def whenAsked {α : Type} (b : Bool) (x : Except Exc α) : Except Exc (Option α) :=
  if b then (match x with | .ok a => .ok (some a) | .error e => .error e) else .ok none

/-- The authentication event in `get_session_info`, session/manager.py:453-458: with `grant` it is read as
`res["grant"]["authentication_event"]`, and neither a grant nor session information can be subscripted (TypeError). -/
def askEvent (withGrant : Bool) (p : Path) (s : Store) : Except Exc (Option AuthnEvent) :=
  if withGrant then .error .typeError
  else match recordAt p s with
    | .error e => .error e
    | .ok o => o.event

/-- The authorization request in `get_session_info`, session/manager.py:460-467: of the grant that has been read already, or
of the one that is read now; nothing is written in between, so that it is the same. -/
def askRequest (p : Path) (s : Store) : Except Exc (Option AuthzReq) :=
  match recordAt p s with
  | .error e => .error e
  | .ok o => o.request

/-- `SessionManager.get_session_info`, session/manager.py:419-469 -/
def getSessionInfo (dec : String → Except Exc (List String)) (sid : String) (a : Ask) (s : Store) : Except Exc Told :=
  threeParts dec sid >>= fun p =>
  whenAsked a.user (recordAt ⟨p.1, none, none⟩ s) >>= fun ui =>
  whenAsked a.client (recordAt ⟨p.1, some p.2.1, none⟩ s) >>= fun ci =>
  whenAsked a.grant (recordAt ⟨p.1, some p.2.1, some p.2.2⟩ s) >>= fun gr =>
  whenAsked a.event (askEvent a.grant ⟨p.1, some p.2.1, some p.2.2⟩ s) >>= fun ev =>
  whenAsked a.request (askRequest ⟨p.1, some p.2.1, some p.2.2⟩ s) >>= fun rq =>
  .ok { sessionId := sid, userId := p.1, clientId := p.2.1, grantId := p.2.2,
        user := ui, client := ci, grant := gr, event := ev, request := rq }

/-- `get_authentication_event`, session/manager.py:352-354 -/
def getAuthenticationEvent (dec : String → Except Exc (List String)) (sid : String) (s : Store) :
    Except Exc (Option AuthnEvent) :=
  getSessionInfo dec sid { event := true } s >>= fun t =>
  match t.event with
  | some e => .ok e
  | none => .error .keyError

/-- `get_authorization_request`, session/manager.py:348-350 -/
def getAuthorizationRequest (dec : String → Except Exc (List String)) (sid : String) (s : Store) :
    Except Exc (Option AuthzReq) :=
  getSessionInfo dec sid { request := true } s >>= fun t =>
  match t.request with
  | some r => .ok r
  | none => .error .keyError

/-- `get_grant`, session/manager.py:284-296; the type is checked, a wrong one is a ValueError. -/
def getGrant (dec : String → Except Exc (List String)) (sid : String) (s : Store) : Except Exc Grant :=
  threeParts dec sid >>= fun p =>
  match recordAt ⟨p.1, some p.2.1, some p.2.2⟩ s with
  | .error e => .error e
  | .ok (.grant g) => .ok g
  | .ok (.info _) => .error .valueError

/-- `isinstance(x, UserSessionInfo)` or `isinstance(x, ClientSessionInfo)`, and a ValueError otherwise, session/manager.py:141-144,
265-268 and 279-282. -/
def infoOfKind (isUser : Bool) : Obj → Except Exc SInfo
  | .info i => if i.isUser = isUser then .ok i else .error .valueError
  | .grant _ => .error .valueError

/-- `get_user_info`, session/manager.py:139-144 -/
def getUserInfo (u : String) (s : Store) : Except Exc SInfo :=
  recordAt ⟨u, none, none⟩ s >>= infoOfKind true

/-- `get_user_session_info`, session/manager.py:270-282 -/
def getUserSessionInfo (dec : String → Except Exc (List String)) (sid : String) (s : Store) : Except Exc SInfo :=
  threeParts dec sid >>= fun p =>
  recordAt ⟨p.1, none, none⟩ s >>= infoOfKind true

/-- `get_client_session_info`, session/manager.py:256-268 -/
def getClientSessionInfo (dec : String → Except Exc (List String)) (sid : String) (s : Store) : Except Exc SInfo :=
  threeParts dec sid >>= fun p =>
  recordAt ⟨p.1, some p.2.1, none⟩ s >>= infoOfKind false

/-- `client_session_is_revoked`, session/manager.py:379-382; what is stored for a client is session information, a grant
could be asked for the same attribute. -/
def clientSessionIsRevoked (dec : String → Except Exc (List String)) (sid : String) (s : Store) : Except Exc Bool :=
  threeParts dec sid >>= fun p =>
  match recordAt ⟨p.1, some p.2.1, none⟩ s with
  | .error e => .error e
  | .ok (.info i) => .ok i.revoked
  | .ok (.grant g) => .ok g.revoked

/-- `find_token`, session/manager.py:146-159: the first token of the grant that has the value; `None` if there is none. -/
def findToken (dec : String → Except Exc (List String)) (sid v : String) (s : Store) : Except Exc (Option Token) :=
  threeParts dec sid >>= fun p =>
  match recordAt ⟨p.1, some p.2.1, some p.2.2⟩ s with
  | .error e => .error e
  | .ok (.grant g) => .ok (g.issuedToken.find? (fun t => decide (t.value = v)))
  | .ok (.info _) => .error .attributeError

/-- Who is meant by `get_authentication_events`, session/manager.py:338-343: the session id counts, the other two only without
it, and then both have to be there. -/
def eventsOf (dec : String → Except Exc (List String)) (sid u c : String) : Except Exc (String × String) :=
  if sid ≠ "" then (threeParts dec sid >>= fun p => .ok (p.1, p.2.1))
  else if u ≠ "" ∧ c ≠ "" then .ok (u, c)
  else .error .attributeError

/-- `self.get([user_id, client_id, gid])` and `.authentication_event` for each grant, session/manager.py:347-348.  All grants
are read before the first event is. -/
def eventsFrom (u c : String) (s : Store) (gids : List String) : Except Exc (List (Option AuthnEvent)) :=
  gids.mapM (fun g => recordAt ⟨u, some c, some g⟩ s) >>= fun os => os.mapM Obj.event

/-- `get_authentication_events`, session/manager.py:322-348 -/
def getAuthenticationEvents (dec : String → Except Exc (List String)) (sid u c : String) (s : Store) :
    Except Exc (List (Option AuthnEvent)) :=
  eventsOf dec sid u c >>= fun p =>
  recordAt ⟨p.1, some p.2, none⟩ s >>= fun o =>
  subordinateOf o >>= fun gids =>
  eventsFrom p.1 p.2 s gids

/-- `Database.update`, session/database.py:169-173: `f` is what setting the attributes does to the record. -/
def dbUpdate (p : Path) (f : Obj → Obj) : SE Store Unit := fun s =>
  match dbGet p s with
  | .error e => (.error e, s)
  | .ok r => dbSet p r (s.mutate r f)

end OidcOp
