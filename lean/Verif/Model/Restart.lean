/-
The session database written out and read back: what a provider that is started again with its stored state has.
-/
import Verif.Model.World

namespace OidcOp

/-- A record after dump and load.  A `SessionInfo` has all its attributes in `parameter` (session/info.py:8-15, 43-44, 56-57).
A `Grant` has all but its `id` (session/grant.py:103-118): the loaded one has the id that the constructor gave it
(session/grant.py:157).  That what is in `parameter` comes back as it was is taken from `oidcmsg.impexp`. -/
def Obj.reborn (id : String) : Obj → Obj
  | .info i => .info i
  | .grant g => .grant { g with id := id }

/-- The records that a dump writes: one for every key, session/database.py:39 and `DLDict` of oidcmsg. -/
def Store.dump (s : Store) : Dict Obj := s.db.filterMap (fun p => (s.obj p.2).map (fun o => (p.1, o)))

/-- Reading them back: every key has an object of its own, also those that shared one.  `ids` are the ids that the `Grant`
constructor draws, one for each record. -/
def Store.loaded (ids : Nat → String) (d : Dict Obj) : Store :=
  { heap := d.mapIdx (fun i p => p.2.reborn (ids i)), db := d.mapIdx (fun i p => (p.1, i)) }

/-- Stop and start again with the stored session database.  The key of the session ids is stored with it
(session/database.py:39, session/manager.py:80-81, 534-535) and the configuration is the same, so the environment of the
operations does not change.  Requests that wait between parsing and processing are kept, which in Python they are not. -/
def restart (ids : Nat → String) (w : World) : World := { w with st := Store.loaded ids w.st.dump }

/-- One thing that happens, or a stop and start. -/
inductive ROp where
  | op (o : WOp)
  | restart (ids : Nat → String)

/-- The state after it. -/
def rstep (E : Env) (w : World) : ROp → World
  | .op o => step E w o
  | .restart ids => restart ids w

/-- The state after a history with stops and starts. -/
def rrun (E : Env) (w : World) (ops : List ROp) : World := ops.foldl (rstep E) w

end OidcOp
