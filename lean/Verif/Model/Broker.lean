/-
The broker of authentication methods with its index: user_authn/authn_context.py:24-108, 124-161, 181-194.
Model/Login works with the list of the entries alone; Props/Broker shows when this is the same.
-/
import Verif.Model.Login

namespace OidcOp

/-- What a method is registered with: its "acr" and its "method", and "expires_in" of the method. -/
structure BrokerInfo where
  acr : Option String := none
  method : Option String := none
  expiresIn : Option Int := none
  deriving DecidableEq, Repr, Inhabited

/-- `AuthnBroker`, user_authn/authn_context.py:24-27: the methods by their ids, and the ids by acr. -/
structure Broker where
  db : Dict AuthnMethod := []
  acr2id : Dict (List String) := []
  deriving DecidableEq, Repr, Inhabited

/-- `__setitem__`, user_authn/authn_context.py:28-43 -/
def Broker.setItem (key : String) (info : BrokerInfo) : SE Broker Unit := fun b =>
  match info.acr, info.method with
  | some acr, some m =>
    (.ok (), { db := b.db.set key { id := m, acr := acr, expiresIn := info.expiresIn }
               acr2id := b.acr2id.set acr (((b.acr2id.get? acr).getD []) ++ [key]) })
  | _, _ => (.error .valueError, b)

/-- What `__delitem__` leaves of the index, user_authn/authn_context.py:48-50 -/
def indexWithout (idx : Dict (List String)) (acr key : String) (ids : List String) : Dict (List String) :=
  if (ids.erase key).isEmpty then idx.erase acr else idx.set acr (ids.erase key)

/-- `__delitem__`, user_authn/authn_context.py:45-50 -/
def Broker.delItem (key : String) : SE Broker Unit := fun b =>
  match b.db.get? key with
  | none => (.error .keyError, b)
  | some m =>
    match b.acr2id.get? m.acr with
    | none => (.error .keyError, { b with db := b.db.erase key })
    | some ids =>
      if key ∈ ids then (.ok (), { db := b.db.erase key, acr2id := indexWithout b.acr2id m.acr key ids })
      else (.error .valueError, { b with db := b.db.erase key })

/-- `[self.db[_i] for _i in _ids]`, user_authn/authn_context.py:61 -/
def Broker.lookup (b : Broker) : List String → Except Exc (List AuthnMethod)
  | [] => .ok []
  | k :: ks =>
    match b.db.get? k with
    | none => .error .keyError
    | some m =>
      match b.lookup ks with
      | .error e => .error e
      | .ok ms => .ok (m :: ms)

/-- `pick` with an acr, user_authn/authn_context.py:55-61, 79-91.  A value that is not a string has no entry; lists and objects cannot
be looked up. -/
def Broker.pick (b : Broker) : Json → Except Exc (List AuthnMethod)
  | .str a =>
    match b.acr2id.get? a with
    | none => .ok []
    | some ids => b.lookup ids
  | .arr _ => .error .typeError
  | .obj _ => .error .typeError
  | _ => .ok []

/-- `get_acr_values`, user_authn/authn_context.py:93-95 -/
def Broker.acrValues (b : Broker) : List String := b.db.map (·.2.acr)

/-- The loop of `pick_auth`, user_authn/authn_context.py:155-161 -/
def Broker.pickFirst (b : Broker) : List Json → Except Exc (Option AuthnMethod)
  | [] => .ok none
  | a :: as =>
    match b.pick a with
    | .error e => .error e
    | .ok (m :: _) => .ok (some m)
    | .ok [] => b.pickFirst as

/-- `pick_auth`, user_authn/authn_context.py:124-161 -/
def Broker.pickAuth (b : Broker) (hint : List String) (req : AuthzReq) : Except Exc (Option AuthnMethod) :=
  if b.db.length = 1 then .ok (b.db.map (·.2)).head?
  else
    match wantedAcrs hint req with
    | .error e => .error e
    | .ok [] => .ok (b.db.map (·.2)).head?
    | .ok (a :: as) => b.pickFirst (a :: as)

/-- Adding and removing a method. -/
inductive BrokerOp where
  | add (key : String) (info : BrokerInfo)
  | del (key : String)
  deriving DecidableEq, Repr, Inhabited

def Broker.step (b : Broker) : BrokerOp → Broker
  | .add k i => (Broker.setItem k i b).2
  | .del k => (Broker.delItem k b).2

/-- A history, whatever of it raised. -/
def Broker.run (ops : List BrokerOp) : Broker := ops.foldl Broker.step {}

/-- `populate_authn_broker`, user_authn/authn_context.py:181-194; a method without acr stops the start. -/
def populateBroker (methods : Dict BrokerInfo) : Except Exc Broker :=
  methods.foldl (fun r x =>
    match r with
    | .error e => .error e
    | .ok b =>
      match Broker.setItem x.1 x.2 b with
      | (.error e, _) => .error e
      | (.ok _, b') => .ok b') (.ok {})

end OidcOp
