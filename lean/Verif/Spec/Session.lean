/-
Specification vocabulary for the session database (C05-C09).
-/
import Verif.Model.Manager
import Verif.Spec.Encoding

namespace OidcOp.Spec

/-- An identifier as the provider makes and registers them: not empty and free of the separator
character `;` (user names, client ids, uuid1 grant ids). -/
def CleanId (x : String) : Prop := x ≠ "" ∧ ';' ∉ x.toList

/-- A grant id as the provider makes them (uuid1 in hex): clean, and it does not end in white space, which the decoding of a
session id would cut off. -/
def GrantId (x : String) : Prop := CleanId x ∧ ¬ EndsInSpace x.toList

instance (x : String) : Decidable (CleanId x) := by unfold CleanId; infer_instance

instance (x : String) : Decidable (GrantId x) := by unfold GrantId; infer_instance

/-- The database addresses its records by a user, a user and a client, or a user, a client and a
grant. -/
inductive SKey where
  | usr (u : String)
  | cli (u c : String)
  | gra (u c g : String)
  deriving DecidableEq, Repr

namespace SKey

def user : SKey → String
  | usr u => u
  | cli u _ => u
  | gra u _ _ => u

def path : SKey → Path
  | usr u => ⟨u, none, none⟩
  | cli u c => ⟨u, some c, none⟩
  | gra u c g => ⟨u, some c, some g⟩

/-- All identifiers are clean and the first one is a user id. -/
def Good (U : String → Prop) : SKey → Prop
  | usr u => U u ∧ CleanId u
  | cli u c => U u ∧ CleanId u ∧ CleanId c
  | gra u c g => U u ∧ CleanId u ∧ CleanId c ∧ GrantId g

end SKey

/-- The record that `get` delivers for a key, `none` when `get` raises. -/
def found (s : Store) (k : SKey) : Option Obj :=
  match dbGet k.path s with
  | .ok r => s.obj r
  | .error _ => none

/-- The session database is consistent for the users in `U`: every client a user lists and every
grant a client lists can be read with `get`, and every stored client session is listed by its user
and every stored grant by its client. -/
structure Consistent (U : String → Prop) (s : Store) : Prop where
  clientsResolve : ∀ u i c, U u → found s (.usr u) = some (.info i) → c ∈ i.subordinate →
    ∃ ci, found s (.cli u c) = some (.info ci)
  grantsResolve : ∀ u c ci g, U u → found s (.cli u c) = some (.info ci) → g ∈ ci.subordinate →
    ∃ gr, found s (.gra u c g) = some (.grant gr)
  clientsListed : ∀ u c, (SKey.cli u c).Good U → s.db.has (key2 u c) = true →
    ∃ i, found s (.usr u) = some (.info i) ∧ c ∈ i.subordinate
  grantsListed : ∀ u c g, (SKey.gra u c g).Good U → s.db.has (key3 u c g) = true →
    ∃ ci, found s (.cli u c) = some (.info ci) ∧ g ∈ ci.subordinate


/-! ### Histories of session manager operations -/

/-- An operation on the session database, as the endpoints and an application perform them. -/
inductive SOp where
  /-- `create_session` for a user and a client, with the grant it makes -/
  | createSession (u c : String) (g : Grant)
  /-- `create_grant` -/
  | createGrant (u c : String) (g : Grant)
  /-- `add_grant` -/
  | addGrant (u c : String) (g : Grant)
  /-- read a grant and change it in place in any way (minting, usage registration, revoking tokens) -/
  | update (u c g : String) (f : Grant → Grant)
  /-- read a grant and store it again under its path (`session_manager[sid] = grant`) -/
  | store (u c g : String)
  /-- read a grant and store it under the encrypted session id, as every minting does -/
  | alias (u c g sid : String)
  /-- `revoke_grant` -/
  | revokeGrant (u c g : String)
  /-- `revoke_client_session` -/
  | revokeClientSession (u c : String)
  /-- `remove_session` -/
  | removeSession (u c g : String)

/-- The database after an operation, whether it returned or raised. -/
def runOp (s : Store) : SOp → Store
  | .createSession u c g => (createSession u c g s).2
  | .createGrant u c g => (createGrant u c g s).2
  | .addGrant u c g => (addGrant u c g s).2
  | .update u c g f =>
    match dbGet ⟨u, some c, some g⟩ s with
    | .error _ => s
    | .ok r => s.mutate r (fun o => match o with | .grant gr => .grant (f gr) | o => o)
  | .store u c g =>
    match dbGet ⟨u, some c, some g⟩ s with
    | .error _ => s
    | .ok r => (dbSet ⟨u, some c, some g⟩ r s).2
  | .alias u c g sid =>
    match dbGet ⟨u, some c, some g⟩ s with
    | .error _ => s
    | .ok r => (aliasSid sid r s).2
  | .revokeGrant u c g => (revokeGrant ⟨u, some c, some g⟩ s).2
  | .revokeClientSession u c => (revokeClientSession u c s).2
  | .removeSession u c g => (removeSession u c g s).2

/-- The database after a history, starting from the empty one. -/
def history (ops : List SOp) : Store := ops.foldl runOp {}

/-- The identifiers of an operation are clean, `u` is the name of a user, and neither a client id nor a
session id is the name of a user. -/
def FairOp (U : String → Prop) : SOp → Prop
  | .createSession u c g => (SKey.gra u c g.id).Good U
  | .createGrant u c g => (SKey.gra u c g.id).Good U
  | .addGrant u c g => (SKey.gra u c g.id).Good U
  | .update u c g _ => (SKey.gra u c g).Good U
  | .store u c g => (SKey.gra u c g).Good U
  | .alias u c g sid => (SKey.gra u c g).Good U ∧ ';' ∉ sid.toList ∧ ¬ U sid
  | .revokeGrant u c g => (SKey.gra u c g).Good U
  | .revokeClientSession u c => (SKey.cli u c).Good U
  | .removeSession u c g => (SKey.gra u c g).Good U ∧ ¬ U c

/-- The ids of the grants that a history makes with `add_grant`. -/
def addedWith (ops : List SOp) (gid : String) : Prop :=
  ∃ u c g, SOp.addGrant u c g ∈ ops ∧ g.id = gid

end OidcOp.Spec
