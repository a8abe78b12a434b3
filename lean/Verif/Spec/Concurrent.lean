/-
Specification vocabulary for requests that are served at the same time (C126, C127, C128).
-/
import Verif.Model.Concurrent
import Verif.Spec.Session

namespace OidcOp.Spec

/-- The thread was asked for this URN and goes on with the request it has found. -/
def wentOn (uri : String) (t : String × ParAt) : Bool :=
  decide (t.1 = uri) && (match t.2 with
    | .goesOn _ => true
    | _ => false)

/-- The requests that were pushed, in order; the `k`-th was given the `k`-th URN. -/
def pushedIn (ops : List ParOp) : List AuthzReq := ops.filterMap (fun
  | .push r => some r
  | _ => none)

/-- The thread has an assertion with this issuer and jti, and has accepted it. -/
def acceptedAs (iss jti : String) (t : String × JtiAt) : Bool := decide (t = (jtiKey iss jti, .accepted))

/-- A session that is being created, by the login with this grant, was created to the end. -/
def Made (s : MakeWorld) (u c : String) (g : Grant) : Prop :=
  ∃ m ∈ s.threads, m.user = u ∧ m.client = c ∧ m.grant = g ∧ m.pc = .done

/-- The logins of a history: users, clients and grants. -/
def loginsIn (ops : List MakeOp) : List (String × String × Grant) := ops.filterMap (fun
  | .login u c g => some (u, c, g)
  | _ => none)

/-- Users, clients and grants have names as the provider makes them, and each grant has an id of its own. -/
structure OwnNames (s : Store) (ops : List MakeOp) : Prop where
  clean : ∀ u c g, (u, c, g) ∈ loginsIn ops → (SKey.gra u c g.id).Good (fun _ => True)
  distinct : ((loginsIn ops).map (fun x => x.2.2.id)).Nodup
  fresh : ∀ u c g, (u, c, g) ∈ loginsIn ops → s.db.has (key3 u c g.id) = false

end OidcOp.Spec
