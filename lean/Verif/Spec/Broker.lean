/-
Which authentication methods there are after a history (C110).
-/
import Verif.Model.Broker

namespace OidcOp.Spec

/-- What is registered under an id after one more step, when `was` was registered: adding a method with its acr, removing it. -/
def thenUnder (k : String) (was : Option AuthnMethod) : BrokerOp → Option AuthnMethod
  | .add k' i =>
    if k' = k then
      match i.acr, i.method with
      | some a, some m => some { id := m, acr := a, expiresIn := i.expiresIn }
      | _, _ => was
    else was
  | .del k' => if k' = k then none else was

/-- What is registered under an id after a history. -/
def under (k : String) (ops : List BrokerOp) : Option AuthnMethod := ops.foldl (thenUnder k) none

/-- No method is added under an id that is taken. -/
def NoneReplaced (ops : List BrokerOp) : Prop :=
  ∀ before k i after, ops = before ++ .add k i :: after → under k before = none

/-- The methods `ms` are those registered for an acr, each once. -/
def ForAcr (ops : List BrokerOp) (acr : String) (ms : List AuthnMethod) : Prop :=
  ∃ ks : List String, ks.Nodup ∧ ms.map some = ks.map (fun k => under k ops) ∧
    ∀ k, k ∈ ks ↔ ∃ m, under k ops = some m ∧ m.acr = acr

/-- A value that Python can look up in a dictionary. -/
def CanBeKey : Json → Prop
  | .arr _ => False
  | .obj _ => False
  | _ => True

end OidcOp.Spec
