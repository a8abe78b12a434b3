/-
Specification vocabulary for redirect URIs and response types (C30-C32, C67).
-/
import Verif.Model.Uri

namespace OidcOp.Spec

/-- The same query parameters: the same names, and for each the same set of values. -/
def SameParams (q r : Dict (List String)) : Prop :=
  ∀ k, (q.get? k = none ∧ r.get? k = none) ∨
    ∃ vs ws, q.get? k = some vs ∧ r.get? k = some ws ∧ ∀ v, v ∈ vs ↔ v ∈ ws

/-- The base and the query parameters of a registered URI. -/
def RegBase : RegUri → String
  | .plain s => s
  | .pair b _ => b

def RegParams : RegUri → Dict (List String)
  | .plain _ => []
  | .pair _ q => q

/-- After percent-decoding the URI has no fragment, and its base and its query parameters are those of the registered
one. -/
def Matches (L : UriLib) (uri : String) (r : RegUri) : Prop :=
  L.fragment (L.unquote uri) = "" ∧ (L.split (L.unquote uri)).1 = RegBase r ∧
    SameParams (L.split (L.unquote uri)).2 (RegParams r)

/-- The same set of strings. -/
def SameSet (a b : List String) : Prop := ∀ x, x ∈ a ↔ x ∈ b

/-- `r` consists of the words `ws`, with one space between two words. -/
def Words (r : String) (ws : List String) : Prop :=
  ws ≠ [] ∧ (∀ w ∈ ws, ' ' ∉ w.toList) ∧ r.toList = pyJoin [' '] (ws.map String.toList)

/-- Dictionaries have one entry for each key. -/
def WellFormedReg (r : RegUri) : Prop := (RegParams r).keys.Nodup

end OidcOp.Spec
