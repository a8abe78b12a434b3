/-
What a browser does with the cookies of one site (RFC 6265, sections 5.2 and 5.3), as far as names, values and life times go (C109).
-/
import Verif.Base.Dict
import Verif.Base.Json
import Verif.Model.Cookie

namespace OidcOp.Spec

/-- A cookie in the browser: its value, and when it ends; `none` is the end of the browser's session. -/
structure Held where
  value : String
  ends : Option Int := none
  deriving DecidableEq, Repr

/-- When a cookie received at `now` ends.  "max-age" is a number of seconds and goes before "expires", which is a date. -/
def endOf (date : String → Option Int) (now : Int) (c : Dict Json) : Option Int :=
  match c.get? "max-age" with
  | some (.num n) => some (now + n)
  | _ =>
    match c.get? "expires" with
    | some (.str s) => date s
    | _ => none

/-- The text under a name. -/
def textOf (c : Dict Json) (k : String) : Option String :=
  match c.get? k with
  | some (.str s) => some s
  | _ => none

/-- The browser receives a cookie at `now`: it replaces one with the same name, or deletes it if the new one has ended. -/
def receive (date : String → Option Int) (now : Int) (jar : Dict Held) (c : Dict Json) : Dict Held :=
  match textOf c "name" with
  | none => jar
  | some n =>
    match endOf date now c with
    | none => jar.set n ⟨(textOf c "value").getD "", none⟩
    | some t => if t ≤ now then jar.erase n else jar.set n ⟨(textOf c "value").getD "", some t⟩

/-- The cookie of a name that the browser sends at an instant. -/
def sent (jar : Dict Held) (at' : Int) (n : String) : Option String :=
  match jar.get? n with
  | none => none
  | some h =>
    match h.ends with
    | none => some h.value
    | some t => if at' < t then some h.value else none

/-- What the provider gets as cookies of this name. -/
def sentList (jar : Dict Held) (at' : Int) (n : String) : List CookieData :=
  match sent jar at' n with
  | none => []
  | some v => [⟨n.toList, v.toList⟩]

/-- The attributes that are not flags. -/
def Reserved (k : String) : Prop := k = "name" ∨ k = "value" ∨ k = "expires" ∨ k = "max-age"

end OidcOp.Spec
