/-
Python's `==` and `in` on the values that travel as claims.
-/
import Verif.Base.Dict
import Verif.Base.Json
import Verif.Base.Exc

namespace OidcOp

/-- Python counts `True` and `False` as the numbers 1 and 0. -/
def Json.number : Json → Option Int
  | .bool b => some (if b then 1 else 0)
  | .num n => some n
  | _ => none

mutual
/-- Python's `==`: `True == 1`, lists element by element, dictionaries without regard to the order of their keys. -/
def pyEq : Json → Json → Bool
  | .null, y => y = .null
  | .bool b, y => y.number = some (if b then 1 else 0)
  | .num n, y => y.number = some n
  | .str s, y => y = .str s
  | .arr l, .arr l' => pyEqL l l'
  | .arr _, _ => false
  | .obj d, .obj d' => pyEqO d d' && d'.all (fun p => Dict.has d p.1)
  | .obj _, _ => false
def pyEqL : List Json → List Json → Bool
  | [], [] => true
  | x :: xs, y :: ys => pyEq x y && pyEqL xs ys
  | _, _ => false
def pyEqO : List (String × Json) → List (String × Json) → Bool
  | [], _ => true
  | (k, x) :: xs, d' =>
    (match Dict.get? d' k with
      | some y => pyEq x y
      | none => false) && pyEqO xs d'
end

/-- Whether `v` can be the key of a dictionary. -/
def Json.hashable : Json → Bool
  | .arr _ | .obj _ => false
  | _ => true

/-- `x in y` for strings: `x` occurs in `y`. -/
def isInfix (x : List Char) : List Char → Bool
  | [] => x.isEmpty
  | c :: cs => x.isPrefixOf (c :: cs) || isInfix x cs

/-- Python's `v in c`. -/
def pyIn (v : Json) : Json → Except Exc Bool
  | .arr l => .ok (l.any (fun y => pyEq v y))
  | .obj d => if v.hashable then .ok (d.any (fun p => pyEq v (.str p.1))) else .error .typeError
  | .str s =>
    match v with
    | .str x => .ok (isInfix x.toList s.toList)
    | _ => .error .typeError
  | _ => .error .typeError

/-- Strings are equal in Python exactly if they are the same. -/
theorem pyEq_str (s : String) (y : Json) : pyEq (.str s) y = true ↔ y = .str s := by
  unfold pyEq; simp

theorem pyEq_num (n : Int) (y : Json) :
    pyEq (.num n) y = true ↔ y = .num n ∨ (n = 1 ∧ y = .bool true) ∨ (n = 0 ∧ y = .bool false) := by
  unfold pyEq
  cases y <;> simp [Json.number]
  · rename_i b; cases b <;> simp <;> constructor <;> (intro h; exact h.symm)

end OidcOp
