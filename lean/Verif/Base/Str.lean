/-
Python string operations on `List Char`.
-/
import Verif.Base.Exc
namespace OidcOp

/-- A Python `str` as a list of code points. -/
abbrev Str := List Char

/-- The code points removed by `str.strip()` without argument (`str.isspace`). -/
def pyIsSpace (c : Char) : Bool :=
  let n := c.toNat
  (9 ≤ n && n ≤ 13) || (28 ≤ n && n ≤ 32) || n == 0x85 || n == 0xa0 || n == 0x1680 ||
  (0x2000 ≤ n && n ≤ 0x200a) || n == 0x2028 || n == 0x2029 || n == 0x202f || n == 0x205f || n == 0x3000

/-- `s.rstrip(p)` for a predicate on characters. -/
def rstripP (p : Char → Bool) (s : Str) : Str := (s.reverse.dropWhile p).reverse

/-- `s.strip()` -/
def pyStrip (s : Str) : Str := rstripP pyIsSpace (s.dropWhile pyIsSpace)

/-- `s.split(c, 1)`: the parts before and after the first `c`, or `none` if `c` does not occur. -/
def splitFirst (c : Char) : Str → Option (Str × Str)
  | [] => none
  | x :: xs => if x = c then some ([], xs) else (splitFirst c xs).map (fun p => (x :: p.1, p.2))

/-- Worker of `pySplit`: `skip` characters of a separator still to be skipped, `cur` the current piece
(reversed). -/
def pySplitGo (sep : Str) : Nat → Str → Str → List Str
  | _, cur, [] => [cur.reverse]
  | skip + 1, cur, _ :: cs => pySplitGo sep skip cur cs
  | 0, cur, c :: cs =>
    if sep.isPrefixOf (c :: cs) then cur.reverse :: pySplitGo sep (sep.length - 1) [] cs
    else pySplitGo sep 0 (c :: cur) cs

/-- `s.split(sep)` for a non-empty separator: leftmost, non-overlapping occurrences. -/
def pySplit (sep s : Str) : List Str := pySplitGo sep 0 [] s

/-- `sep.join(parts)` -/
def pyJoin (sep : Str) : List Str → Str
  | [] => []
  | [a] => a
  | a :: b :: r => a ++ sep ++ pyJoin sep (b :: r)

/-- `v[:n]` -/
def pyTake (n : Int) (v : Str) : Str :=
  if 0 ≤ n then v.take n.toNat else v.take (v.length - (-n).toNat)

/-- `v[n:]` -/
def pyDrop (n : Int) (v : Str) : Str :=
  if 0 ≤ n then v.drop n.toNat else v.drop (v.length - (-n).toNat)

/-- Digits with single underscores between them, as `int()` accepts; `acc` is the value so far.
`prev` tells whether the previous character was a digit. ASCII digits only (Python also accepts
other Unicode decimal digits; not modelled). -/
def parseDigits : Bool → Nat → Str → Option Nat
  | prev, acc, [] => if prev then some acc else none
  | prev, acc, c :: cs =>
    if c.isDigit then parseDigits true (acc * 10 + (c.toNat - '0'.toNat)) cs
    else if c = '_' ∧ prev = true ∧ cs ≠ [] then parseDigits false acc cs
    else none

/-- `int(s)`: surrounding white space and a sign are allowed. -/
def pyInt (s : Str) : Except Exc Int :=
  match pyStrip s with
  | '-' :: r => match parseDigits false 0 r with
    | some n => .ok (-(n : Int))
    | none => .error .valueError
  | '+' :: r => match parseDigits false 0 r with
    | some n => .ok n
    | none => .error .valueError
  | r => match parseDigits false 0 r with
    | some n => .ok n
    | none => .error .valueError

/-- `str(n)` for a length. -/
def natStr (n : Nat) : Str := Nat.toDigits 10 n

end OidcOp
