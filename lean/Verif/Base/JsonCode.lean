/-
A prefix code for `Json`, used only to build concrete instances of parameters (a toy JWT library) for examples.
-/
import Verif.Base.Json

namespace OidcOp.Json

def codeChars : List Char → List Char
  | [] => ['.']
  | c :: r => 'c' :: c :: codeChars r

/-- Binary digits, the last one first; the first number bounds how many. -/
def codeBits : Nat → Nat → List Char
  | 0, _ => ['.']
  | k + 1, n => if n = 0 then ['.'] else (if n % 2 = 1 then 'i' else 'o') :: codeBits k (n / 2)

def codeNat (n : Nat) : List Char := codeBits n n

mutual
def code : Json → List Char
  | .null => ['n']
  | .bool true => ['t']
  | .bool false => ['f']
  | .num (.ofNat n) => '+' :: codeNat n
  | .num (.negSucc n) => '-' :: codeNat n
  | .str s => '"' :: codeChars s.toList
  | .arr l => '[' :: codeL l
  | .obj l => '{' :: codeO l
def codeL : List Json → List Char
  | [] => [']']
  | j :: r => ',' :: (code j ++ codeL r)
def codeO : List (String × Json) → List Char
  | [] => ['}']
  | (k, j) :: r => ',' :: (codeChars k.toList ++ code j ++ codeO r)
end

/-! ### Reading -/

def readChars : List Char → Option (List Char × List Char)
  | '.' :: r => some ([], r)
  | 'c' :: c :: r => match readChars r with
    | some (l, x) => some (c :: l, x)
    | none => none
  | _ => none

def readNat : List Char → Option (Nat × List Char)
  | '.' :: r => some (0, r)
  | 'i' :: r => match readNat r with
    | some (n, x) => some (2 * n + 1, x)
    | none => none
  | 'o' :: r => match readNat r with
    | some (n, x) => some (2 * n, x)
    | none => none
  | _ => none

mutual
def read : Nat → List Char → Option (Json × List Char)
  | 0, _ => none
  | _ + 1, 'n' :: r => some (.null, r)
  | _ + 1, 't' :: r => some (.bool true, r)
  | _ + 1, 'f' :: r => some (.bool false, r)
  | _ + 1, '+' :: r => match readNat r with
    | some (n, x) => some (.num (.ofNat n), x)
    | none => none
  | _ + 1, '-' :: r => match readNat r with
    | some (n, x) => some (.num (.negSucc n), x)
    | none => none
  | _ + 1, '"' :: r => match readChars r with
    | some (l, x) => some (.str (String.ofList l), x)
    | none => none
  | k + 1, '[' :: r => match readL k r with
    | some (l, x) => some (.arr l, x)
    | none => none
  | k + 1, '{' :: r => match readO k r with
    | some (l, x) => some (.obj l, x)
    | none => none
  | _ + 1, _ => none
def readL : Nat → List Char → Option (List Json × List Char)
  | 0, _ => none
  | _ + 1, ']' :: r => some ([], r)
  | k + 1, ',' :: r => match read k r with
    | none => none
    | some (j, y) => match readL k y with
      | some (l, x) => some (j :: l, x)
      | none => none
  | _ + 1, _ => none
def readO : Nat → List Char → Option (List (String × Json) × List Char)
  | 0, _ => none
  | _ + 1, '}' :: r => some ([], r)
  | k + 1, ',' :: r => match readChars r with
    | none => none
    | some (n, z) => match read k z with
      | none => none
      | some (j, y) => match readO k y with
        | some (l, x) => some ((String.ofList n, j) :: l, x)
        | none => none
  | _ + 1, _ => none
end

theorem readChars_code : ∀ (l x : List Char), readChars (codeChars l ++ x) = some (l, x)
  | [], x => rfl
  | c :: r, x => by
    show readChars ('c' :: c :: (codeChars r ++ x)) = _
    rw [readChars, readChars_code r x]

theorem codeChars_inj {a b x y : List Char} (h : codeChars a ++ x = codeChars b ++ y) : a = b ∧ x = y := by
  have h1 := readChars_code a x
  rw [h, readChars_code] at h1
  simpa using h1.symm

theorem readNat_code : ∀ (k n : Nat) (x : List Char), n ≤ k → readNat (codeBits k n ++ x) = some (n, x)
  | 0, n, x, h => by
    have : n = 0 := by omega
    subst this
    rfl
  | k + 1, n, x, h => by
    by_cases h0 : n = 0
    · subst h0
      rfl
    · rw [codeBits, if_neg h0]
      have ih := readNat_code k (n / 2) x (by omega)
      by_cases h1 : n % 2 = 1
      · rw [if_pos h1, List.cons_append, readNat, ih]
        simp only [Option.some.injEq, Prod.mk.injEq, and_true]
        omega
      · rw [if_neg h1, List.cons_append, readNat, ih]
        simp only [Option.some.injEq, Prod.mk.injEq, and_true]
        omega

mutual
theorem read_code : ∀ (a : Json) (k : Nat) (x : List Char), (code a).length ≤ k → read k (code a ++ x) = some (a, x)
  | a, 0, x, h => by
    cases a with
    | bool b => cases b <;> simp [code] at h
    | num n => cases n <;> simp [code] at h
    | _ => simp [code] at h
  | .null, k + 1, x, h => rfl
  | .bool true, k + 1, x, h => rfl
  | .bool false, k + 1, x, h => rfl
  | .num (.ofNat n), k + 1, x, h => by
    rw [code, List.cons_append, read, codeNat, readNat_code n n x (Nat.le_refl _)]
  | .num (.negSucc n), k + 1, x, h => by
    rw [code, List.cons_append, read, codeNat, readNat_code n n x (Nat.le_refl _)]
  | .str s, k + 1, x, h => by
    rw [code, List.cons_append, read, readChars_code]
    simp
  | .arr l, k + 1, x, h => by
    rw [code, List.cons_append, read, readL_code l k x (by simp [code] at h; omega)]
  | .obj l, k + 1, x, h => by
    rw [code, List.cons_append, read, readO_code l k x (by simp [code] at h; omega)]
theorem readL_code : ∀ (a : List Json) (k : Nat) (x : List Char), (codeL a).length ≤ k → readL k (codeL a ++ x) = some (a, x)
  | [], 0, x, h => by simp [codeL] at h
  | _ :: _, 0, x, h => by simp [codeL] at h
  | [], k + 1, x, h => rfl
  | j :: r, k + 1, x, h => by
    simp only [codeL, List.length_cons, List.length_append] at h
    rw [codeL, List.cons_append, List.append_assoc, readL, read_code j k _ (by omega)]
    simp only []
    rw [readL_code r k x (by omega)]
theorem readO_code : ∀ (a : List (String × Json)) (k : Nat) (x : List Char), (codeO a).length ≤ k →
    readO k (codeO a ++ x) = some (a, x)
  | [], 0, x, h => by simp [codeO] at h
  | (_, _) :: _, 0, x, h => by simp [codeO] at h
  | [], k + 1, x, h => rfl
  | (n, j) :: r, k + 1, x, h => by
    simp only [codeO, List.length_cons, List.length_append] at h
    rw [codeO, List.cons_append, List.append_assoc, List.append_assoc, readO, readChars_code]
    simp only []
    rw [read_code j k _ (by omega)]
    simp only []
    rw [readO_code r k x (by omega)]
    simp
end

/-- Reading the whole text. -/
def readAll (t : List Char) : Option (List (String × Json)) :=
  match readO t.length t with
  | some (l, []) => some l
  | _ => none

theorem readAll_code (a : List (String × Json)) : readAll (codeO a) = some a := by
  unfold readAll
  have := readO_code a (codeO a).length [] (Nat.le_refl _)
  rw [List.append_nil] at this
  rw [this]

theorem codeO_injective {a b : List (String × Json)} (h : codeO a = codeO b) : a = b := by
  have h1 := readAll_code a
  rw [h, readAll_code b] at h1
  exact (Option.some.inj h1).symm

end OidcOp.Json
