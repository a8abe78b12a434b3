/-
C64: the page of a form_post response.
-/
import Verif.Model.Response

namespace OidcOp

namespace Spec

/-- What a browser makes of the fields: the names and values between the quotes of the `input` elements. -/
def readField (s : List Char) : Option ((String × String) × List Char) :=
  let pre := "<input type=\"hidden\" name=\"".toList
  let mid := "\" value=\"".toList
  let post := "\"/>".toList
  if pre.isPrefixOf s then
    let s := s.drop pre.length
    let name := s.takeWhile (· != '"')
    let s := s.dropWhile (· != '"')
    if mid.isPrefixOf s then
      let s := s.drop mid.length
      let value := s.takeWhile (· != '"')
      let s := s.dropWhile (· != '"')
      if post.isPrefixOf s then some ((String.ofList name, String.ofList value), s.drop post.length) else none
    else none
  else none

/-- The fields of a sequence of elements on separate lines; `fuel` bounds their number. -/
def readFields : Nat → List Char → Option (List (String × String))
  | 0, _ => none
  | _ + 1, [] => some []
  | fuel + 1, s =>
    match readField s with
    | none => none
    | some (p, '\n' :: r) => (readFields fuel r).map (p :: ·)
    | some (p, []) => some [p]
    | some _ => none

end Spec
open Spec

theorem takeWhile_stop {p : Char → Bool} {a r : List Char} {c : Char} (ha : ∀ x ∈ a, p x = true) (hc : p c = false) :
    (a ++ c :: r).takeWhile p = a ∧ (a ++ c :: r).dropWhile p = c :: r := by
  induction a with
  | nil => simp [hc]
  | cons x xs ih =>
    have h1 := ha x List.mem_cons_self
    obtain ⟨h2, h3⟩ := ih (fun y hy => ha y (List.mem_cons_of_mem _ hy))
    simp [h1, h2, h3]

theorem isPrefixOf_append (a b : List Char) : a.isPrefixOf (a ++ b) = true := by
  induction a with
  | nil => rfl
  | cons x xs ih => simp

theorem readField_inputField (n v : String) (hn : '"' ∉ n.toList) (hv : '"' ∉ v.toList) (r : List Char) :
    readField ((inputField n v).toList ++ r) = some ((n, v), r) := by
  have hq : ∀ {s : String}, '"' ∉ s.toList → ∀ x ∈ s.toList, (x != '"') = true := by
    intro s hs x hx
    simp only [bne_iff_ne, ne_eq]
    rintro rfl
    exact hs hx
  have e : (inputField n v).toList ++ r =
      "<input type=\"hidden\" name=\"".toList ++ (n.toList ++ '"' :: (" value=\"".toList ++ (v.toList ++ '"' :: ("/>".toList ++ r)))) := by
    unfold inputField
    simp only [String.toList_append, List.append_assoc]
    rfl
  rw [e]
  unfold readField
  simp only [isPrefixOf_append, if_true, List.drop_left]
  obtain ⟨h1, h2⟩ := takeWhile_stop (r := " value=\"".toList ++ (v.toList ++ '"' :: ("/>".toList ++ r))) (hq hn) (c := '"') (by decide)
  rw [h1, h2]
  have e2 : '"' :: (" value=\"".toList ++ (v.toList ++ '"' :: ("/>".toList ++ r))) =
      "\" value=\"".toList ++ (v.toList ++ '"' :: ("/>".toList ++ r)) := rfl
  rw [e2]
  simp only [isPrefixOf_append, if_true, List.drop_left]
  obtain ⟨h3, h4⟩ := takeWhile_stop (r := "/>".toList ++ r) (hq hv) (c := '"') (by decide)
  rw [h3, h4]
  have e3 : '"' :: ("/>".toList ++ r) = "\"/>".toList ++ r := rfl
  rw [e3]
  simp only [isPrefixOf_append, if_true, List.drop_left, String.ofList_toList]

theorem inputs_cons (n v : String) (q : String × String) (r : List (String × String)) :
    (inputs ((n, v) :: q :: r)).toList = (inputField n v).toList ++ '\n' :: (inputs (q :: r)).toList := by
  unfold inputs
  simp only [List.map_cons]
  rw [String.toList_intercalate, String.toList_intercalate]
  simp [List.intercalate]

/-- C64, the part that holds.  If no name and no value contains a quotation mark, the fields of the page are the parameters
of the response.  Missing from C64: values with a quotation mark, which are not escaped. -/
theorem C64_fields_partial (args : List (String × String)) (h : ∀ p ∈ args, '"' ∉ p.1.toList ∧ '"' ∉ p.2.toList) :
    readFields (args.length + 1) (inputs args).toList = some args := by
  induction args with
  | nil => rfl
  | cons p r ih =>
    obtain ⟨n, v⟩ := p
    obtain ⟨hn, hv⟩ := h _ List.mem_cons_self
    have ih' := ih (fun q hq => h q (List.mem_cons_of_mem _ hq))
    have hhead : ∀ x, ((inputField n v).toList ++ x) ≠ [] := by
      intro x hx
      have : (inputField n v).toList = [] := (List.append_eq_nil_iff.1 hx).1
      unfold inputField at this
      simp at this
    cases r with
    | nil =>
      have e : (inputs [(n, v)]).toList = (inputField n v).toList ++ [] := by simp [inputs]
      rw [e]
      have hr := readField_inputField n v hn hv []
      unfold readFields
      split
      · rename_i h0; cases h0
      · rename_i h0; exact absurd ‹_› (hhead _)
      · simp only [hr]
    | cons q r =>
      rw [inputs_cons]
      have hr := readField_inputField n v hn hv ('\n' :: (inputs (q :: r)).toList)
      unfold readFields
      split
      · rename_i h0; cases h0
      · rename_i h0; exact absurd ‹_› (hhead _)
      · simp only [hr]
        rw [show (q :: r).length + 1 = (r.length + 1) + 1 from rfl] at ih'
        first
          | rw [ih']; rfl
          | (simp_all; done)

/-- C64 does not hold: a "state" chosen by the client adds a field of its own, the page is the same as one with two
parameters. -/
theorem C64_extra_field_refuted :
    ¬ (∀ args : List (String × String), readFields (args.length + 2) (inputs args).toList = some args) := by
  intro H
  have h := H [("state", "x\"/>\n<input type=\"hidden\" name=\"code\" value=\"evil")]
  revert h
  decide +kernel

/-- C64 does not hold: a parameter value adds markup to the page, here the number of `<` is not that of the page for other
values of the same parameters. -/
theorem C64_markup_refuted :
    ¬ (∀ (args args' : List (String × String)) (action : String), args.map Prod.fst = args'.map Prod.fst →
      (formPost args action).toList.count '<' = (formPost args' action).toList.count '<') := by
  intro H
  have h := H [("state", "\"/><script>alert(1)</script>")] [("state", "x")] "https://rp/cb" rfl
  revert h
  decide +kernel

/-- The partial theorem speaks about ordinary values. -/
example : readFields 3 (inputs [("code", "Z0FBQUFB=="), ("state", "a<b>&c")]).toList =
    some [("code", "Z0FBQUFB=="), ("state", "a<b>&c")] :=
  C64_fields_partial [("code", "Z0FBQUFB=="), ("state", "a<b>&c")] (by decide)

end OidcOp
