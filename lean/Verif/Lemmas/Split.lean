/-
`str.split` and `str.join` with a separator of one character.
-/
import Verif.Base.Str

namespace OidcOp

theorem pySplitGo_sep1 (c d : Char) (cur cs : Str) :
    pySplitGo [c] 0 cur (d :: cs) =
      if c = d then cur.reverse :: pySplitGo [c] 0 [] cs else pySplitGo [c] 0 (d :: cur) cs := by
  by_cases h : c = d
  · subst h; simp [pySplitGo, List.isPrefixOf]
  · simp [pySplitGo, List.isPrefixOf, h]

theorem splitGo1_piece (c : Char) (a : Str) (h : c ∉ a) (cur rest : Str) :
    pySplitGo [c] 0 cur (a ++ c :: rest) = (cur.reverse ++ a) :: pySplitGo [c] 0 [] rest := by
  induction a generalizing cur with
  | nil => rw [List.nil_append, pySplitGo_sep1, if_pos rfl, List.append_nil]
  | cons d ds ih =>
    have h1 : c ≠ d := fun e => h (by rw [e]; simp)
    rw [List.cons_append, pySplitGo_sep1, if_neg h1, ih (fun m => h (List.mem_cons_of_mem _ m))]
    simp

theorem splitGo1_last (c : Char) (a : Str) (h : c ∉ a) (cur : Str) : pySplitGo [c] 0 cur a = [cur.reverse ++ a] := by
  induction a generalizing cur with
  | nil => simp [pySplitGo]
  | cons d ds ih =>
    have h1 : c ≠ d := fun e => h (by rw [e]; simp)
    rw [pySplitGo_sep1, if_neg h1, ih (fun m => h (List.mem_cons_of_mem _ m))]
    simp

/-- Splitting what was joined gives back the parts. -/
theorem pySplit1_join (c : Char) (ws : List Str) (hne : ws ≠ []) (h : ∀ w ∈ ws, c ∉ w) :
    pySplit [c] (pyJoin [c] ws) = ws := by
  induction ws with
  | nil => exact absurd rfl hne
  | cons a r ih =>
    cases r with
    | nil => simp only [pyJoin, pySplit]; rw [splitGo1_last c a (h a (by simp))]; rfl
    | cons b r =>
      have ih' := ih (by simp) (fun w hw => h w (List.mem_cons_of_mem _ hw))
      simp only [pySplit, pyJoin, List.append_assoc, List.singleton_append] at ih' ⊢
      rw [splitGo1_piece c a (h a (by simp)), ih']
      rfl

theorem splitGo1_ne_nil (c : Char) (s cur : Str) : pySplitGo [c] 0 cur s ≠ [] := by
  induction s generalizing cur with
  | nil => simp [pySplitGo]
  | cons d ds ih => rw [pySplitGo_sep1]; split <;> simp [ih]

theorem splitGo1_join (c : Char) (s cur : Str) : pyJoin [c] (pySplitGo [c] 0 cur s) = cur.reverse ++ s := by
  induction s generalizing cur with
  | nil => simp [pySplitGo, pyJoin]
  | cons d ds ih =>
    rw [pySplitGo_sep1]
    split
    · rename_i h
      subst h
      have := ih []
      cases hq : pySplitGo [c] 0 [] ds with
      | nil => exact absurd hq (splitGo1_ne_nil _ _ _)
      | cons y ys =>
        rw [hq] at this
        simp only [pyJoin]
        rw [this]
        simp
    · rw [ih]; simp

theorem splitGo1_free (c : Char) (s cur : Str) (hc : c ∉ cur) : ∀ w ∈ pySplitGo [c] 0 cur s, c ∉ w := by
  induction s generalizing cur with
  | nil => simpa [pySplitGo] using hc
  | cons d ds ih =>
    rw [pySplitGo_sep1]
    split
    · intro w hw
      rcases List.mem_cons.1 hw with rfl | hw
      · simpa using hc
      · exact ih [] (by simp) w hw
    · rename_i h
      exact ih (d :: cur) (by simp [h, hc])

theorem pySplit1_ne_nil (c : Char) (s : Str) : pySplit [c] s ≠ [] := splitGo1_ne_nil c s []
theorem pyJoin_pySplit1 (c : Char) (s : Str) : pyJoin [c] (pySplit [c] s) = s := by
  simpa [pySplit] using splitGo1_join c s []
theorem pySplit1_free (c : Char) (s : Str) : ∀ w ∈ pySplit [c] s, c ∉ w := splitGo1_free c s [] (by simp)

end OidcOp
