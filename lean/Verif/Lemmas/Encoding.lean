import Verif.Model.Util
import Verif.Spec.Encoding
namespace OidcOp
open Spec

/-! ### rstrip -/

theorem rstripP_append_all {p : Char → Bool} {a b : Str} (h : ∀ c ∈ b, p c = true) :
    rstripP p (a ++ b) = rstripP p a := by
  unfold rstripP
  rw [List.reverse_append, List.dropWhile_append_of_pos]
  intro c hc; exact h c (by simpa using hc)

theorem rstripP_append_last {p : Char → Bool} {a : Str} {c : Char} (h : p c = false) :
    rstripP p (a ++ [c]) = a ++ [c] := by
  simp [rstripP, h]

theorem rstripP_decomp (p : Char → Bool) (s : Str) :
    ∃ ws, s = rstripP p s ++ ws ∧ (∀ c ∈ ws, p c = true) ∧
      (rstripP p s = [] ∨ ∃ pre c, rstripP p s = pre ++ [c] ∧ p c = false) := by
  refine ⟨(s.reverse.takeWhile p).reverse, ?_, ?_, ?_⟩
  · have := List.takeWhile_append_dropWhile (p := p) (l := s.reverse)
    have h2 := congrArg List.reverse this
    simp only [List.reverse_append, List.reverse_reverse] at h2
    exact h2.symm
  · intro c hc
    have : c ∈ s.reverse.takeWhile p := by simpa using hc
    exact List.all_eq_true.1 (List.all_takeWhile (p := p) (l := s.reverse)) c this
  · unfold rstripP
    cases h : s.reverse.dropWhile p with
    | nil => left; simp
    | cons c r =>
      right
      refine ⟨r.reverse, c, by simp, ?_⟩
      have hne : s.reverse.dropWhile p ≠ [] := by simp [h]
      have := List.head_dropWhile_not p (l := s.reverse) hne
      simpa [h] using this

theorem rstripP_append_nonempty {p : Char → Bool} {a b : Str}
    (h : ∃ c ∈ b, p c = false) : rstripP p (a ++ b) = a ++ rstripP p b := by
  obtain ⟨ws, hs, hall, hlast⟩ := rstripP_decomp p b
  rcases hlast with h0 | ⟨pre, c, hc, hpc⟩
  · exfalso
    obtain ⟨c, hc, hpc⟩ := h
    rw [hs, h0] at hc
    simp at hc
    simp [hall c hc] at hpc
  · have e1 : a ++ b = (a ++ pre ++ [c]) ++ ws := by
      conv => lhs; rw [hs, hc]
      simp
    rw [e1, rstripP_append_all hall, rstripP_append_last hpc, hc]
    simp

theorem rstripP_idem_of_not {p : Char → Bool} {s : Str}
    (h : ¬ ∃ pre c, s = pre ++ [c] ∧ p c = true) : rstripP p s = s := by
  rcases List.eq_nil_or_concat s with h0 | ⟨a, c, rfl⟩
  · subst h0; rfl
  · have : p c = false := by
      cases hc : p c with
      | false => rfl
      | true => exact absurd ⟨a, c, by simp, hc⟩ h
    simpa using rstripP_append_last this

theorem isRTrimOf_rstrip (s : Str) : IsRTrimOf (rstripP pyIsSpace s) s := by
  obtain ⟨ws, hs, hall, hlast⟩ := rstripP_decomp pyIsSpace s
  refine ⟨?_, ws, hs, hall⟩
  rintro ⟨pre, c, he, hc⟩
  rcases hlast with h0 | ⟨pre', c', he', hc'⟩
  · rw [h0] at he; simp at he
  · rw [he] at he'
    have := List.append_inj' he' rfl
    simp at this
    rw [this.2] at hc
    simp [hc] at hc'

theorem isRTrimOf_unique {t s : Str} (h : IsRTrimOf t s) : t = rstripP pyIsSpace s := by
  obtain ⟨hn, ws, rfl, hall⟩ := h
  rw [rstripP_append_all hall, rstripP_idem_of_not hn]

theorem rstrip_eq_self_iff (s : Str) : rstripP pyIsSpace s = s ↔ ¬ EndsInSpace s := by
  constructor
  · intro h
    have := (isRTrimOf_rstrip s).1
    rwa [h] at this
  · exact rstripP_idem_of_not

/-! ### decimal numbers -/

theorem natStr_ne_nil (n : Nat) : natStr n ≠ [] := Nat.toDigits_ne_nil

theorem natStr_isDigit {n : Nat} {c : Char} (h : c ∈ natStr n) : c.isDigit = true :=
  Nat.isDigit_of_mem_toDigits (by decide) (by decide) h

theorem isDigit_not_space {c : Char} (h : c.isDigit = true) : pyIsSpace c = false := by
  simp [Char.isDigit] at h
  have h1 : 48 ≤ c.toNat := by simpa [UInt32.le_iff_toNat_le] using h.1
  have h2 : c.toNat ≤ 57 := by simpa [UInt32.le_iff_toNat_le] using h.2
  simp [pyIsSpace]
  omega

theorem parseDigits_of_digits (ds : Str) (h : ∀ c ∈ ds, c.isDigit = true) (prev : Bool) (acc : Nat)
    (hne : ds ≠ [] ∨ prev = true) :
    parseDigits prev acc ds = some (Nat.ofDigitChars 10 ds acc) := by
  induction ds generalizing prev acc with
  | nil => simp at hne; simp [parseDigits, hne]
  | cons c cs ih =>
    have hc := h c (by simp)
    simp only [parseDigits, hc, if_true]
    rw [ih (fun x hx => h x (by simp [hx])) true _ (Or.inr rfl), Nat.ofDigitChars_cons]
    simp [Nat.mul_comm]

theorem dropWhile_eq_self_of_head {p : Char → Bool} {c : Char} {r : Str} (h : p c = false) :
    (c :: r).dropWhile p = c :: r := by simp [List.dropWhile, h]

theorem pyStrip_eq_rstrip {c : Char} {r : Str} (h : pyIsSpace c = false) :
    pyStrip (c :: r) = rstripP pyIsSpace (c :: r) := by
  simp [pyStrip, List.dropWhile, h]

theorem pyInt_natStr (n : Nat) : pyInt (natStr n) = .ok (n : Int) := by
  have hd : ∀ c ∈ natStr n, c.isDigit = true := fun c hc => natStr_isDigit hc
  have hp : parseDigits false 0 (natStr n) = some n := by
    rw [parseDigits_of_digits _ hd _ _ (Or.inl (natStr_ne_nil n))]
    simp [natStr, Nat.ofDigitChars_ten_toDigits]
  have hs : pyStrip (natStr n) = natStr n := by
    cases hx : natStr n with
    | nil => exact absurd hx (natStr_ne_nil n)
    | cons c r =>
      rw [hx] at hd
      rw [pyStrip_eq_rstrip (isDigit_not_space (hd c (by simp)))]
      apply rstripP_idem_of_not
      rintro ⟨pre, d, he, hdsp⟩
      have : d ∈ c :: r := by rw [he]; simp
      have := isDigit_not_space (hd d this)
      simp [this] at hdsp
  unfold pyInt
  rw [hs]
  have hm : ∀ r, natStr n ≠ '-' :: r := by
    intro r he; have := hd '-' (by rw [he]; simp); simp [Char.isDigit] at this
  have hpl : ∀ r, natStr n ≠ '+' :: r := by
    intro r he; have := hd '+' (by rw [he]; simp); simp [Char.isDigit] at this
  split
  · rename_i r he; exact absurd he (hm r)
  · rename_i r he; exact absurd he (hpl r)
  · rw [hp]

theorem splitFirst_of_not_mem {c : Char} {a b : Str} (h : c ∉ a) :
    splitFirst c (a ++ c :: b) = some (a, b) := by
  induction a with
  | nil => simp [splitFirst]
  | cons x xs ih =>
    simp only [List.mem_cons, not_or] at h
    simp [splitFirst, ih h.2, Ne.symm h.1]

theorem colon_not_mem_natStr (n : Nat) : ':' ∉ natStr n := by
  intro h; have := natStr_isDigit h; simp [Char.isDigit] at this

/-! ### lv_unpack after lv_pack -/

theorem lvUnpackLoop_nil : lvUnpackLoop [] = .ok [] := by
  rw [lvUnpackLoop]; simp

theorem lvUnpackLoop_step (n : Nat) (body : Str) :
    lvUnpackLoop (natStr n ++ ':' :: body) =
      match lvUnpackLoop (body.drop n) with
      | .error e => .error e
      | .ok rest => .ok (body.take n :: rest) := by
  rw [lvUnpackLoop]
  have hne : natStr n ++ ':' :: body ≠ [] := by simp
  rw [if_neg hne]
  have hs := splitFirst_of_not_mem (b := body) (colon_not_mem_natStr n)
  split
  · rename_i h; rw [hs] at h; simp at h
  · rename_i l v h
    rw [hs] at h
    simp at h
    obtain ⟨rfl, rfl⟩ := h
    rw [pyInt_natStr]
    simp only [pyDrop, pyTake, Int.natCast_nonneg, if_true, Int.toNat_natCast]
    cases lvUnpackLoop (List.drop n body) <;> rfl

/-- The values with trailing white space of the last one removed. -/
def trimLast : List Str → List Str
  | [] => []
  | [a] => [rstripP pyIsSpace a]
  | a :: b :: r => a :: trimLast (b :: r)

theorem lvPack_cons (a : Str) (r : List Str) :
    lvPack (a :: r) = natStr a.length ++ ':' :: (a ++ lvPack r) := by
  simp [lvPack]

theorem lvPack_head (a : Str) (r : List Str) :
    ∃ d t, lvPack (a :: r) = d :: t ∧ d.isDigit = true := by
  cases hx : natStr a.length with
  | nil => exact absurd hx (natStr_ne_nil _)
  | cons d t =>
    refine ⟨d, t ++ ':' :: (a ++ lvPack r), ?_, natStr_isDigit (n := a.length) (by rw [hx]; simp)⟩
    rw [lvPack_cons, hx]; rfl

theorem lvUnpackLoop_rstrip (vals : List Str) :
    lvUnpackLoop (rstripP pyIsSpace (lvPack vals)) = .ok (trimLast vals) := by
  induction vals with
  | nil => simp [lvPack, rstripP, lvUnpackLoop_nil, trimLast]
  | cons a r ih =>
    cases r with
    | nil =>
      have e : lvPack [a] = (natStr a.length ++ [':']) ++ a := by simp [lvPack]
      have e2 : rstripP pyIsSpace (lvPack [a]) = natStr a.length ++ ':' :: rstripP pyIsSpace a := by
        obtain ⟨ws, hs, hall, -⟩ := rstripP_decomp pyIsSpace a
        rw [e]
        by_cases hx : ∃ c ∈ a, pyIsSpace c = false
        · rw [rstripP_append_nonempty hx]; simp
        · have hall' : ∀ c ∈ a, pyIsSpace c = true := by
            intro c hc
            cases h : pyIsSpace c with
            | true => rfl
            | false => exact absurd ⟨c, hc, h⟩ hx
          rw [rstripP_append_all hall', rstripP_append_last (by decide)]
          have : rstripP pyIsSpace a = [] := by
            have := rstripP_append_all (p := pyIsSpace) (a := []) hall'
            simpa [rstripP] using this
          simp [this]
      rw [e2, lvUnpackLoop_step]
      have hl : (rstripP pyIsSpace a).length ≤ a.length := by
        obtain ⟨ws, hs, -, -⟩ := rstripP_decomp pyIsSpace a
        have := congrArg List.length hs
        simp at this; omega
      rw [List.drop_eq_nil_of_le hl, lvUnpackLoop_nil, List.take_of_length_le hl]
      simp [trimLast]
    | cons b r =>
      obtain ⟨d, t, hd, hdig⟩ := lvPack_head b r
      have hex : ∃ c ∈ lvPack (b :: r), pyIsSpace c = false :=
        ⟨d, by rw [hd]; simp, isDigit_not_space hdig⟩
      have e : lvPack (a :: b :: r) = (natStr a.length ++ ':' :: a) ++ lvPack (b :: r) := by
        rw [lvPack_cons]; simp
      rw [e, rstripP_append_nonempty hex]
      rw [List.append_assoc, List.cons_append, lvUnpackLoop_step]
      simp only [List.drop_left, List.take_left, ih, trimLast]

theorem lvUnpack_lvPack (vals : List Str) : lvUnpack (lvPack vals) = .ok (trimLast vals) := by
  cases vals with
  | nil => simp [lvUnpack, lvPack, pyStrip, rstripP, lvUnpackLoop_nil, trimLast]
  | cons a r =>
    obtain ⟨d, t, hd, hdig⟩ := lvPack_head a r
    unfold lvUnpack
    rw [hd, pyStrip_eq_rstrip (isDigit_not_space hdig), ← hd, lvUnpackLoop_rstrip]

theorem trimLast_concat (l : List Str) (a : Str) :
    trimLast (l ++ [a]) = l ++ [rstripP pyIsSpace a] := by
  induction l with
  | nil => rfl
  | cons x xs ih =>
    cases xs with
    | nil => rfl
    | cons y ys => simp only [List.cons_append, trimLast]; simpa using ih

/-- trailing white space after the packed text does not matter -/
theorem lvUnpack_lvPack_pad (vals : List Str) (hne : vals ≠ []) (pad : Nat) :
    lvUnpack (rstripP (· == ' ') (lvPack vals ++ List.replicate pad ' ')) = .ok (trimLast vals) := by
  cases vals with
  | nil => exact absurd rfl hne
  | cons a r =>
    rw [rstripP_append_all (by intro c hc; simp [List.mem_replicate] at hc; simp [hc.2])]
    obtain ⟨d, t, hd, hdig⟩ := lvPack_head a r
    -- removing spaces first does not change what strip leaves
    obtain ⟨ws, hs, hall, -⟩ := rstripP_decomp (· == ' ') (lvPack (a :: r))
    have hsp : ∀ c ∈ ws, pyIsSpace c = true := by
      intro c hc
      have := hall c hc
      simp at this; subst this; decide
    have hhead : ∃ t', rstripP (· == ' ') (lvPack (a :: r)) = d :: t' := by
      cases hx : rstripP (· == ' ') (lvPack (a :: r)) with
      | nil =>
        rw [hx, hd] at hs
        have : d ∈ ws := by simp at hs; rw [← hs]; simp
        have h1 := hsp d this
        rw [isDigit_not_space hdig] at h1; simp at h1
      | cons x y =>
        rw [hx, hd] at hs
        simp at hs
        exact ⟨y, by rw [hs.1]⟩
    obtain ⟨t', ht'⟩ := hhead
    unfold lvUnpack
    rw [ht', pyStrip_eq_rstrip (isDigit_not_space hdig), ← ht']
    have : rstripP pyIsSpace (lvPack (a :: r)) =
        rstripP pyIsSpace (rstripP (· == ' ') (lvPack (a :: r))) := by
      conv => lhs; rw [hs]
      exact rstripP_append_all hsp
    rw [← this, lvUnpackLoop_rstrip]

/-! ### split and join with `;;` -/

theorem divider_prefix_iff (s : Str) : divider.isPrefixOf s = true ↔ ∃ r, s = ';' :: ';' :: r := by
  constructor
  · intro h
    match s with
    | [] => simp [divider] at h
    | [a] => simp [divider] at h
    | a :: b :: r =>
      simp [divider] at h
      exact ⟨r, by rw [← h.1, ← h.2]⟩
  · rintro ⟨r, rfl⟩; simp [divider, List.isPrefixOf]

/-- a piece that neither contains the divider nor ends in `;` is cut off whole -/
theorem splitGo_piece (a : Str) (h1 : ¬ ContainsDivider a) (h2 : ¬ EndsInSemicolon a) (cur rest : Str) :
    pySplitGo divider 0 cur (a ++ divider ++ rest) =
      (cur.reverse ++ a) :: pySplitGo divider 0 [] rest := by
  induction a generalizing cur with
  | nil => simp [divider, pySplitGo, List.isPrefixOf]
  | cons c cs ih =>
    have h1' : ¬ ContainsDivider cs := by
      rintro ⟨x, y, he⟩; exact h1 ⟨c :: x, y, by simp [he]⟩
    have h2' : ¬ EndsInSemicolon cs := by
      rintro ⟨x, he⟩; exact h2 ⟨c :: x, by simp [he]⟩
    have hp : divider.isPrefixOf (c :: (cs ++ divider ++ rest)) = false := by
      cases hb : divider.isPrefixOf (c :: (cs ++ divider ++ rest)) with
      | false => rfl
      | true =>
        obtain ⟨r, hr⟩ := (divider_prefix_iff _).1 hb
        simp only [List.cons.injEq] at hr
        obtain ⟨rfl, hr⟩ := hr
        cases cs with
        | nil => exact absurd ⟨[], rfl⟩ h2
        | cons d ds =>
          simp at hr
          obtain ⟨rfl, -⟩ := hr
          exact absurd ⟨[], ds, by simp⟩ h1
    simp only [List.cons_append, pySplitGo, hp]
    rw [if_neg (by simp), ih h1' h2']
    simp

theorem splitGo_last (a : Str) (h1 : ¬ ContainsDivider a) (cur : Str) :
    pySplitGo divider 0 cur a = [cur.reverse ++ a] := by
  induction a generalizing cur with
  | nil => simp [pySplitGo]
  | cons c cs ih =>
    have h1' : ¬ ContainsDivider cs := by
      rintro ⟨x, y, he⟩; exact h1 ⟨c :: x, y, by simp [he]⟩
    have hp : divider.isPrefixOf (c :: cs) = false := by
      cases hb : divider.isPrefixOf (c :: cs) with
      | false => rfl
      | true =>
        obtain ⟨r, hr⟩ := (divider_prefix_iff _).1 hb
        exact absurd ⟨[], r, by simpa using hr⟩ h1
    simp only [pySplitGo, hp]
    rw [if_neg (by simp), ih h1']
    simp

theorem split_join_of_separable (ids : List Str) (hne : ids ≠ []) (h : Separable ids) :
    unpackSessionKey (sessionKey ids) = ids := by
  induction ids with
  | nil => exact absurd rfl hne
  | cons a r ih =>
    cases r with
    | nil =>
      simp only [sessionKey, pyJoin, unpackSessionKey, pySplit]
      rw [splitGo_last a (h.1 a (by simp))]; simp
    | cons b r =>
      have hs : Separable (b :: r) := by
        refine ⟨fun x hx => h.1 x (by simp at hx ⊢; right; exact hx), fun x hx => h.2 x ?_⟩
        simp [List.dropLast] at hx ⊢; right; exact hx
      have ih' := ih (by simp) hs
      simp only [sessionKey, unpackSessionKey, pySplit] at ih' ⊢
      simp only [pyJoin]
      rw [splitGo_piece a (h.1 a (by simp)) (h.2 a (by simp [List.dropLast])), ih']
      simp

/-- every piece returned by split is free of the divider and all but the last do not end in `;` -/
theorem splitGo_separable (s : Str) :
    ∀ (skip : Nat) (cur : Str), skip ≤ 1 → (skip = 1 → cur = [] ∧ ∃ r, s = ';' :: r) →
      ¬ ContainsDivider cur.reverse →
      (skip = 0 → EndsInSemicolon cur.reverse → ∀ r, s ≠ ';' :: r) →
      Separable (pySplitGo divider skip cur s) := by
  induction s with
  | nil =>
    intro skip cur _ _ hc _
    cases skip <;> exact ⟨by simpa [pySplitGo] using hc, by simp [pySplitGo]⟩
  | cons c cs ih =>
    intro skip cur hle hskip hc hend
    match skip with
    | 1 =>
      obtain ⟨rfl, r, hr⟩ := hskip rfl
      simp only [pySplitGo]
      exact ih 0 [] (by omega) (by simp) hc (by rintro _ ⟨x, hx⟩; simp at hx)
    | 0 =>
      simp only [pySplitGo]
      by_cases hp : divider.isPrefixOf (c :: cs) = true
      · rw [if_pos hp]
        obtain ⟨r, hr⟩ := (divider_prefix_iff _).1 hp
        simp only [List.cons.injEq] at hr
        obtain ⟨rfl, rfl⟩ := hr
        have := ih 1 [] (by omega) (fun _ => ⟨rfl, r, rfl⟩) (by rintro ⟨x, y, he⟩; simp at he)
          (by simp)
        have hcur : ¬ EndsInSemicolon cur.reverse := fun h => hend rfl h _ rfl
        have hlen : divider.length - 1 = 1 := rfl
        rw [hlen]
        refine ⟨?_, ?_⟩
        · intro x hx
          rcases List.mem_cons.1 hx with rfl | hx
          · exact hc
          · exact this.1 x hx
        · intro x hx
          cases hq : pySplitGo divider 1 [] (';' :: r) with
          | nil => rw [hq] at hx; simp at hx
          | cons y ys =>
            rw [hq] at hx this
            rw [List.dropLast_cons_of_ne_nil (by simp)] at hx
            rcases List.mem_cons.1 hx with rfl | hx
            · exact hcur
            · exact this.2 x hx
      · rw [if_neg hp]
        apply ih 0 (c :: cur) (by omega) (by simp)
        · rintro ⟨x, y, he⟩
          simp only [List.reverse_cons] at he
          rcases List.eq_nil_or_concat y with rfl | ⟨y', d, rfl⟩
          · simp only [List.append_nil] at he
            have he' : cur.reverse ++ [c] = (x ++ [';']) ++ [';'] := by simpa using he
            obtain ⟨e1, e2⟩ := List.append_inj' he' rfl
            simp at e2; subst e2
            exact hend rfl ⟨x, e1⟩ cs rfl
          · have he' : cur.reverse ++ [c] = (x ++ [';', ';'] ++ y') ++ [d] := by simpa using he
            obtain ⟨e1, -⟩ := List.append_inj' he' rfl
            exact hc ⟨x, y', e1⟩
        · rintro _ ⟨x, hx⟩ r rfl
          simp only [List.reverse_cons] at hx
          obtain ⟨-, e2⟩ := List.append_inj' hx rfl
          simp at e2; subst e2
          apply hp; simp [divider, List.isPrefixOf]

theorem unpack_separable (s : Str) : Separable (unpackSessionKey s) :=
  splitGo_separable s 0 [] (by omega) (by simp) (by rintro ⟨x, y, he⟩; simp at he)
    (by rintro _ ⟨x, hx⟩; simp at hx)

theorem unpack_ne_nil (s : Str) : unpackSessionKey s ≠ [] := by
  have : ∀ (s : Str) skip cur, pySplitGo divider skip cur s ≠ [] := by
    intro s
    induction s with
    | nil => intro skip cur; cases skip <;> simp [pySplitGo]
    | cons c cs ih =>
      intro skip cur
      cases skip with
      | zero => simp only [pySplitGo]; split <;> simp [ih]
      | succ n => simp only [pySplitGo]; exact ih _ _
  exact this s 0 []

end OidcOp
namespace OidcOp
open Spec

theorem lvUnpackLoop_lvPack (vals : List Str) : lvUnpackLoop (lvPack vals) = .ok vals := by
  induction vals with
  | nil => simp [lvPack, lvUnpackLoop_nil]
  | cons a r ih =>
    rw [lvPack_cons, lvUnpackLoop_step]
    simp [ih]

theorem splitGo_join (s : Str) : ∀ cur : Str,
    (pyJoin divider (pySplitGo divider 0 cur s) = cur.reverse ++ s) ∧
    (∀ r, s = ';' :: r → pyJoin divider (pySplitGo divider 1 [] s) = r) := by
  induction s with
  | nil => intro cur; simp [pySplitGo, pyJoin]
  | cons c cs ih =>
    intro cur
    constructor
    · simp only [pySplitGo]
      split
      · rename_i hp
        obtain ⟨r, hr⟩ := (divider_prefix_iff _).1 hp
        simp only [List.cons.injEq] at hr
        obtain ⟨rfl, rfl⟩ := hr
        have h1 := (ih []).2 r rfl
        have hlen : divider.length - 1 = 1 := rfl
        rw [hlen]
        cases hq : pySplitGo divider 1 [] (';' :: r) with
        | nil => exact absurd (by simpa [pySplitGo, unpackSessionKey, pySplit] using hq) (unpack_ne_nil r)
        | cons y ys =>
          rw [hq] at h1
          simp only [pyJoin]
          rw [h1]; simp [divider]
      · rw [(ih (c :: cur)).1]; simp
    · intro r hr
      simp only [List.cons.injEq] at hr
      obtain ⟨rfl, rfl⟩ := hr
      simp only [pySplitGo]
      have := (ih []).1
      simpa using this

theorem session_key_unpack (k : Str) : sessionKey (unpackSessionKey k) = k := by
  have := (splitGo_join k []).1
  simpa [sessionKey, unpackSessionKey, pySplit] using this

theorem lvUnpackLoop_total (txt : Str) :
    (∃ l, lvUnpackLoop txt = .ok l) ∨ lvUnpackLoop txt = .error .valueError := by
  have hint : ∀ s e, pyInt s = .error e → e = .valueError := by
    intro s e h
    unfold pyInt at h
    split at h <;> (split at h <;> simp_all)
  induction hn : txt.length using Nat.strongRecOn generalizing txt with
  | _ n ih =>
    rw [lvUnpackLoop]
    split
    · exact Or.inl ⟨[], rfl⟩
    · split
      · exact Or.inr rfl
      · rename_i l v h
        cases hi : pyInt l with
        | error e => right; simp [hint l e hi]
        | ok m =>
          have h1 := splitFirst_length h
          have h2 := pyDrop_length m v
          rcases ih (pyDrop m v).length (by omega) (pyDrop m v) rfl with ⟨l', hl⟩ | he
          · left; exact ⟨pyTake m v :: l', by simp only [hl]⟩
          · right; simp only [he]

end OidcOp
