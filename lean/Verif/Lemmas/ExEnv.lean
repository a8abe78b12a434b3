/-
A concrete environment: the laws assumed of an `Env` can be met, and concrete histories can be run.
-/
import Verif.Model.World

namespace OidcOp.Ex
open OidcOp

/-- Escape one character so that neither blanks nor semicolons remain, and 'e' is free to end a piece. -/
def esc (c : Char) : Str :=
  if c = ' ' then ['x', 's'] else if c = ';' then ['x', 'c'] else if c = 'e' then ['x', 'f']
  else if c = 'x' then ['x', 'x'] else [c]

/-- A list of texts as one text. -/
def enc (parts : List Str) : Str := parts.flatMap (fun p => p.flatMap esc ++ ['e'])

/-- Inverse of `enc`; `q` says that the last character was the escape character. -/
def dec : Str → Bool → Str → List Str
  | [], _, _ => []
  | c :: r, true, cur =>
    dec r false ((if c = 's' then ' ' else if c = 'c' then ';' else if c = 'f' then 'e' else 'x') :: cur)
  | c :: r, false, cur =>
    if c = 'e' then cur.reverse :: dec r false []
    else if c = 'x' then dec r true cur
    else dec r false (c :: cur)

theorem dec_part (p : Str) : ∀ (rest cur : Str),
    dec (p.flatMap esc ++ rest) false cur = dec rest false (p.reverse ++ cur) := by
  induction p with
  | nil => intro rest cur; rfl
  | cons c p ih =>
    intro rest cur
    rw [List.flatMap_cons, List.append_assoc, List.reverse_cons, List.append_assoc]
    have hc : ∀ x cur', dec (esc c ++ x) false cur' = dec x false (c :: cur') := by
      intro x cur'
      unfold esc
      split
      · rename_i h; subst h; simp [dec]
      · split
        · rename_i h; subst h; simp [dec]
        · split
          · rename_i h; subst h; simp [dec]
          · split
            · rename_i h; subst h; simp [dec]
            · rename_i h1 h2
              simp [dec, h1, h2]
    rw [hc, ih]
    rfl

theorem dec_enc (ps : List Str) : dec (enc ps) false [] = ps := by
  induction ps with
  | nil => rfl
  | cons p ps ih =>
    unfold enc
    rw [List.flatMap_cons, List.append_assoc, dec_part]
    simp only [List.append_nil, List.cons_append, List.nil_append, dec, if_true, List.reverse_reverse]
    rw [show dec (List.flatMap (fun p => List.flatMap esc p ++ ['e']) ps) false [] = ps from ih]

theorem enc_clean (ps : List Str) : ∀ c ∈ enc ps, c ≠ ' ' ∧ c ≠ ';' := by
  intro c hc
  unfold enc at hc
  simp only [List.mem_flatMap, List.mem_append, List.mem_singleton] at hc
  obtain ⟨p, _, ⟨a, _, h⟩ | h⟩ := hc
  · unfold esc at h
    split at h
    · simp at h; rcases h with rfl | rfl <;> decide
    · split at h
      · simp at h; rcases h with rfl | rfl <;> decide
      · split at h
        · simp at h; rcases h with rfl | rfl <;> decide
        · split at h
          · simp at h; subst h; decide
          · rename_i h1 h2 _ _
            simp at h; subst h; exact ⟨h1, h2⟩
  · subst h; decide

/-- A name for a token class. -/
def tag : TokenClass → Str
  | .authorizationCode => ['a']
  | .accessToken => ['t']
  | .refreshToken => ['r']
  | .idToken => ['i']
  | .other n => 'o' :: n.toList

theorem tag_inj {c c' : TokenClass} (h : tag c = tag c') : c = c' := by
  cases c <;> cases c' <;> simp [tag] at h ⊢
  exact String.toList_inj.1 h

/-- Text of token number `n`. -/
def val (n : Nat) (c : TokenClass) (s : String) : Str := List.replicate n 'n' ++ 'c' :: enc [tag c, s.toList]

theorem val_inj {n n' : Nat} {x y : Str} (h : List.replicate n 'n' ++ 'c' :: x = List.replicate n' 'n' ++ 'c' :: y) :
    n = n' ∧ x = y := by
  induction n generalizing n' with
  | zero =>
    cases n' with
    | zero => simpa using h
    | succ m => simp [List.replicate_succ] at h
  | succ m ih =>
    cases n' with
    | zero => simp [List.replicate_succ] at h
    | succ m' =>
      simp only [List.replicate_succ, List.cons_append, List.cons.injEq, true_and] at h
      obtain ⟨h1, h2⟩ := ih h
      exact ⟨by omega, h2⟩

theorem ofList_inj {a b : Str} (h : String.ofList a = String.ofList b) : a = b := by
  have := congrArg String.toList h
  simpa using this

/-- What is inside a token value: class and session id. -/
def inside (v : Str) : List Str := dec ((v.dropWhile (· == 'n')).drop 1) false []

theorem inside_val (n : Nat) (c : TokenClass) (s : String) : inside (val n c s) = [tag c, s.toList] := by
  have h : (val n c s).dropWhile (· == 'n') = 'c' :: enc [tag c, s.toList] := by
    unfold val
    induction n with
    | zero => simp
    | succ m ih => rw [List.replicate_succ]; simp [ih]
  unfold inside
  rw [h]
  exact dec_enc _

/-- The token handlers of the concrete environment. -/
def info (v : String) : Except Exc (Option String) :=
  match inside v.toList with
  | [_, s] => .ok (some (String.ofList s))
  | _ => .error .unknownToken

/-- A concrete environment with a given configuration and given failures of token handlers. -/
def env (cfg : TokenCfg) (authz : AuthzCfg) (fail : Nat → TokenClass → Option Exc) : Env where
  cfg := cfg
  authz := authz
  mkVal n c s := String.ofList (val n c s)
  fail := fail
  info v _ := info v
  encSid _ parts := String.ofList (enc (parts.map String.toList))
  decrypt s := .ok ((dec s.toList false []).map String.ofList)
  uuid n := String.ofList (List.replicate (n + 1) 'u')
  subOf u _ := u
  claims _ _ _ := .ok []
  filter _ l := l
  deliverable _ := true
  mkVal_inj := by
    intro n c s n' c' s' _ _ h
    obtain ⟨h1, h2⟩ := val_inj (ofList_inj h)
    have h3 := congrArg (fun x => dec x false []) h2
    simp only [dec_enc] at h3
    simp only [List.cons.injEq, and_true, String.toList_inj] at h3
    exact ⟨h1, tag_inj h3.1, h3.2⟩
  mkVal_ne n c s _ h := by
    have := ofList_inj (a := val n c s) (b := []) (by rw [h])
    simp [val] at this
  mkVal_plus n c s _ := by
    unfold spaceToPlus
    congr 1
    simp only [String.toList_ofList]
    have : ∀ x ∈ val n c s, (if x = ' ' then '+' else x) = x := by
      intro x hx
      rw [if_neg]
      unfold val at hx
      simp only [List.mem_append, List.mem_cons] at hx
      rcases hx with h | rfl | h
      · rw [List.eq_of_mem_replicate h]; decide
      · decide
      · exact (enc_clean _ x h).1
    rw [List.map_congr_left this]
    simp
  info_seal := by
    intro n c s t s' _ h
    unfold info at h
    rw [String.toList_ofList, inside_val] at h
    simp at h
    exact h.symm
  decrypt_enc n u c g _ _ _ := by
    rw [String.toList_ofList, dec_enc]
    simp
  encSid_clean n u c g _ _ _ := by
    rw [String.toList_ofList]
    intro h
    exact (enc_clean _ _ h).2 rfl
  uuid_clean n := by
    refine ⟨⟨?_, ?_⟩, ?_⟩
    rotate_left 2
    · rintro ⟨pre, c, h, hc⟩
      rw [String.toList_ofList] at h
      have : c ∈ List.replicate (n + 1) 'u' := by rw [h]; simp
      rw [List.eq_of_mem_replicate this] at hc
      exact absurd hc (by decide)
    · intro h
      have := ofList_inj (a := List.replicate (n + 1) 'u') (b := []) (by rw [h])
      simp at this
    · rw [String.toList_ofList]
      intro h
      have := List.eq_of_mem_replicate h
      exact absurd this (by decide)
  uuid_inj := by
    intro n n' h
    have := congrArg List.length (ofList_inj h)
    simpa using this

end OidcOp.Ex
