/-
A concrete cookie library; cookies that meet the hypotheses of the theorems, and cookies that refute C57 and C58.
-/
import Verif.Props.Cookie

namespace OidcOp
open Spec

namespace Ex

/-- An encoding without bars and spaces in place of base64: the code of each character, followed by a dot. -/
def dotEnc (s : Str) : Str := s.flatMap (fun c => natStr c.toNat ++ ['.'])

def dotDec (acc : Nat) : Str → Str
  | [] => []
  | c :: r => if c = '.' then Char.ofNat acc :: dotDec 0 r else dotDec (10 * acc + (c.toNat - '0'.toNat)) r

theorem dotDec_digits (ds : Str) (h : ∀ c ∈ ds, c.isDigit = true) (acc : Nat) (r : Str) :
    dotDec acc (ds ++ '.' :: r) = Char.ofNat (Nat.ofDigitChars 10 ds acc) :: dotDec 0 r := by
  induction ds generalizing acc with
  | nil => simp [dotDec]
  | cons c t ih =>
    have hc : c ≠ '.' := by
      rintro rfl
      have := h '.' List.mem_cons_self
      revert this
      decide
    rw [List.cons_append, dotDec, if_neg hc, ih (fun x hx => h x (List.mem_cons_of_mem _ hx))]
    rfl

theorem dotDec_dotEnc (s : Str) : dotDec 0 (dotEnc s) = s := by
  induction s with
  | nil => rfl
  | cons c t ih =>
    have : dotEnc (c :: t) = natStr c.toNat ++ '.' :: dotEnc t := by simp [dotEnc]
    rw [this, dotDec_digits _ (fun x hx => natStr_isDigit hx), ih, natStr, Nat.ofDigitChars_ten_toDigits]
    simp

theorem dotEnc_chars {s : Str} {c : Char} (h : c ∈ dotEnc s) : c.isDigit = true ∨ c = '.' := by
  simp only [dotEnc, List.mem_flatMap, List.mem_append, List.mem_singleton] at h
  obtain ⟨x, -, h | h⟩ := h
  · exact .inl (natStr_isDigit h)
  · exact .inr h

def cookieLib : CookieLib where
  mac m := 'm' :: m
  mac_ne := by simp
  enc n m := (natStr n, m, ['t'])
  dec x := if x.2.2 = ['t'] then some x.2.1 else none
  dec_enc := by simp
  b64e := dotEnc
  b64d s := some (dotDec 0 s)
  b64d_b64e s := by rw [dotDec_dotEnc]
  b64e_bar s h := by
    rcases dotEnc_chars h with h | h
    · revert h; decide
    · revert h; decide
  b64e_space s c h := by
    rcases dotEnc_chars h with h | h
    · exact isDigit_not_space h
    · subst h; decide

def signOnly : CookieConf := { lib := cookieLib, sign := true, enc := false }
def encOnly : CookieConf := { lib := cookieLib, sign := false, enc := true }
def signEnc : CookieConf := { lib := cookieLib, sign := true, enc := true }

def ckSession : CookieArgs :=
  { name := "oidc_op".toList, value := "{\"sid\": \"abc\"}".toList, typ := "sso".toList, stamp := 1600000000, nonce := 3 }
def ckOther : CookieArgs := { name := "x".toList, value := "a::b".toList, typ := [], stamp := 7, nonce := 4 }

def isInfixColons : Str → Bool
  | [] => false
  | [_] => false
  | a :: b :: r => (a == ':' && b == ':') || isInfixColons (b :: r)

theorem hasColons_iff (s : Str) : HasColons s ↔ isInfixColons s = true := by
  induction s with
  | nil =>
    simp only [isInfixColons, Bool.false_eq_true, iff_false]
    rintro ⟨a, b, h⟩
    simp at h
  | cons c t ih =>
    constructor
    · rintro ⟨a, b, h⟩
      cases a with
      | nil =>
        simp only [List.nil_append, List.cons_append, List.cons.injEq] at h
        obtain ⟨rfl, rfl⟩ := h
        rfl
      | cons d u =>
        simp only [List.cons_append, List.cons.injEq] at h
        have := ih.1 ⟨u, b, by simpa using h.2⟩
        cases t with
        | nil => simp [isInfixColons] at this
        | cons e v => simp [isInfixColons, this]
    · intro h
      cases t with
      | nil => simp [isInfixColons] at h
      | cons e v =>
        simp only [isInfixColons, Bool.or_eq_true, Bool.and_eq_true, beq_iff_eq] at h
        rcases h with ⟨rfl, rfl⟩ | h
        · exact ⟨[], v, rfl⟩
        · obtain ⟨a, b, e⟩ := ih.2 h
          exact ⟨c :: a, b, by rw [e]; rfl⟩
theorem tellable_ck (H : CookieConf) : Tellable H ckSession := by
  refine ⟨?_, ?_, .inl (by decide), fun _ => by decide⟩
  · rw [hasColons_iff]; decide
  · rw [hasColons_iff]; decide

/-- Of two cookies, the one with the name in question is read. -/
example : ∀ H ∈ [signOnly, encOnly, signEnc],
    parseCookie H "oidc_op".toList [ckOther.cookie H, ckSession.cookie H, ckSession.cookie H] =
      .ok (some [ckSession.info, ckSession.info]) := by
  intro H hH
  refine (C57_cookie_roundtrip_partial H ?_ _ [ckOther, ckSession, ckSession] (by simp) ?_).trans (by decide +kernel)
  · rw [List.mem_cons, List.mem_cons, List.mem_singleton] at hH
    rcases hH with rfl | rfl | rfl
    · exact .inl rfl
    · exact .inr rfl
    · exact .inl rfl
  · intro a ha hn
    simp only [List.mem_cons, List.not_mem_nil, or_false] at ha
    rcases ha with rfl | rfl | rfl
    · exact absurd hn (by decide)
    · exact tellable_ck H
    · exact tellable_ck H

/-- C57 is false for a value with `::` in it, whatever the keys: reading it raises ValueError. -/
theorem C57_colons_refuted : ∀ H ∈ [signOnly, encOnly, signEnc],
    parseCookie H "x".toList [ckOther.cookie H] = .error .valueError := by
  intro H hH
  simp only [List.mem_cons, List.not_mem_nil, or_false] at hH
  rcases hH with rfl | rfl | rfl <;> decide +kernel

/-- The value of the provider's session cookie is JSON with the client's "state" in it; here it has a bar. -/
def barred : CookieArgs :=
  { name := "oidc_op".toList, value := "{\"state\": \"a|b\"}".toList, typ := [], stamp := 1600000000, nonce := 3 }

/-- C57 is false for a value with a bar, if cookies are only signed. -/
theorem C57_bar_refuted : parseCookie signOnly "oidc_op".toList [barred.cookie signOnly] ≠ .ok (some [barred.info]) := by
  decide +kernel

/-- It is true if they are encrypted. -/
example : parseCookie signEnc "oidc_op".toList [barred.cookie signEnc] = .ok (some [barred.info]) := by decide +kernel

/-- What the server made. -/
def payload0 : Str := "{\"sid\": \"abc\"}::".toList
def stamp0 : Str := "1600000000".toList

/-- The digits of the time stamp have been moved to the payload, all but the last: now the type is "160000000" and the time
stamp "0". -/
def shifted : Str := pyJoin ['|'] ["0".toList, payload0 ++ "160000000".toList, dotEnc (cookieLib.mac (payload0 ++ stamp0))]

theorem shifted_parts :
    pySplit ['|'] shifted = ["0".toList, payload0 ++ "160000000".toList, dotEnc (cookieLib.mac (payload0 ++ stamp0))] := by
  decide +kernel

theorem shifted_fromServer : FromServer signOnly [(payload0, stamp0)] shifted := by
  constructor
  · intro ts payload m tag hp hb hm
    rw [shifted_parts] at hp
    simp only [List.cons.injEq, and_true] at hp
    obtain ⟨rfl, rfl, rfl⟩ := hp
    refine ⟨_, List.mem_singleton.2 rfl, ?_⟩
    have : signOnly.lib.b64d (dotEnc (cookieLib.mac (payload0 ++ stamp0))) = some (cookieLib.mac (payload0 ++ stamp0)) :=
      cookieLib.b64d_b64e (cookieLib.mac (payload0 ++ stamp0))
    rw [this] at hb
    cases hb
    rfl
  · intro ts a b c iv ctx tag msg hp
    rw [shifted_parts] at hp
    simp at hp

theorem macInjective : MacInjective signOnly := by
  intro m m' h
  have : 'm' :: m = 'm' :: m' := h
  simpa using this

/-- C58 is false for cookies that are only signed: this one is accepted, and the server made no cookie with this payload and
this time stamp. -/
theorem C58_signed_refuted : ¬ ∀ (H : CookieConf) (made : List (Str × Str)) (v payload stamp : Str), MacInjective H →
    FromServer H made v → verDecContent H (pySplit ['|'] v) = .ok (some (payload, stamp)) → (payload, stamp) ∈ made := by
  intro h
  have := h signOnly [(payload0, stamp0)] shifted (payload0 ++ "160000000".toList) "0".toList macInjective
    shifted_fromServer (by rw [shifted_parts]; decide +kernel)
  revert this
  decide +kernel

/-- … and `parse_cookie` reads it. -/
example : parseCookie signOnly "oidc_op".toList [⟨"oidc_op".toList, shifted⟩] =
    .ok (some [⟨"{\"sid\": \"abc\"}".toList, "160000000".toList, "0".toList⟩]) := by decide +kernel

example : ∃ q ∈ [(payload0, stamp0)], (payload0 ++ "160000000".toList) ++ "0".toList = q.1 ++ q.2 ∧
    ("0".toList.length = q.2.length → (payload0 ++ "160000000".toList, "0".toList) = q) :=
  C58_signed_partial signOnly macInjective _ shifted _ _ _ _ _ shifted_fromServer shifted_parts
    (by rw [shifted_parts]; decide +kernel)

/-- An encrypted cookie of the server's. -/
def ckSealed : Str := signEncPayload signEnc 9 payload0 stamp0

theorem sealed_parts : pySplit ['|'] ckSealed =
    [stamp0, dotEnc (natStr 9), dotEnc (cookieMsg signEnc payload0 stamp0), dotEnc ['t']] := by decide +kernel

theorem sealed_fromServer : FromServer signEnc [(payload0, stamp0)] ckSealed := by
  constructor
  · intro ts payload m tag hp
    rw [sealed_parts] at hp
    simp at hp
  · intro ts a b c iv ctx tag msg hp ha hb hc hd
    rw [sealed_parts] at hp
    simp only [List.cons.injEq, and_true] at hp
    obtain ⟨rfl, rfl, rfl, rfl⟩ := hp
    have e : ∀ s, signEnc.lib.b64d (dotEnc s) = some s := cookieLib.b64d_b64e
    rw [e] at ha hb hc
    cases ha; cases hb; cases hc
    exact ⟨_, List.mem_singleton.2 rfl, 9, rfl⟩

example : (payload0, stamp0) ∈ [(payload0, stamp0)] :=
  C58_encrypted_authentic signEnc _ (by
      intro q hq
      rw [List.mem_singleton] at hq
      subst hq
      exact ⟨1600000000, by decide +kernel⟩)
    ckSealed _ _ _ _ payload0 stamp0 sealed_fromServer sealed_parts (by decide +kernel)

example : (pySplit ['|'] "a|b".toList).length ≠ 3 ∧ (pySplit ['|'] "a|b".toList).length ≠ 4 := by decide

/-- A hash of one character, and two session states that differ in the state of the cookie. -/
def ckHash (s : Str) : Str := [Char.ofNat (97 + s.length)]

example : "c".toList = "c".toList ∧ "https://rp".toList = "https://rp".toList ∧ "op".toList = "op".toList ∧
    "s".toList = "s".toList :=
  C71_session_state ckHash 1 (fun _ => rfl) _ _ _ _ _ _ _ _ (by decide) (by decide) (by decide) (by decide) (fun _ => rfl) rfl

example : sessionState ckHash "op".toList "s".toList "c".toList "https://rp".toList ≠
    sessionState ckHash "op2".toList "s".toList "c".toList "https://rp".toList := by decide +kernel

end Ex

end OidcOp
