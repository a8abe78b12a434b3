/-
Model of the encodings in util.py and session/database.py.
-/
import Verif.Base.Str
namespace OidcOp

/-- util.py:114-124 `lv_pack`: every value preceded by its length and a colon. -/
def lvPack (vals : List Str) : Str :=
  (vals.map (fun a => natStr a.length ++ ':' :: a)).flatten

theorem splitFirst_length {c : Char} {s a b : Str} (h : splitFirst c s = some (a, b)) :
    b.length < s.length := by
  induction s generalizing a b with
  | nil => simp [splitFirst] at h
  | cons x xs ih =>
    simp only [splitFirst] at h
    split at h
    · simp at h; obtain ⟨_, rfl⟩ := h; simp
    · cases hs : splitFirst c xs with
      | none => simp [hs] at h
      | some p =>
        obtain ⟨a', b'⟩ := p
        simp [hs] at h
        obtain ⟨_, rfl⟩ := h
        have := ih hs
        simp only [List.length_cons]; omega

theorem pyDrop_length (n : Int) (v : Str) : (pyDrop n v).length ≤ v.length := by
  unfold pyDrop; split <;> simp [List.length_drop]

set_option linter.unusedVariables false in
/-- util.py:134-139, the `while txt` loop of `lv_unpack`. Lean accepts the recursion because the rest
is always shorter, so the Python loop terminates on every input. -/
def lvUnpackLoop (txt : Str) : Except Exc (List Str) :=
  if txt = [] then .ok []
  else
    match h : splitFirst ':' txt with
    | none => .error .valueError          -- tuple unpacking of a one element list
    | some (l, v) =>
      match pyInt l with
      | .error e => .error e
      | .ok n =>
        match lvUnpackLoop (pyDrop n v) with
        | .error e => .error e
        | .ok rest => .ok (pyTake n v :: rest)
termination_by txt.length
decreasing_by
  have h1 := splitFirst_length h
  have h2 := pyDrop_length n v
  omega

/-- util.py:127-140 `lv_unpack` -/
def lvUnpack (txt : Str) : Except Exc (List Str) := lvUnpackLoop (pyStrip txt)

/-- constant.py:1 `DIVIDER` -/
def divider : Str := [';', ';']

/-- session/database.py:175-176 `session_key` -/
def sessionKey (ids : List Str) : Str := pyJoin divider ids

/-- session/database.py:178-179 `unpack_session_key` -/
def unpackSessionKey (key : Str) : List Str := pySplit divider key

/-- An ideal symmetric cipher with text output: stands for Fernet composed with base64
(session/database.py:183-185, 189). `nonce` is the randomness of one encryption. -/
structure Cipher where
  enc : Nat → Str → Str
  dec : Str → Option Str
  dec_enc : ∀ nonce p, dec (enc nonce p) = some p

/-- Number of bytes of the UTF-8 encoding. -/
def utf8Len (s : Str) : Nat := (s.map (fun c => c.utf8Size)).sum

/-- util.py:148-153 `Crypt.encrypt`: pad with spaces to a multiple of 16 bytes, then encrypt. -/
def cryptEncrypt (C : Cipher) (nonce : Nat) (text : Str) : Str :=
  let pad := if utf8Len text % 16 ≠ 0 then 16 - utf8Len text % 16 else 0
  C.enc nonce (text ++ List.replicate pad ' ')

/-- util.py:155-158 `Crypt.decrypt`: decrypt and strip trailing spaces. `none`: the cipher refuses. -/
def cryptDecrypt (C : Cipher) (ct : Str) : Option Str :=
  (C.dec ct).map (rstripP (· == ' '))

/-- session/database.py:181-185 `encrypted_session_id`; `rnd` is `rndstr(32)`. -/
def encryptedSessionId (C : Cipher) (nonce : Nat) (rnd : Str) (ids : List Str) : Str :=
  cryptEncrypt C nonce (lvPack [rnd, sessionKey ids])

/-- session/database.py:187-196 `decrypt_session_id` -/
def decryptSessionId (C : Cipher) (key : Str) : Except Exc (List Str) :=
  match cryptDecrypt C key with
  | none => .error .valueError
  | some plain =>
    match lvUnpack plain with
    | .error e => .error e
    | .ok (_ :: k :: _) => .ok (unpackSessionKey k)
    | .ok _ => .error .indexError

end OidcOp
