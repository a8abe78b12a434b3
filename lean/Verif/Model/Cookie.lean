/-
Model of cookie_handler.py.

Bytes are strings of characters: UTF-8 encoding respects concatenation and is injective, so the MAC of concatenated bytes is
the MAC of concatenated strings.  Keys are part of the library; an encryption key of a wrong size (cookie_handler.py:116-117),
`max_age` and the flags of the cookie (lines 226-235) are in Model/CookieFlags.
-/
import Verif.Model.Util

namespace OidcOp

/-- HMAC, AES-GCM and base64, under the handler's keys. -/
structure CookieLib where
  mac : Str → Str
  mac_ne : ∀ m, mac m ≠ []
  /-- the initialisation vector, the cipher text and the tag -/
  enc : Nat → Str → Str × Str × Str
  dec : Str × Str × Str → Option Str
  dec_enc : ∀ n m, dec (enc n m) = some m
  b64e : Str → Str
  b64d : Str → Option Str
  b64d_b64e : ∀ s, b64d (b64e s) = some s
  /-- the output of base64 has neither bars nor white space -/
  b64e_bar : ∀ s, '|' ∉ b64e s
  b64e_space : ∀ s, ∀ c ∈ b64e s, pyIsSpace c = false

/-- A handler has a key for signing, one for encryption, or both. -/
structure CookieConf where
  lib : CookieLib
  sign : Bool
  enc : Bool

/-- A cookie, and what is read from one. -/
structure CookieData where
  name : Str
  value : Str
  deriving DecidableEq, Repr

structure CookieInfo where
  value : Str
  typ : Str
  timestamp : Str
  deriving DecidableEq, Repr

/-- The text that is encrypted, cookie_handler.py:121-124 -/
def cookieMsg (H : CookieConf) (payload ts : Str) : Str :=
  if H.sign then lvPack [payload, ts, H.lib.b64e (H.lib.mac (payload ++ ts))] else lvPack [payload, ts]

/-- `_sign_enc_payload`, cookie_handler.py:91-139; the time stamp is a string that is not empty. -/
def signEncPayload (H : CookieConf) (nonce : Nat) (payload ts : Str) : Str :=
  let L := H.lib
  if H.enc then
    let e := L.enc nonce (cookieMsg H payload ts)
    pyJoin ['|'] [ts, L.b64e e.1, L.b64e e.2.1, L.b64e e.2.2]
  else pyJoin ['|'] [ts, payload, L.b64e (if H.sign then L.mac (payload ++ ts) else [])]

/-- The check of the MAC inside an encrypted cookie, cookie_handler.py:178-187; `p` is what was unpacked. -/
def checkInner (H : CookieConf) (payload ts b64mac : Str) : Except Exc (Option (Str × Str)) :=
  match H.lib.b64d b64mac with
  | none => .error .valueError
  | some m =>
    if !H.sign then .error .attributeError
    else if H.lib.mac (payload ++ ts) = m then .ok (some (payload, ts))
    else .ok none

/-- What was decrypted, cookie_handler.py:174-190 -/
def readMsg (H : CookieConf) (msg : Str) : Except Exc (Option (Str × Str)) :=
  match lvUnpack msg with
  | .error e => .error e
  | .ok [] | .ok [_] => .error .indexError
  | .ok [payload, ts, m] => checkInner H payload ts m
  | .ok (payload :: ts :: _) => .ok (some (payload, ts))

/-- `_ver_dec_content`, cookie_handler.py:141-191 -/
def verDecContent (H : CookieConf) (parts : List Str) : Except Exc (Option (Str × Str)) :=
  match parts with
  | [ts, payload, b64mac] =>
    match H.lib.b64d b64mac with
    | none => .error .valueError
    | some m =>
      if !H.sign then .error .attributeError
      else if H.lib.mac (payload ++ ts) = m then .ok (some (payload, ts))
      else .error (.other "VerificationError")
  | [_, a, b, c] =>
    match H.lib.b64d a, H.lib.b64d b, H.lib.b64d c with
    | some iv, some ctx, some tag =>
      if !H.enc then .error .attributeError
      else
        match H.lib.dec (iv, ctx, tag) with
        | none => .ok none
        | some msg => readMsg H msg
    | _, _, _ => .error .valueError
  | _ => .ok none

/-- `::` -/
def colons : Str := [':', ':']

/-- `make_cookie_content`, cookie_handler.py:193-237; an empty time stamp stands for the clock. -/
def makeCookie (H : CookieConf) (nonce now : Nat) (name value typ ts : Str) : CookieData :=
  let stamp := if ts.isEmpty then natStr now else ts
  { name := name
    value := if value.isEmpty && typ.isEmpty then [] else signEncPayload H nonce (pyJoin colons [value, typ]) stamp }

/-- The payload in its parts, cookie_handler.py:264 -/
def readPayload (payload ts : Str) : Except Exc CookieInfo :=
  match pySplit colons payload with
  | [v, t] => .ok { value := v, typ := t, timestamp := ts }
  | _ => .error .valueError

/-- One turn of the loop of `parse_cookie`, cookie_handler.py:258-267 -/
def readCookie (H : CookieConf) (c : CookieData) : Except Exc (Option CookieInfo) :=
  match verDecContent H (pySplit ['|'] c.value) with
  | .error e => .error e
  | .ok none => .ok none
  | .ok (some (payload, ts)) =>
    match readPayload payload ts with
    | .error e => .error e
    | .ok i => .ok (some i)

/-- The loop of `parse_cookie` -/
def parseCookies (H : CookieConf) (name : Str) : List CookieData → Except Exc (List CookieInfo)
  | [] => .ok []
  | c :: rest =>
    if c.name = name then
      match readCookie H c with
      | .error e => .error e
      | .ok i =>
        match parseCookies H name rest with
        | .error e => .error e
        | .ok l => .ok (i.toList ++ l)
    else parseCookies H name rest

/-- `parse_cookie`, cookie_handler.py:239-268 -/
def parseCookie (H : CookieConf) (name : Str) (cookies : List CookieData) : Except Exc (Option (List CookieInfo)) :=
  if cookies.isEmpty then .ok none
  else
    match parseCookies H name cookies with
    | .error e => .error e
    | .ok l => .ok (some l)

/-- `compute_session_state`, cookie_handler.py:271-286; `hash` is the hex digest of SHA-256, `origin` scheme and host of the
redirect URI. -/
def sessionState (hash : Str → Str) (opbs salt clientId origin : Str) : Str :=
  hash (clientId ++ ' ' :: (origin ++ ' ' :: (opbs ++ ' ' :: salt))) ++ '.' :: salt

end OidcOp
