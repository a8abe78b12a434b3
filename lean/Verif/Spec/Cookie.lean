/-
Specification vocabulary for cookies (C57, C58, C71).
-/
import Verif.Model.Cookie

namespace OidcOp.Spec

/-- `::` occurs in `s`. -/
def HasColons (s : Str) : Prop := ∃ a b, s = a ++ [':', ':'] ++ b

/-- What goes into a cookie. -/
structure CookieArgs where
  name : Str
  value : Str
  typ : Str
  /-- the time stamp, in seconds -/
  stamp : Nat
  /-- the randomness of the encryption -/
  nonce : Nat

/-- The cookie the handler makes. -/
def CookieArgs.cookie (H : CookieConf) (a : CookieArgs) : CookieData :=
  makeCookie H a.nonce 0 a.name a.value a.typ (natStr a.stamp)

/-- What the handler should read from it. -/
def CookieArgs.info (a : CookieArgs) : CookieInfo := { value := a.value, typ := a.typ, timestamp := natStr a.stamp }

/-- Value and type can be told apart: there is no `::` in them and the value does not end in a colon; value and type are not
both empty; and if the cookie is only signed, there is no bar in them. -/
def Tellable (H : CookieConf) (a : CookieArgs) : Prop :=
  ¬ HasColons (a.value ++ [':']) ∧ ¬ HasColons a.typ ∧ (a.value ≠ [] ∨ a.typ ≠ []) ∧
    (H.enc = false → '|' ∉ a.value ∧ '|' ∉ a.typ)

/-- The handler can verify what it makes. -/
def HasKey (H : CookieConf) : Prop := H.sign = true ∨ H.enc = true

/-- A cookie string made of three parts, with a MAC the server computed for a payload and a time stamp in `made`; or of four
parts, with a cipher text the server made for one of these.  Ideal cryptography: whoever has no key can only present such
MACs and cipher texts, if they are to be accepted. -/
def FromServer (H : CookieConf) (made : List (Str × Str)) (v : Str) : Prop :=
  (∀ ts payload m tag, pySplit ['|'] v = [ts, payload, m] → H.lib.b64d m = some tag → H.lib.mac (payload ++ ts) = tag →
    ∃ q ∈ made, tag = H.lib.mac (q.1 ++ q.2)) ∧
  (∀ ts a b c iv ctx tag msg, pySplit ['|'] v = [ts, a, b, c] → H.lib.b64d a = some iv → H.lib.b64d b = some ctx →
    H.lib.b64d c = some tag → H.lib.dec (iv, ctx, tag) = some msg →
    ∃ q ∈ made, ∃ n, (iv, ctx, tag) = H.lib.enc n (cookieMsg H q.1 q.2))

/-- No two messages have the same MAC. -/
def MacInjective (H : CookieConf) : Prop := ∀ m m', H.lib.mac m = H.lib.mac m' → m = m'

end OidcOp.Spec
