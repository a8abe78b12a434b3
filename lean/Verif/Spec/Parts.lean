/-
What is asked of the parts of a provider (C75).
-/
import Verif.Model.Parts
import Verif.Spec.TokenHandler

namespace OidcOp.Spec

/-- A text as base64url and JWT make them: not empty, without blanks and semicolons. -/
def WireText (s : Str) : Prop := s ≠ [] ∧ ' ' ∉ s ∧ ';' ∉ s

/-- The names of a payload that the provider sets itself: the payload carries the token's own identifier, and no claim of the
user has one of the names by which a handler tells classes. -/
structure PayloadOk (p : Dict Json) (jti : String) : Prop where
  jti : p.get? "jti" = some (.str jti)
  cls : p.get? "token_class" = none
  ttype : p.get? "ttype" = none

/-- The assumptions on the parts: handlers registered under the names of their classes, keys and formats that can be told
apart, texts that can be sent, random strings and identifiers that do not repeat. -/
structure SoundParts (p : Parts) (jti : Nat → String) : Prop where
  configured : AsConfigured p.handlers
  separated : Separated p.jwt p.handlers
  encText : ∀ n C c l, p.handlers.get? n = some (.dflt C c l) → ∀ k x, WireText (C.enc k x)
  sigText : ∀ k alg x, WireText (p.jwt.sign k alg x)
  sidText : ∀ k x, WireText (p.crypt.enc k x)
  rnd : ∀ {n m}, p.rnd n = p.rnd m → n = m
  fresh : ∀ {n m}, jti n = jti m → n = m
  payload : ∀ n c s, PayloadOk (p.payload n c s) (jti n)
  idPayload : ∀ n s, PayloadOk (p.idPayload n s) (jti n) ∧ (p.idPayload n s).get? "sid" = some (.str s)
  uuid : ∀ n, GrantId (p.uuid n)
  uuidFresh : ∀ {n m}, p.uuid n = p.uuid m → n = m

end OidcOp.Spec
