/-
Specification vocabulary for C29.
-/
import Verif.Model.TokenHandler

namespace OidcOp.Spec

/-- The three classes of tokens that go through the modelled minting. -/
def tokenClasses : List String := ["authorization_code", "access_token", "refresh_token"]

/-- The handlers as `factory` sets them up (token/handler.py:143-204): each is registered under the name of its class. -/
def AsConfigured (handlers : Dict Handler) : Prop :=
  ∀ n h, handlers.get? n = some h →
    match h with
    | .dflt _ cls _ => cls = n ∧ n ∈ tokenClasses
    | .jwt cls _ _ => cls = n ∧ n ∈ tokenClasses
    | .idt _ => n = "id_token"

/-- What is asked of the cryptography: formats and keys may be shared between handlers, but a text made with one key is
not decrypted with another, texts of one format are refused by the other, and a signature with another algorithm is either
verified or refused. -/
structure Separated (L : JwtLib) (handlers : Dict Handler) : Prop where
  keys : ∀ n m C C' c c' l l', handlers.get? n = some (.dflt C c l) → handlers.get? m = some (.dflt C' c' l') →
    (∀ k p, C'.dec (C.enc k p) = some p) ∨ (∀ k p, C'.dec (C.enc k p) = none)
  encNotJwt : ∀ n C c l, handlers.get? n = some (.dflt C c l) → ∀ k p,
    L.peek (C.enc k p) = none ∧ ∀ alg, ∃ e, L.unpack alg (C.enc k p) = .error e ∧ skipped e = true
  jwtNotEnc : ∀ n C c l, handlers.get? n = some (.dflt C c l) → ∀ k alg p, C.dec (L.sign k alg p) = none
  algs : ∀ k alg alg' p, L.unpack alg' (L.sign k alg p) = .ok p ∨ ∃ e, L.unpack alg' (L.sign k alg p) = .error e ∧ skipped e = true

/-- The token was made by the handler that is registered under the name of a class, at some time, for a session, with a
payload that has no entry that names a class. -/
structure MintedAs (L : JwtLib) (handlers : Dict Handler) (cls : String) (h : Handler) (issuer : String)
    (rules : Option Int) (madeAt : Int) (sid token : Str) : Prop where
  known : cls ∈ tokenClasses
  handler : handlers.get? cls = some h
  made : ∃ nonce rnd payload, payload.get? "token_class" = none ∧ payload.get? "ttype" = none ∧
    h.call L issuer rules madeAt nonce rnd sid payload = some token

/-- The token is not yet too old for its handler: only JWTs carry a time the handler looks at; a life time of 0 sets
none. -/
def Fresh (rules : Option Int) (madeAt now : Int) : Handler → Prop
  | .dflt _ _ _ => True
  | .jwt _ _ lt => rules.getD lt ≠ 0 ∧ (now ≤ madeAt + rules.getD lt ∨ madeAt + rules.getD lt < 0)
  | .idt _ => False

/-- The handler finds no authentic content in the string.  For the ID token handler an "aud" in the string, if it looks
like a JWT, is a string that is not empty or a list that starts with a string. -/
def Rejects (L : JwtLib) (token : Str) : Handler → Prop
  | .dflt C _ _ => C.dec token = none
  | .jwt _ alg _ => ∃ e, L.unpack alg token = .error e ∧ skipped e = true
  | .idt _ => L.peek token = none ∨
      (∀ p a, L.peek token = some p → p.get? "aud" = some a → (∃ s, a = .str s ∧ s ≠ "") ∨ ∃ c r, a = .arr (.str c :: r)) ∧
      (∀ alg, ∃ e, L.unpack alg token = .error e ∧ skipped e = true)

/-- The names that a class of tokens has: its own, and one of a letter that older tokens carry. -/
def classNames (cls : String) : List String :=
  match cls with
  | "authorization_code" => ["authorization_code", "A"]
  | "access_token" => ["access_token", "T"]
  | "refresh_token" => ["refresh_token", "R"]
  | "id_token" => ["id_token", "I"]
  | _ => [cls, ""]

/-- The answer is what the handler reads from authentic content of the string: the content names the handler's class, and for a JWT it
has not expired. -/
def Reads (L : JwtLib) (now : Int) (token : Str) (r : TokInfo) : Handler → Prop
  | .dflt C cls _ => ∃ plain vals name, C.dec token = some plain ∧ lvUnpack (rstripP (· == ' ') plain) = .ok vals ∧
      name ∈ classNames cls ∧ vals[1]? = some name.toList ∧ r = { sid := vals[2]?, cls := some cls }
  | .jwt cls alg _ => ∃ p s name e, L.unpack alg token = .ok p ∧ name ∈ classNames cls ∧
      (p.get? "ttype" = some (.str name) ∨
        ((p.get? "ttype" = none ∨ p.get? "ttype" = some .null) ∧ p.get? "token_class" = some (.str name))) ∧
      p.get? "exp" = some (.num e) ∧ (e < 0 ∨ now ≤ e) ∧
      p.get? "sid" = some s ∧ (∀ x, s = .str x → r.sid = some x.toList) ∧ r.cls = some cls
  | .idt _ => ∃ alg p, L.unpack alg token = .ok p ∧ r.cls = none

end OidcOp.Spec
