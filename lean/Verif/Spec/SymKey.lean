/-
Tokens made with a shared key (C116).
-/
import Verif.Model.SymKey
import Verif.Spec.UserAuthn

namespace OidcOp.Spec

/-- The header carries a token that was made with the key: base64 for what the text is encrypted to, a colon and the nonce. -/
def HasToken (L : SymLib) (k : SymKey) (auth : Str) (text : Str) : Prop :=
  ∃ nonce, L.b64decode auth = .ok (L.encrypt k.key nonce text ++ ':' :: nonce)

/-- As `HasToken`, for a nonce that can be used, and with no other colon. -/
def HasPlainToken (L : SymLib) (k : SymKey) (auth : Str) (text : Str) : Prop :=
  ∃ nonce, 8 ≤ nonce.length ∧ ':' ∉ nonce ∧ ':' ∉ L.encrypt k.key nonce text ∧
    L.b64decode auth = .ok (L.encrypt k.key nonce text ++ ':' :: nonce)

/-- The text is base64url for an identity of this user, without a session. -/
def WrapsUser (loads : List Nat → Except Exc Identity) (text : Str) (user : String) : Prop :=
  ∃ bs, b64d text = .ok (some bs) ∧ loads bs = .ok { uid := some user }

end OidcOp.Spec
