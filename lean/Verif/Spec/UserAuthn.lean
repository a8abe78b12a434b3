/-
Users who authenticate with a password (C77).
-/
import Verif.Model.UserAuthn
import Verif.Spec.Login

namespace OidcOp.Spec

/-- The header carries this user name and password: after an optional "Basic" and one more character it is base64 for
`user:password`, with the user name percent-encoded. -/
def PresentsBasic (L : BasicLib) (auth : Str) (user password : String) : Prop :=
  ∃ text b u p, (auth = text ∧ ¬ "Basic".toList <+: auth ∨ ∃ rest, auth = "Basic".toList ++ rest ∧ text = rest.drop 1) ∧
    L.b64decode text = .ok b ∧ b = u ++ ':' :: p ∧ ':' ∉ u ∧ ':' ∉ p ∧
    (∃ u', L.decode u = .ok u' ∧ user = String.ofList (L.unquote u')) ∧ L.decode p = .ok password.toList

/-- No cookie is for this client. -/
def NoCookieFor (E : Env) (cookies : List SessionCookie) (client : String) : Prop :=
  ∀ k ∈ cookies, ∃ u c rest, E.decrypt k.sid = .ok (u :: c :: rest) ∧ c ≠ client

/-- The cookies for this client are the user's own. -/
def OwnCookies (E : Env) (cookies : List SessionCookie) (client user : String) : Prop :=
  ∀ k ∈ cookies, ∀ u rest, E.decrypt k.sid = .ok (u :: client :: rest) → u = user

end OidcOp.Spec
