/-
Specification vocabulary for authentication at the authorization endpoint (C37-C40).
-/
import Verif.Model.Login
import Verif.Spec.Session

namespace OidcOp.Spec

/-- The request has the prompt. -/
def Prompts (req : AuthzReq) (p : String) : Prop := ∃ l, req.prompt = some l ∧ p ∈ l

/-- A user name that base64url cannot have made: it has a character other than letters, digits, '-', '_' and '=' (an
'@', a '.', a blank, ...), or it has no '=' and its length is one more than a multiple of four. -/
def PlainName (u : String) : Prop :=
  (∃ ch ∈ u.toList, ¬ (ch.isAlphanum = true ∨ ch = '-' ∨ ch = '_' ∨ ch = '=')) ∨
    ('=' ∉ u.toList ∧ u.toList.length % 4 = 1)

/-- The cookie was made for a session of this user at this client. -/
def CookieFor (E : Env) (k : SessionCookie) (user client : String) : Prop :=
  ∃ gid, E.decrypt k.sid = .ok [user, client, gid]

/-- The user names in the cookies are plain. -/
def PlainCookies (E : Env) (cookies : List SessionCookie) : Prop :=
  ∀ k ∈ cookies, ∀ u rest, E.decrypt k.sid = .ok (u :: rest) → PlainName u

/-- The session ids in the cookies are not empty, and the user and client names in them are such that session keys can be
made of them. -/
def CleanCookies (E : Env) (cookies : List SessionCookie) : Prop :=
  ∀ k ∈ cookies, k.sid ≠ "" ∧ ∀ u c g, E.decrypt k.sid = .ok [u, c, g] → CleanId u ∧ CleanId c

/-- The authentication contexts that a request asks for: its acr_values, or else the value or the values of the acr claim
of the ID token. -/
inductive AsksAcr (req : AuthzReq) : List String → Prop where
  | acrValues {l : List String} : req.acrValues = some l → AsksAcr req l
  | claimValue {idt acr : Dict Json} {v : String} : req.acrValues = none → req.claims.get? "id_token" = some idt →
      idt.get? "acr" = some (.obj acr) → Dict.get? acr "value" = some (.str v) → AsksAcr req [v]
  | claimValues {idt acr : Dict Json} {l : List String} : req.acrValues = none →
      req.claims.get? "id_token" = some idt → idt.get? "acr" = some (.obj acr) → Dict.get? acr "value" = none →
      Dict.get? acr "values" = some (.arr (l.map .str)) → AsksAcr req l

end OidcOp.Spec
