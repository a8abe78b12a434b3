/-
Specification vocabulary for C119: which records an operation of the provider is about.
-/
import Verif.Spec.Isolation

namespace OidcOp.Spec

/-- The grant of the session that a code or refresh token in the request leads to. -/
def PresentsGrant (E : Env) (w : World) (req : TokenReq) (k : SKey) : Prop :=
  ∃ v s, (req.code = some v ∨ req.refreshToken = some v) ∧ sessionByToken E w v = .ok s ∧ k = .gra s.user s.client s.gid

/-- The records an operation is about: a login is about the record of the user, the one of the user with the client, and the new
grant; work on a session is about its grant; a token request is about the grants its code and refresh token lead to; the
revocation of a client session is about this client session with its grants; the removal of a session is about the grant and
the records that list it. -/
def Concerns (E : Env) (w : World) (op : WOp) (k : SKey) : Prop :=
  match op with
  | .tick _ => False
  | .login u c _ _ => k = .usr u ∨ k = .cli u c ∨ k = .gra u c (E.uuid w.n)
  | .again u c _ _ => k = .usr u ∨ k = .cli u c ∨ k = .gra u c (E.uuid w.n)
  | .addGrant u c _ => k = .usr u ∨ k = .cli u c ∨ k = .gra u c (E.uuid w.n)
  | .authorize sid _ => ∃ u c g, E.decrypt sid = .ok [u, c, g] ∧ k = .gra u c g
  | .parse _ req => PresentsGrant E w req k
  | .process i _ => ∃ req, w.pool[i]? = some req ∧ PresentsGrant E w req k
  | .revokeToken sid _ _ => ∃ u c g, E.decrypt sid = .ok [u, c, g] ∧ k = .gra u c g
  | .revokeGrant sid => ∃ u c g, E.decrypt sid = .ok [u, c, g] ∧ k = .gra u c g
  | .revokeClientSession sid => ∃ u c rest, E.decrypt sid = .ok (u :: c :: rest) ∧ (k = .cli u c ∨ ∃ g, k = .gra u c g)
  | .removeSession sid => ∃ u c g, E.decrypt sid = .ok [u, c, g] ∧ (k = .usr u ∨ k = .cli u c ∨ k = .gra u c g)

/-- The client a record belongs to; the record of a user belongs to none. -/
def keyClient : SKey → Option String
  | .usr _ => none
  | .cli _ c => some c
  | .gra _ c _ => some c

/-- The operation is about a session with client `c`. -/
def AboutClient (E : Env) (w : World) (c : String) : WOp → Prop
  | .tick _ => False
  | .login _ c' _ _ => c' = c
  | .again _ c' _ _ => c' = c
  | .addGrant _ c' _ => c' = c
  | .authorize sid _ => ∃ u rest, E.decrypt sid = .ok (u :: c :: rest)
  | .parse _ req => ∃ v s, (req.code = some v ∨ req.refreshToken = some v) ∧ sessionByToken E w v = .ok s ∧ s.client = c
  | .process i _ => ∃ req v s, w.pool[i]? = some req ∧ (req.code = some v ∨ req.refreshToken = some v) ∧
      sessionByToken E w v = .ok s ∧ s.client = c
  | .revokeToken sid _ _ => ∃ u rest, E.decrypt sid = .ok (u :: c :: rest)
  | .revokeGrant sid => ∃ u rest, E.decrypt sid = .ok (u :: c :: rest)
  | .revokeClientSession sid => ∃ u rest, E.decrypt sid = .ok (u :: c :: rest)
  | .removeSession sid => ∃ u rest, E.decrypt sid = .ok (u :: c :: rest)

end OidcOp.Spec
