/-
Specification vocabulary for subject identifiers (C61).
-/
import Verif.Model.Subject
import Verif.Spec.Provider

namespace OidcOp.Spec

/-- The "public" entry is absent (the default is used) or one of the two public minters; `salt` is the salt that counts. -/
def PublicWith (cfg : SubCfg) (salt : String) : Prop :=
  (cfg.funcs.get? "public" = none ∧ salt = cfg.salt) ∨ (cfg.funcs.get? "public" = some .publicFn ∧ salt = cfg.salt) ∨
    cfg.funcs.get? "public" = some (.publicObj salt)

/-- The "pairwise" entry is absent or one of the two pairwise minters. -/
def PairwiseWith (cfg : SubCfg) (salt : String) : Prop :=
  (cfg.funcs.get? "pairwise" = none ∧ salt = cfg.salt) ∨ (cfg.funcs.get? "pairwise" = some .pairwiseFn ∧ salt = cfg.salt) ∨
    cfg.funcs.get? "pairwise" = some (.pairwiseObj salt)

/-- The hash of two texts differs unless they are the same. -/
def NoCollision (hash : String → String) (a b : String) : Prop := hash a = hash b → a = b

/-- The user who logged in for a grant. -/
def UserOf (g : Grant) (u : String) : Prop := ∃ ev, g.authnEvent = some ev ∧ ev.uid = u

/-- A grant was made for a client. -/
def ClientOf (g : Grant) (c : String) : Prop := ∃ req, g.authzReq = some req ∧ req.clientId = some c

/-- The client is registered for pairwise subjects, with a sector. -/
def PairwiseClient (p : Prov) (c sector : String) : Prop :=
  ∃ cl, p.clients.get? c = some cl ∧ cl.subjectType = some "pairwise" ∧ cl.sectorId = some sector

end OidcOp.Spec
