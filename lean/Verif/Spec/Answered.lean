/-
When a request to the token endpoint gets an answer (C108).
-/
import Verif.Model.World

namespace OidcOp.Spec

/-- There is an answer, be it an error message, and no exception. -/
def Answered {α : Type} (r : Except Exc α) : Prop := ∃ a, r = .ok a

/-- The exceptions of a lookup in the session database for something that is not there. -/
def NotThere (e : Exc) : Prop := e = .keyError ∨ e = .noSuchClientSession ∨ e = .noSuchGrant

/-- The client is registered, and its registration leaves the grant type out. -/
def Excluded (cfg : TokenCfg) (client gt : String) : Prop :=
  ∃ cl l, cfg.cdb.get? client = some cl ∧ cl.grantTypes = some l ∧ gt ∉ l

/-- The requests that are read without an exception: the grant type and the client are known; the code, if there is one, belongs to
a session or is not recognised; a refresh token is there, and belongs to a session or to one that is not there anymore. -/
structure Readable (E : Env) (w : World) (client : String) (req : TokenReq) (gt : String) : Prop where
  grantType : req.grantType = some gt
  known : E.cfg.cdb.has client = true
  code : gt = "authorization_code" → ¬ Excluded E.cfg client gt → ∀ v e, req.code = some v →
    sessionByToken E w v = .error e → NotThere e ∨ e = .unknownToken
  refresh : gt = "refresh_token" → ¬ Excluded E.cfg client gt → ∃ v, req.refreshToken = some v ∧
    ∀ e, sessionByToken E w v = .error e → NotThere e

end OidcOp.Spec
