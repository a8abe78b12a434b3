/-
Model of the subject identifiers: session/manager.py:28-74, 106-119, 182-191 and endpoint_context.py:295-310.
-/
import Verif.Model.Grant
import Verif.Base.Exc

namespace OidcOp

/-- Something in `sub_func`. -/
inductive SubMinter where
  /-- `public_id`, session/manager.py:66-67 -/
  | publicFn
  /-- `pairwise_id`, session/manager.py:36-39 -/
  | pairwiseFn
  /-- an instance of `PublicID` with its salt, session/manager.py:70-72 -/
  | publicObj (salt : String)
  /-- an instance of `PairWiseID` with its salt, session/manager.py:42-63 -/
  | pairwiseObj (salt : String)
  /-- `RawID`, session/manager.py:28-33 -/
  | raw
  /-- `ephemeral_id`, session/manager.py:75-76 -/
  | ephemeral
  deriving DecidableEq, Repr, Inhabited

/-- `sub_func`, and the manager's salt: `_init_db` (session/manager.py:101, 136-137) replaces the value set in line 99 by the
configured or random one. -/
structure SubCfg where
  funcs : Dict SubMinter := []
  salt : String := ""
  deriving DecidableEq, Repr, Inhabited

/-- The call of a minter, session/manager.py:189-191.  `hash` is `sha256(text.encode("utf-8")).hexdigest()`, `fresh` the
value of `uuid4().hex`. -/
def SubMinter.call (hash : String → String) (m : SubMinter) (uid sector salt fresh : String) : String :=
  match m with
  | .publicFn => hash (uid ++ salt)
  | .pairwiseFn => hash (uid ++ sector ++ salt)
  | .publicObj own => hash (uid ++ own)
  | .pairwiseObj own => hash (uid ++ sector ++ own)
  | .raw => uid
  | .ephemeral => fresh

/-- `self.sub_func[sub_type]` with the defaults of `__init__`, session/manager.py:106-119 -/
def SubCfg.minter (cfg : SubCfg) (subType : String) : Except Exc SubMinter :=
  match cfg.funcs.get? subType with
  | some m => .ok m
  | none =>
    if subType = "public" then .ok .publicFn
    else if subType = "pairwise" then .ok .pairwiseFn
    else if subType = "ephemeral" then .ok .ephemeral
    else .error .keyError

/-- The subject in `create_grant`, session/manager.py:182-191: the sector is a member of the authorization request. -/
def grantSub (hash : String → String) (cfg : SubCfg) (subType : String) (uid : String) (req : AuthzReq) (fresh : String) :
    Except Exc String :=
  match cfg.minter subType with
  | .ok m => .ok (m.call hash uid (req.sectorIdentifierUri.getD "") cfg.salt fresh)
  | .error e => .error e

/-- The subject of the grants that the authorization endpoint makes, oauth2/authorization.py:498-504 and 639-644: no
`sub_type` is given, so it is "public". -/
def authzSub (hash : String → String) (cfg : SubCfg) (fresh uid : String) (req : AuthzReq) : String :=
  match grantSub hash cfg "public" uid req fresh with
  | .ok s => s
  | .error _ => ""

end OidcOp
