/-
Model of scopes.py and of the policy on unknown scopes in oauth2/authorization.py.
-/
import Verif.Base.Dict
import Verif.Base.Exc

namespace OidcOp

/-- A mapping of scopes to names of claims. -/
abbrev ScopeMap := Dict (List String)

/-- `SCOPE2CLAIMS`, scopes.py:3-25 -/
def scope2claims : ScopeMap :=
  [("openid", ["sub"]),
   ("profile", ["name", "given_name", "family_name", "middle_name", "nickname", "profile", "picture", "website",
     "gender", "birthdate", "zoneinfo", "locale", "updated_at", "preferred_username"]),
   ("email", ["email", "email_verified"]),
   ("address", ["address"]),
   ("phone", ["phone_number", "phone_number_verified"]),
   ("offline_access", [])]

/-- What the scopes handler reads of a client's entry in the client database. -/
structure ScopeClient where
  /-- "allowed_scopes" -/
  allowedScopes : Option (List String) := none
  /-- "scopes_to_claims" -/
  scopesToClaims : Option ScopeMap := none
  deriving DecidableEq, Repr, Inhabited

/-- The configuration that the scopes handler is made from (endpoint_context.py:249-260), and the client database. -/
structure ScopeCfg where
  /-- conf["allowed_scopes"] -/
  allowedScopes : Option (List String) := none
  /-- conf["scopes_to_claims"] -/
  scopesToClaims : Option ScopeMap := none
  /-- the client database -/
  cdb : Dict ScopeClient := []
  /-- conf["capabilities"]["deny_unknown_scopes"] -/
  denyUnknown : Bool := false
  deriving DecidableEq, Repr, Inhabited

/-- `self._scopes_to_claims`, scopes.py:52-54 -/
def ScopeCfg.map (cfg : ScopeCfg) : ScopeMap :=
  match cfg.scopesToClaims with
  | some m => if m.isEmpty then scope2claims else m
  | none => scope2claims

/-- `self.allowed_scopes`, scopes.py:55-57 -/
def ScopeCfg.allowed (cfg : ScopeCfg) : List String :=
  match cfg.allowedScopes with
  | some l => if l.isEmpty then cfg.map.keys else l
  | none => cfg.map.keys

/-- `Scopes.get_allowed_scopes`, scopes.py:59-75 -/
def allowedScopes (cfg : ScopeCfg) (client : Option String) : List String :=
  match client with
  | none => cfg.allowed
  | some c =>
    if c = "" then cfg.allowed
    else
      match cfg.cdb.get? c with
      | none => cfg.allowed
      | some cl =>
        match cl.allowedScopes with
        | some l => l
        | none =>
          match cl.scopesToClaims with
          | some m => m.keys
          | none => cfg.allowed

/-- `Scopes.get_scopes_mapping`, scopes.py:77-89 -/
def scopesMapping (cfg : ScopeCfg) (client : Option String) : ScopeMap :=
  match client with
  | none => cfg.map
  | some c =>
    if c = "" then cfg.map
    else
      match cfg.cdb.get? c with
      | none => cfg.map
      | some cl => cl.scopesToClaims.getD cfg.map

/-- `Scopes.filter_scopes`, scopes.py:91-93 -/
def filterScopes (cfg : ScopeCfg) (client : Option String) (scopes : List String) : List String :=
  scopes.filter (fun s => (allowedScopes cfg client).contains s)

/-- `convert_scopes2claims` with `allowed_claims=None`, scopes.py:28-35: the result is a dictionary with the names as
keys and `None` as values; here the list of its keys. -/
def convertScopes (map : ScopeMap) (scopes : List String) : List String :=
  let m := if map.isEmpty then scope2claims else map
  (scopes.flatMap (fun s => (m.get? s).getD [])).foldl (fun acc n => if acc.contains n then acc else acc ++ [n]) []

/-- `Scopes.scopes_to_claims`, scopes.py:95-101; `map` is the argument `scopes_to_claims`. -/
def scopesToClaims (cfg : ScopeCfg) (map : ScopeMap) (client : Option String) (scopes : List String) : List String :=
  convertScopes (if map.isEmpty then scopesMapping cfg client else map) (filterScopes cfg client scopes)

/-- `check_unknown_scopes_policy`, oauth2/authorization.py:264-275.  The comparison is one of sets.  `none` for the scope
is a request without that parameter. -/
def checkUnknownScopes (cfg : ScopeCfg) (client : String) (scope : Option (List String)) : Except Exc Unit :=
  if cfg.denyUnknown = false then .ok ()
  else
    match scope with
    | none => .error .keyError
    | some sc =>
      let f := filterScopes cfg (some client) sc
      if sc.all (fun s => f.contains s) && f.all (fun s => sc.contains s) then .ok ()
      else .error (.other "UnAuthorizedClientScope")

end OidcOp
