/-
Model of session/claims.py and of the user database of user_info/__init__.py.
-/
import Verif.Base.PyEq
import Verif.Model.Grant
import Verif.Model.Scopes

namespace OidcOp

/-- The loop of `claims_match`, session/claims.py:242-254, up to the first match. -/
def claimsLoop (value : Json) : List (String × Json) → Except Exc Bool
  | [] => .ok false
  | (key, val) :: rest =>
    if key = "value" then
      if pyEq value val then .ok true else claimsLoop value rest
    else if key = "values" then
      match pyIn value val with
      | .error e => .error e
      | .ok true => .ok true
      | .ok false => claimsLoop value rest
    else claimsLoop value rest

/-- `claims_match`, session/claims.py:223-260.  A specification that is neither `None` nor a dictionary has no `items`. -/
def claimsMatch (value : Json) (spec : Json) : Except Exc Bool :=
  if value = .null then .ok false
  else
    match spec with
    | .null => .ok true
    | .obj d =>
      match claimsLoop value d with
      | .error e => .error e
      | .ok true => .ok true
      | .ok false => .ok (decide (d.map (·.1) = ["essential"]))
    | _ => .error .attributeError

/-- The user database: for each user a dictionary of claims, user_info/__init__.py:31-39. -/
abbrev UserDb := Dict (Dict Json)

/-- `UserInfo.__call__` without `user_info_claims`, user_info/__init__.py:41-52, 68-72 -/
def userInfo (db : UserDb) (user : String) : Dict Json := (db.get? user).getD []

/-- The dictionary comprehension of `get_user_claims`, session/claims.py:213-217.  `user_info.get(k)` is `None` for a
missing claim. -/
def pickClaims (info : Dict Json) : List (String × Json) → Except Exc (Dict Json)
  | [] => .ok []
  | (k, spec) :: rest =>
    match claimsMatch ((info.get? k).getD .null) spec with
    | .error e => .error e
    | .ok b =>
      match pickClaims info rest with
      | .error e => .error e
      | .ok r => .ok (if b then (k, (info.get? k).getD .null) :: r else r)

/-- `get_user_claims`, session/claims.py:200-220.  `db = none` is a server without user information.  `None` and `{}` as
the restriction are the same. -/
def getUserClaims (db : Option UserDb) (user : String) (restriction : Dict Json) : Except Exc (Dict Json) :=
  match db with
  | none => .error (.other "ImproperlyConfigured")
  | some db => if restriction.isEmpty then .ok [] else pickClaims (userInfo db user) restriction

/-- A configured set of claims: a list of names, or a dictionary of specifications. -/
inductive ClaimList where
  | names (l : List String)
  | specs (d : Dict Json)
  deriving DecidableEq, Repr, Inhabited

/-- `base_claims.update(...)` with a configured set, session/claims.py:114-118 -/
def ClaimList.addTo (base : Dict Json) : ClaimList → Dict Json
  | .names l => base.update (l.map (fun k => (k, Json.null)))
  | .specs d => base.update d

/-- The keyword arguments of the endpoint or token handler for a release point. -/
structure ClaimsModule where
  /-- "base_claims" -/
  base : Dict Json := []
  /-- "add_claims_by_scope" -/
  byScope : Bool := false
  /-- "always_add_claims" -/
  always : ClaimList := .names []
  /-- "enable_claims_per_client" -/
  perClient : Bool := false
  deriving DecidableEq, Repr, Inhabited

/-- "add_claims" in a client's entry of the client database. -/
structure ClaimsClient where
  byScope : Dict Bool := []
  always : Dict ClaimList := []
  deriving DecidableEq, Repr, Inhabited

/-- The configuration of the claims interface. -/
structure ClaimsCfg where
  /-- `ClaimsInterface`, not `OAuth2ClaimsInterface` -/
  oidc : Bool := true
  /-- the endpoints "userinfo" and "introspection" and the token handlers "id_token" and "access_token" -/
  modules : Dict ClaimsModule := []
  scopes : ScopeCfg := {}
  deriving DecidableEq, Repr, Inhabited

/-- The part of the client database that the claims interface uses. -/
abbrev ClaimsDb := Dict ClaimsClient

/-- `claims_release_points`, session/claims.py:28 and 275 -/
def releasePoints (oidc : Bool) : List String :=
  if oidc then ["userinfo", "introspection", "id_token", "access_token"] else ["introspection", "access_token"]

/-- `_get_module`, session/claims.py:43-60 and 277-287 -/
def getModule (cfg : ClaimsCfg) (usage : String) : Except Exc (Option ClaimsModule) :=
  if !(releasePoints cfg.oidc).contains usage then .ok none
  else if usage = "userinfo" ∨ usage = "introspection" then .ok (cfg.modules.get? usage)
  else
    match cfg.modules.get? usage with
    | some m => .ok (some m)
    | none => .error (.other "ServiceError")

/-- Whether the scopes count, in `_client_claims`, session/claims.py:70-80 -/
def clientByScope (m : ClaimsModule) (cl : ClaimsClient) (point : String) (second : Option String) : Bool :=
  if cl.byScope.isEmpty then m.byScope
  else
    let first := (cl.byScope.get? point).getD false
    let next := match first, truthyStr second with
      | false, some s => (cl.byScope.get? s).getD false
      | b, _ => b
    if next then true else m.byScope

/-- The claims to add always, in `_client_claims`, session/claims.py:82-85.  `extend` works on the very list that is in
the client database, if there is one, and a dictionary has no `extend`. -/
def clientAlways (cl : ClaimsClient) (point : String) (second : Option String) :
    Except Exc ClaimList × ClaimsClient :=
  match truthyStr second with
  | none => (.ok ((cl.always.get? point).getD (.names [])), cl)
  | some s =>
    match cl.always.get? point with
    | some (.specs _) => (.error .attributeError, cl)
    | some (.names l) =>
      let l' := match cl.always.get? s with
        | some (.names l2) => l ++ l2
        | some (.specs d) => l ++ d.keys
        | none => l
      (.ok (.names l'), { cl with always := cl.always.set point (.names l') })
    | none =>
      match cl.always.get? s with
      | some (.names l2) => (.ok (.names l2), cl)
      | some (.specs d) => (.ok (.names d.keys), cl)
      | none => (.ok (.names []), cl)

/-- The choice between the client's and the module's settings, session/claims.py:103-112 -/
def claimSettings (m : ClaimsModule) (db : ClaimsDb) (client : Option String) (point : String)
    (second : Option String) : Except Exc (Bool × ClaimList) × ClaimsDb :=
  match m.perClient, client with
  | true, some c =>
    match db.get? c with
    | some cl =>
      match clientAlways cl point second with
      | (.error e, cl') => (.error e, db.set c cl')
      | (.ok l, cl') => (.ok (clientByScope m cl point second, l), db.set c cl')
    | none => (.ok (m.byScope, m.always), db)
  | _, _ => (.ok (m.byScope, m.always), db)

/-- The updates of `get_claims_from_request`, session/claims.py:114-144 -/
def collectClaims (cfg : ClaimsCfg) (m : ClaimsModule) (byScope : Bool) (always : ClaimList) (client : Option String)
    (scopes : List String) (requested : Dict Json) : Dict Json :=
  let base := always.addTo m.base
  let base :=
    if byScope then
      base.update ((scopesToClaims cfg.scopes [] client scopes).map (fun k => (k, Json.null)))
    else base
  base.update requested

/-- `get_claims_from_request`, session/claims.py:89-144.  A request without the parameter "claims" has empty claims. -/
def claimsFromRequest (cfg : ClaimsCfg) (req : Option AuthzReq) (point : String) (scopes : Option (List String))
    (client : Option String) (second : Option String) (db : ClaimsDb) : Except Exc (Dict Json) × ClaimsDb :=
  match getModule cfg point with
  | .error e => (.error e, db)
  | .ok none => (.ok [], db)
  | .ok (some m) =>
    let client := (truthyStr client).or (req.bind (·.clientId))
    match claimSettings m db client point second with
    | (.error e, db') => (.error e, db')
    | (.ok (byScope, always), db') =>
      (.ok (collectClaims cfg m byScope always client
        (scopes.getD ((req.bind (·.scope)).getD []))
        ((req.bind (fun r => r.claims.get? point)).getD [])), db')

/-- The loop of `get_claims_all_usage_from_request`, session/claims.py:182-189, and of the method of
`OAuth2ClaimsInterface`, 289-293. -/
def claimsAllUsage (cfg : ClaimsCfg) (req : Option AuthzReq) (scopes : Option (List String)) (client : Option String) :
    List String → ClaimsDb → Except Exc (Dict (Dict Json)) × ClaimsDb
  | [], db => (.ok [], db)
  | p :: ps, db =>
    match claimsFromRequest cfg req p scopes client none db with
    | (.error e, db') => (.error e, db')
    | (.ok c, db') =>
      match claimsAllUsage cfg req scopes client ps db' with
      | (.error e, db2) => (.error e, db2)
      | (.ok r, db2) => (.ok ((p, c) :: r), db2)

/-- `get_claims_all_usage(session_id, scopes)` for a grant: the OpenID Connect version does not pass the session's client
on, session/claims.py:191-198; the OAuth2 version does, through `get_claims`, 166-180. -/
def grantClaims (cfg : ClaimsCfg) (g : Grant) (client : String) (scopes : List String) (db : ClaimsDb) :
    Except Exc (Dict (Dict Json)) × ClaimsDb :=
  claimsAllUsage cfg g.authzReq (some scopes) (if cfg.oidc then none else some client) (releasePoints cfg.oidc) db

end OidcOp
