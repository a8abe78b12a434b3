/-
Model of configure.py: what becomes of the settings that a deployment gives, and of the places where the provider reads them
(endpoint_context.py, util.py).
-/
import Verif.Model.Registration
import Verif.Model.Scopes
import Verif.Model.Authz

namespace OidcOp

/-- No dictionary in the value has one of the names as a key. -/
inductive Json.Without (names : List String) : Json → Prop where
  | null : Without names .null
  | bool (b : Bool) : Without names (.bool b)
  | num (n : Int) : Without names (.num n)
  | str (s : String) : Without names (.str s)
  | arr (l : List Json) : (∀ j ∈ l, Without names j) → Without names (.arr l)
  | obj (l : List (String × Json)) : (∀ q ∈ l, q.1 ∉ names) → (∀ q ∈ l, Without names q.2) → Without names (.obj l)

/-- The parts of oidcmsg and of `os` in use.  `format domain port v` is what `Base.format` (oidcmsg) makes of the object `v`: it puts
in the domain and port and makes file names absolute, in the items of dictionaries with certain names (`names`: the `uris`, file and
directory attributes).  It works in place and what it returns is not looked at (configure.py:133-141), so that a string by itself
stays as it is. -/
structure ConfLib where
  format : String → Int → Json → Json
  abspath : String → String
  names : List String
  format_without : ∀ d p j, Json.Without names j → format d p j = j

/-- `SCOPE2CLAIMS` as a value, scopes.py:3-25 -/
def scope2claimsJson : Json := .obj (scope2claims.map (fun p => (p.1, .arr (p.2.map .str))))

/-- The "authz" of `OP_DEFAULT_CONFIG`, configure.py:44-66 -/
def defaultAuthzJson : Json :=
  .obj [("class", .str "oidcop.authz.AuthzHandling"),
    ("kwargs", .obj [("grant_config", .obj [
      ("usage_rules", .obj [
        ("authorization_code", .obj [("supports_minting", .arr [.str "access_token", .str "refresh_token", .str "id_token"]),
          ("max_usage", .num 1)]),
        ("access_token", .obj []),
        ("refresh_token", .obj [("supports_minting", .arr [.str "access_token", .str "refresh_token"]), ("expires_in", .num (-1))])]),
      ("expires_in", .num 43200)])])]

/-- `OP_DEFAULT_CONFIG`, configure.py:15-84 -/
def opDefaults : Dict Json :=
  [("capabilities", .obj [("subject_types_supported", .arr [.str "public", .str "pairwise"]),
      ("grant_types_supported", .arr [.str "authorization_code", .str "implicit",
        .str "urn:ietf:params:oauth:grant-type:jwt-bearer", .str "refresh_token"])]),
   ("cookie_handler", .obj [("class", .str "oidcop.cookie_handler.CookieHandler"),
      ("kwargs", .obj [
        ("keys", .obj [("private_path", .str "private/cookie_jwks.json"),
          ("key_defs", .arr [.obj [("type", .str "OCT"), ("use", .arr [.str "enc"]), ("kid", .str "enc")],
            .obj [("type", .str "OCT"), ("use", .arr [.str "sig"]), ("kid", .str "sig")]]),
          ("read_only", .bool false)]),
        ("name", .obj [("session", .str "oidc_op"), ("register", .str "oidc_op_rp"), ("session_management", .str "sman")])])]),
   ("claims_interface", .obj [("class", .str "oidcop.session.claims.ClaimsInterface"), ("kwargs", .obj [])]),
   ("authz", defaultAuthzJson),
   ("httpc_params", .obj [("verify", .bool false), ("timeout", .num 4)]),
   ("issuer", .str "https://{domain}:{port}"),
   ("template_dir", .str "templates"),
   ("token_handler_args", .obj [("jwks_file", .str "private/token_jwks.json"),
      ("code", .obj [("kwargs", .obj [("lifetime", .num 600)])]),
      ("token", .obj [("class", .str "oidcop.token.jwt_token.JWTToken"), ("kwargs", .obj [("lifetime", .num 3600)])]),
      ("refresh", .obj [("class", .str "oidcop.token.jwt_token.JWTToken"), ("kwargs", .obj [("lifetime", .num 86400)])]),
      ("id_token", .obj [("class", .str "oidcop.token.id_token.IDToken"), ("kwargs", .obj [])])]),
   ("scopes_to_claims", scope2claimsJson)]

/-- `AS_DEFAULT_CONFIG`, configure.py:86-90 -/
def asDefaults : Dict Json :=
  opDefaults.set "claims_interface" (.obj [("class", .str "oidcop.session.claims.OAuth2ClaimsInterface"), ("kwargs", .obj [])])

/-- `EntityConfiguration.parameter`, configure.py:96-113 -/
def entityParameter : List String :=
  ["add_on", "authz", "authentication", "base_url", "capabilities", "claims_interface", "client_db", "cookie_handler", "endpoint",
   "httpc_params", "issuer", "keys", "session_params", "template_dir", "token_handler_args", "userinfo"]

/-- `OPConfiguration.parameter`, configure.py:161-170 -/
def opParameter : List String :=
  entityParameter ++ ["id_token", "login_hint2acrs", "login_hint_lookup", "sub_func", "scopes_to_claims"]

/-- The value of a setting, configure.py:130-143; `none` is the `continue` of line 143. -/
def confValue (L : ConfLib) (domain : String) (port : Int) (defaults conf : Dict Json) (key : String) : Option Json :=
  match conf.get? key with
  | some v => if v.truthy then some v else (defaults.get? key).map (L.format domain port)
  | none => (defaults.get? key).map (L.format domain port)

/-- The name under which a setting is kept, configure.py:152-153. -/
def confName (key : String) : String := if key = "keys" then "key_conf" else key

/-- One turn of the loop, configure.py:129-155; the warnings of lines 145-148 have no effect.  `abspath` of something that is no
string is a TypeError. -/
def confStep (L : ConfLib) (domain : String) (port : Int) (defaults conf : Dict Json) (acc : Dict Json) (key : String) :
    Except Exc (Dict Json) :=
  match confValue L domain port defaults conf key with
  | none => .ok acc
  | some v =>
    if key = "template_dir" then
      match v with
      | .str s => .ok (acc.set key (.str (L.abspath s)))
      | _ => .error .typeError
    else .ok (acc.set (confName key) v)

/-- The loop of `EntityConfiguration.__init__`. -/
def confLoop (L : ConfLib) (domain : String) (port : Int) (defaults conf : Dict Json) : Dict Json → List String → Except Exc (Dict Json)
  | acc, [] => .ok acc
  | acc, key :: r =>
    match confStep L domain port defaults conf acc key with
    | .error e => .error e
    | .ok acc => confLoop L domain port defaults conf acc r

/-- `OPConfiguration(conf, domain=.., port=..)`, configure.py:115-155, 158-190.  `conf` is the deep copy of the settings, with file
names made absolute by `Base.__init__` (oidcmsg), which starts with an empty dictionary and takes nothing else from it. -/
def opConfiguration (L : ConfLib) (domain : String) (port : Int) (conf : Dict Json) : Except Exc (Dict Json) :=
  confLoop L domain port opDefaults conf [] opParameter

/-- `ASConfiguration(conf, domain=.., port=..)`, configure.py:193-215 -/
def asConfiguration (L : ConfLib) (domain : String) (port : Int) (conf : Dict Json) : Except Exc (Dict Json) :=
  confLoop L domain port asDefaults conf [] entityParameter

/-! ### Where the provider reads its configuration -/

/-- A list of strings in a configuration; anything else counts as nothing. -/
def confList : Option Json → Option (List String)
  | some (.arr l) => strList l
  | _ => none

/-- Entries of a mapping of scopes to claims; an entry that is no list of strings is left out. -/
def confScopeMap : Option Json → Option ScopeMap
  | some (.obj l) => some (l.filterMap (fun p => (confList (some p.2)).map (fun x => (p.1, x))))
  | _ => none

/-- `set_scopes_handler` without a "scopes_handler", endpoint_context.py:255-260, and the reading of "deny_unknown_scopes",
oauth2/authorization.py:265 -/
def scopeCfgOf (conf : Dict Json) (cdb : Dict ScopeClient) : ScopeCfg :=
  { allowedScopes := confList (conf.get? "allowed_scopes")
    scopesToClaims := confScopeMap (conf.get? "scopes_to_claims")
    cdb := cdb
    denyUnknown := match conf.get? "capabilities" with
      | some (.obj c) => ((Dict.get? c "deny_unknown_scopes").map Json.truthy).getD false
      | _ => false }

/-- `verify` of the HTTP client's arguments, util.py:161-169 and endpoint_context.py:232-237: `some b` where it is given, `none` where
it is left to the HTTP library, which verifies. -/
def httpVerify (conf : Dict Json) : Option Bool :=
  match conf.get? "httpc_params" with
  | some (.obj []) => fallback
  | some (.obj c) =>
    match ((Dict.get? c "verify").filter (· != .null)).or (Dict.get? c "verify_ssl") with
    | some (.bool b) => some b
    | some (.num n) => if n = 0 then some false else if n = 1 then some true else none
    | _ => none
  | _ => fallback
where
  fallback : Option Bool :=
    match conf.get? "verify_ssl" with
    | some (.bool b) => some b
    | some v => some v.truthy
    | none => some true

/-- The rules of one token class in a configuration. -/
def rulesOfJson (j : Dict Json) : UsageRules :=
  { maxUsage := match j.get? "max_usage" with | some (.num n) => some n | _ => none
    supportsMinting := match j.get? "supports_minting" with
      | some (.arr l) => (strList l).map (fun l => l.map classNamed)
      | _ => none
    expiresIn := match j.get? "expires_in" with | some (.num n) => some n | _ => none }
where
  /-- the token classes, session/token.py:190-254, session/grant.py:97-118 -/
  classNamed : String → TokenClass
    | "authorization_code" => .authorizationCode
    | "access_token" => .accessToken
    | "refresh_token" => .refreshToken
    | "id_token" => .idToken
    | s => .other s

/-- `grant_config` of `AuthzHandling`, server.py:147-152 and authz/__init__.py:19-21, as `AuthzCfg` has it. -/
def authzCfgOf (conf : Dict Json) (perClient : Dict Rules) : AuthzCfg :=
  match conf.get? "authz" with
  | some (.obj a) =>
    match Dict.get? a "kwargs" with
    | some (.obj kw) =>
      match Dict.get? kw "grant_config" with
      | some (.obj gc) =>
        { expiresIn := match Dict.get? gc "expires_in" with | some (.num n) => some n | _ => none
          usageRules := match Dict.get? gc "usage_rules" with
            | some (.obj rs) => some (rs.filterMap (fun p => match p.2 with
                | .obj r => some (rulesOfJson.classNamed p.1, rulesOfJson r)
                | _ => none))
            | _ => none
          perClient := perClient }
      | _ => { perClient := perClient }
    | _ => { perClient := perClient }
  | _ => { perClient := perClient }

end OidcOp
