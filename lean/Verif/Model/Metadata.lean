/-
The provider metadata: `build_endpoints` (util.py), `do_endpoints`, `get_capabilities` and `Server.__init__` (server.py),
`create_providerinfo` (endpoint_context.py), the add-ons that change the metadata, and the provider configuration endpoint
(oidc/provider_config.py).
-/
import Verif.Model.Construct
import Verif.Model.Login

namespace OidcOp

/-- What an endpoint class brings along: `name`, `endpoint_name`, `default_capabilities` (endpoint.py:81-94); whether its
constructor adds the issuer to `allowed_targets` (oidc/userinfo.py:46), and whether it publishes its authentication methods
(oauth2/token.py:381-384). -/
structure EndpClass where
  name : String
  endpointName : String := ""
  caps : Option (Dict Json) := none
  issuerTarget : Bool := false
  authMethods : Bool := false
  deriving Repr, Inhabited

/-- A list of strings as a value. -/
def strs (l : List String) : Json := .arr (l.map .str)

/-- oidc/authorization.py:76-97 -/
def oidcAuthorizationClass : EndpClass :=
  { name := "authorization", endpointName := "authorization_endpoint"
    caps := some
      [("claims_parameter_supported", .bool true), ("request_parameter_supported", .bool true),
       ("request_uri_parameter_supported", .bool true),
       ("response_types_supported",
         strs ["code", "token", "id_token", "code token", "code id_token", "id_token token", "code id_token token"]),
       ("response_modes_supported", strs ["query", "fragment", "form_post"]),
       ("request_object_signing_alg_values_supported", .null), ("request_object_encryption_alg_values_supported", .null),
       ("request_object_encryption_enc_values_supported", .null),
       ("grant_types_supported", strs ["authorization_code", "implicit"]),
       ("claim_types_supported", strs ["normal", "aggregated", "distributed"])] }

/-- `default_capabilities` of oauth2/authorization.py:287-298 -/
def oauth2AuthorizationCaps : Dict Json :=
  [("claims_parameter_supported", .bool true), ("request_parameter_supported", .bool true),
   ("request_uri_parameter_supported", .bool true), ("response_types_supported", strs ["code", "token", "code token"]),
   ("response_modes_supported", strs ["query", "fragment", "form_post"]),
   ("request_object_signing_alg_values_supported", .null), ("request_object_encryption_alg_values_supported", .null),
   ("request_object_encryption_enc_values_supported", .null),
   ("grant_types_supported", strs ["authorization_code", "implicit"]), ("scopes_supported", .arr [])]

/-- oauth2/authorization.py:285-298 -/
def oauth2AuthorizationClass : EndpClass :=
  { name := "authorization", endpointName := "authorization_endpoint", caps := some oauth2AuthorizationCaps }

/-- oauth2/pushed_authorization.py:8-16: the capabilities are those of the OAuth2 authorization endpoint. -/
def pushedAuthorizationClass : EndpClass :=
  { name := "pushed_authorization", endpointName := "pushed_authorization_request_endpoint"
    caps := some oauth2AuthorizationCaps }

/-- oauth2/token.py:370-372, 381-384, oidc/token.py:364-366 -/
def tokenClass : EndpClass :=
  { name := "token", endpointName := "token_endpoint"
    caps := some [("token_endpoint_auth_signing_alg_values_supported", .null)], authMethods := true }

/-- oidc/userinfo.py:28-46 -/
def userinfoClass : EndpClass :=
  { name := "userinfo", endpointName := "userinfo_endpoint"
    caps := some
      [("claim_types_supported", strs ["normal", "aggregated", "distributed"]),
       ("userinfo_signing_alg_values_supported", .null), ("userinfo_encryption_alg_values_supported", .null),
       ("userinfo_encryption_enc_values_supported", .null),
       ("client_authn_method", strs ["bearer_header", "bearer_body"])]
    issuerTarget := true }

/-- oidc/session.py:82-90 -/
def sessionClass : EndpClass :=
  { name := "session", endpointName := "end_session_endpoint"
    caps := some
      [("frontchannel_logout_supported", .bool true), ("frontchannel_logout_session_supported", .bool true),
       ("backchannel_logout_supported", .bool true), ("backchannel_logout_session_supported", .bool true),
       ("check_session_iframe", .null)] }

/-- oidc/registration.py:143-144 -/
def registrationClass : EndpClass := { name := "registration", endpointName := "registration_endpoint" }

/-- oauth2/introspection.py:21-22 -/
def introspectionClass : EndpClass := { name := "introspection", endpointName := "introspection_endpoint" }

/-- oidc/read_registration.py:16 -/
def registrationReadClass : EndpClass := { name := "registration_read" }

/-- oidc/discovery.py:15 -/
def discoveryClass : EndpClass := { name := "discovery" }

/-- oidc/provider_config.py:15-16 -/
def providerConfigClass : EndpClass :=
  { name := "provider_config", caps := some [("require_request_uri_registration", .null)] }

/-- The endpoint classes in the repository. -/
def shippedClasses : List EndpClass :=
  [oidcAuthorizationClass, oauth2AuthorizationClass, pushedAuthorizationClass, tokenClass, userinfoClass, sessionClass,
   registrationClass, introspectionClass, registrationReadClass, discoveryClass, providerConfigClass]

/-- An entry of conf["endpoint"].  An entry without a path is a KeyError (util.py:68-72) and left out.  A relative
"check_session_iframe" is taken to be completed already (oidc/session.py:92-95). -/
structure EndpConf where
  cls : EndpClass
  path : String
  kwargs : Dict Json := []
  deriving Repr, Inhabited

/-- An endpoint of a running server. -/
structure Endp where
  endpointName : String := ""
  path : String := ""
  fullPath : String := ""
  info : Option (Dict Json) := none
  targets : List String := []
  deriving DecidableEq, Repr, Inhabited

/-- The methods of authentication among the information, oauth2/token.py:381-384 -/
def withAuthMethods (c : EndpClass) (kwargs info : Dict Json) : Dict Json :=
  match c.authMethods, kwargs.get? "client_authn_method" with
  | true, some v => info.set "token_endpoint_auth_methods_supported" v
  | _, _ => info

/-- `endpoint_info` after the constructor, endpoint.py:125 -/
def EndpClass.info (lib : CryptoAlgs) (c : EndpClass) (kwargs : Dict Json) : Except Exc (Option (Dict Json)) :=
  match c.caps with
  | none => .ok none
  | some d =>
    match constructEndpointInfo lib d kwargs with
    | .error e => .error e
    | .ok i => .ok (some (withAuthMethods c kwargs i))

/-- The issuer without a slash at the end, util.py:54-57 -/
def baseUrl (issuer : String) : String :=
  if issuer.toList.getLast? = some '/' then String.ofList issuer.toList.dropLast else issuer

/-- `full_path`, util.py:75 -/
def fullPath (issuer path : String) : String := baseUrl issuer ++ "/" ++ path

/-- The URL among the information, util.py:77-81 -/
def withUrl (endpointName url : String) (info : Option (Dict Json)) : Option (Dict Json) :=
  if endpointName = "" then info else some ((info.getD []).set endpointName (.str url))

/-- One endpoint, util.py:60-81, with `allowed_targets`, endpoint.py:129 and oidc/userinfo.py:46 -/
def buildOne (lib : CryptoAlgs) (issuer : String) (c : EndpConf) : Except Exc Endp :=
  match c.cls.info lib c.kwargs with
  | .error e => .error e
  | .ok i =>
    .ok { endpointName := c.cls.endpointName, path := c.path, fullPath := fullPath issuer c.path
          info := withUrl c.cls.endpointName (fullPath issuer c.path) i
          targets := c.cls.name :: (if c.cls.issuerTarget then [""] else []) }

/-- `build_endpoints`, util.py:38-85: the endpoints by their `name`. -/
def buildEndpoints (lib : CryptoAlgs) (issuer : String) : List EndpConf → Dict Endp → Except Exc (Dict Endp)
  | [], acc => .ok acc
  | c :: cs, acc =>
    match buildOne lib issuer c with
    | .error e => .error e
    | .ok e => buildEndpoints lib issuer cs (acc.set c.cls.name e)

/-- server.py:33-35: what is there already stays. -/
def addMissing (cap : Dict Json) : Dict Json → Dict Json
  | [] => cap
  | (k, v) :: r => addMissing (if cap.has k then cap else cap.set k v) r

/-- `get_capabilities`, server.py:40-55 (and 24-37, with the same outcome). -/
def collectCaps (cap : Dict Json) : Dict Endp → Dict Json
  | [] => cap
  | (n, e) :: r =>
    if n = "webfinger" ∨ n = "provider_config" then collectCaps cap r
    else collectCaps (addMissing cap (e.info.getD [])) r

/-- `jwks_uri`, endpoint_context.py:209-216 -/
def jwksUri (issuer path : String) : String :=
  if issuer.toList.getLast? = some '/' then issuer ++ path else issuer ++ "/" ++ path

/-- The strings in a list. -/
def stringsOf : Json → List String
  | .arr l => l.filterMap (fun v => match v with | .str s => some s | _ => none)
  | _ => []

/-- The add-ons in the repository. -/
inductive AddOn where
  /-- oauth2/add_on and oidc/add_on/pkce.py:125-152: no metadata -/
  | pkce
  /-- oauth2/add_on/dpop.py:133-147 -/
  | dpop (algs : List String)
  /-- oidc/add_on/custom_scopes.py:8-36 -/
  | customScopes (scopes : ScopeMap)
  deriving DecidableEq, Repr, Inhabited

/-- What a server is made from.  `caps` is conf["capabilities"] (absent, or a dictionary), `jwksPath` is the path in "key_conf"
if there is one and there are keys, `idToken` are the keyword arguments of the ID token handler if there is one. -/
structure ServerConf where
  issuer : String
  endpoints : List EndpConf := []
  caps : Option (Dict Json) := none
  broker : List AuthnMethod := []
  jwksPath : Option String := none
  scopes : ScopeCfg := {}
  addOns : List AddOn := []
  idToken : Option (Dict Json) := none

/-- "acr_values_supported", endpoint_context.py:325-328; an empty broker counts as none. -/
def withAcr (broker : List AuthnMethod) (info : Dict Json) : Dict Json :=
  if broker.isEmpty then info else info.set "acr_values_supported" (strs (broker.map (·.acr)))

/-- "jwks_uri", endpoint_context.py:330-331 -/
def withJwks (issuer : String) (path : Option String) (info : Dict Json) : Dict Json :=
  match path with
  | none => info
  | some p => info.set "jwks_uri" (.str (jwksUri issuer p))

/-- "scopes_supported", endpoint_context.py:333-334 -/
def withScopes (cfg : ScopeCfg) (info : Dict Json) : Dict Json :=
  if info.has "scopes_supported" then info else info.set "scopes_supported" (strs (allowedScopes cfg none))

/-- "claims_supported", endpoint_context.py:335-338 -/
def withClaims (cfg : ScopeCfg) (info : Dict Json) : Dict Json :=
  if info.has "claims_supported" then info
  else
    info.set "claims_supported"
      (strs (scopesToClaims cfg [] none (stringsOf ((info.get? "scopes_supported").getD .null))))

/-- `create_providerinfo`, endpoint_context.py:312-340 -/
def createProviderInfo (conf : ServerConf) (cap : Dict Json) : Dict Json :=
  let info := (cap.set "issuer" (.str conf.issuer)).set "version" (.str "3.0")
  withClaims conf.scopes (withScopes conf.scopes (withJwks conf.issuer conf.jwksPath (withAcr conf.broker info)))

/-- A union of lists; in Python the order is that of a set, which is left open. -/
def union (a b : List String) : List String := a ++ b.filter (fun x => decide (x ∉ a))

/-- One add-on: the metadata, and the scopes handler with its mapping and allowed scopes. -/
def addOn (s : Dict Json × ScopeCfg) : AddOn → Dict Json × ScopeCfg
  | .pkce => s
  | .dpop algs =>
    (s.1.set "dpop_signing_alg_values_supported" (strs (if algs.isEmpty then ["RS256"] else algs)), s.2)
  | .customScopes m =>
    let sc := union (stringsOf ((s.1.get? "scopes_supported").getD .null)) m.keys
    let cl := union (stringsOf ((s.1.get? "claims_supported").getD .null)) (m.flatMap (·.2))
    ((s.1.set "scopes_supported" (strs sc)).set "claims_supported" (strs cl),
     { s.2 with allowedScopes := some sc, scopesToClaims := some (scope2claims.update m) })

/-- `default_capabilities`, token/id_token.py:113-117 -/
def idTokenCaps : Dict Json :=
  [("id_token_signing_alg_values_supported", .null), ("id_token_encryption_alg_values_supported", .null),
   ("id_token_encryption_enc_values_supported", .null)]

/-- `provider_info` of the ID token handler, token/id_token.py:131, server.py:123-127 -/
def idTokenInfo (lib : CryptoAlgs) : Option (Dict Json) → Except Exc (Dict Json)
  | none => .ok []
  | some kwargs => constructEndpointInfo lib idTokenCaps kwargs

/-- A running server: its endpoints, `provider_info` and the scopes handler. -/
structure Serv where
  endpoints : Dict Endp := []
  info : Dict Json := []
  scopes : ScopeCfg := {}
  deriving DecidableEq, Repr, Inhabited

/-- `Server.__init__`, server.py:61-127, as far as the metadata go. -/
def makeServer (lib : CryptoAlgs) (conf : ServerConf) : Except Exc Serv :=
  match buildEndpoints lib conf.issuer conf.endpoints [] with
  | .error e => .error e
  | .ok endps =>
    match idTokenInfo lib conf.idToken with
    | .error e => .error e
    | .ok idt =>
      let s := conf.addOns.foldl addOn (createProviderInfo conf (collectCaps (conf.caps.getD []) endps), conf.scopes)
      .ok { endpoints := endps, info := s.1.update idt, scopes := s.2 }

/-- The configuration afterwards: `provider_info` is the object in conf["capabilities"], if there is one (server.py:27, 41;
endpoint_context.py:320). -/
def ServerConf.after (conf : ServerConf) (s : Serv) : ServerConf := { conf with caps := conf.caps.map (fun _ => s.info) }

/-- `add_endpoints`, oidc/provider_config.py:22-34 -/
def addEndpoints (endps : Dict Endp) (info : Dict Json) : List String → Dict Json
  | [] => info
  | k :: ks =>
    match endps.get? k with
    | some e => addEndpoints endps (info.set k (.str e.path)) ks
    | none => addEndpoints endps info ks

/-- The document that the provider configuration endpoint sends, oidc/provider_config.py:22-37 and endpoint.py:280-299;
`defaults` are the values that the message class has for absent members. -/
def document (defaults : Dict Json) (s : Serv) : Dict Json :=
  addMissing (addEndpoints s.endpoints s.info
    ["authorization_endpoint", "registration_endpoint", "token_endpoint", "userinfo_endpoint", "end_session_endpoint"]) defaults

/-- `allowed_target_uris`, endpoint.py:417-425 -/
def targetUris (issuer : String) (endps : Dict Endp) : List String → Except Exc (List String)
  | [] => .ok []
  | t :: ts =>
    match targetUris issuer endps ts with
    | .error e => .error e
    | .ok l =>
      if t = "" then .ok (issuer :: l)
      else
        match endps.get? t with
        | none => .error .attributeError
        | some e => .ok (e.fullPath :: l)

end OidcOp
