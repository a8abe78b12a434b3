/-
The start of a server: `Server.__init__` (server.py:61-127) as a whole, with `allow_refresh_token` (util.py:199-221) and what the
add-ons demand.  Model/Metadata has the part of it that makes the metadata, Model/TokenFactory the token handlers, Model/Broker the
authentication methods and Model/EndpointAuth the ways to authenticate clients.
-/
import Verif.Model.Broker
import Verif.Model.EndpointAuth
import Verif.Model.TokenFactory

namespace OidcOp

/-- An add-on in the configuration.  `methods` is "code_challenge_methods" if it is there. -/
inductive AddOnConf where
  | pkce (methods : Option (List String))
  | dpop (algs : List String)
  | customScopes (scopes : ScopeMap)
  deriving DecidableEq, Repr, Inhabited

/-- What the add-on does to the metadata. -/
def AddOnConf.plain : AddOnConf → AddOn
  | .pkce _ => .pkce
  | .dpop algs => .dpop algs
  | .customScopes m => .customScopes m

/-- The keys of `CC_METHOD`, oidc/add_on/pkce.py:25-30 -/
def ccMethods : List String := ["plain", "S256", "S384", "S512"]

/-- What makes an add-on raise: oidc/add_on/pkce.py:127-148 (without the two endpoints it is skipped), oauth2/add_on/dpop.py:135
and oidc/add_on/custom_scopes.py:17. -/
def checkAddOn (endps : Dict Endp) : AddOnConf → Except Exc Unit
  | .pkce ms =>
    if endps.has "authorization" && endps.has "token" && !(ms.getD ccMethods).all (fun m => decide (m ∈ ccMethods)) then
      .error .valueError
    else .ok ()
  | .dpop _ => if endps.has "token" then .ok () else .error .keyError
  | .customScopes _ => if endps.isEmpty then .error .indexError else .ok ()

/-- `do_add_on`, endpoint_context.py:262-271, for functions that can be imported. -/
def checkAddOns (endps : Dict Endp) : List AddOnConf → Except Exc Unit
  | [] => .ok ()
  | a :: as => checkAddOn endps a >>= fun _ => checkAddOns endps as

/-- The configuration.  `authn` are the authentication methods, already instantiated (`init_method`,
user_authn/authn_context.py:164-178); `tokens` is "token_handler_args"; `claimsInterface`: "claims_interface" is there.  Services that
do nothing but be instantiated (authz, userinfo, the hints, the cookie handler, the templates) are left out. -/
structure StartConf where
  issuer : String
  endpoints : List EndpConf := []
  caps : Option (Dict Json) := none
  authn : Dict BrokerInfo := []
  jwksPath : Option String := none
  scopes : ScopeCfg := {}
  tokens : Option FactoryConf := none
  addOns : List AddOnConf := []
  claimsInterface : Bool := true

/-- `th_args`, endpoint_context.py:64-88, 171 -/
def StartConf.factoryConf (conf : StartConf) : FactoryConf := conf.tokens.getD defaultFactoryConf

/-- The arguments of the ID token handler, token/handler.py:85-109.  Handlers of other classes have no `provider_info`
(server.py:123-127). -/
def idTokenArgs (spec : Dict Json) : Except Exc (Dict Json) :=
  match specKwargs spec with
  | .error e => .error e
  | .ok kw =>
    match handlerKind ((spec.get? "class").getD (.str defaultTokenName)) with
    | .error e => .error e
    | .ok .idt => .ok ((kw.getD spec).erase "lifetime")
    | .ok _ => .error .attributeError

/-- The arguments of the ID token handler, if there is one. -/
def idTokenArgsOf : Option (Dict Json) → Except Exc (Option (Dict Json))
  | none => .ok none
  | some spec =>
    match idTokenArgs spec with
    | .error e => .error e
    | .ok a => .ok (some a)

/-- `client_authn_method` of the endpoints by their names, endpoint.py:115-124 and server.py:93-111. -/
def allMethods : List EndpConf → Dict (List (Option CAuthn)) → Except Exc (Dict (List (Option CAuthn)))
  | [], acc => .ok acc
  | c :: cs, acc =>
    match endpointMethods c with
    | .error e => .error e
    | .ok ms => allMethods cs (acc.set c.cls.name ms)

/-- `allow_refresh_token`, util.py:199-221.  `caps` is conf["capabilities"] at that time.  A handler that was found is true, so the
branch that raises OidcEndpointError is never reached. -/
def allowRefresh (caps : Option (Dict Json)) (hs : Dict Made) : Except Exc Bool :=
  if hs.has "refresh_token" then
    match caps with
    | none => .ok false
    | some c =>
      if c.isEmpty then .ok false
      else
        match c.get? "grant_types_supported" with
        | none => .error .keyError
        | some v => pyIn (.str "refresh_token") v
  else .error .keyError

/-- server.py:115-117: only a server with a token endpoint looks. -/
def tokenAllowRefresh (endps : Dict Endp) (caps : Option (Dict Json)) (hs : Dict Made) : Except Exc Bool :=
  if endps.has "token" then allowRefresh caps hs else .ok false

/-- A server that runs. -/
structure Started where
  serv : Serv
  broker : Broker
  methods : Dict (List (Option CAuthn))
  handlers : Dict Made
  refresh : Bool

/-- The part of the configuration that makes the metadata. -/
def StartConf.server (conf : StartConf) (broker : Broker) (idt : Option (Dict Json)) : ServerConf :=
  { issuer := conf.issuer, endpoints := conf.endpoints, caps := conf.caps, broker := broker.db.map (·.2), jwksPath := conf.jwksPath
    scopes := conf.scopes, addOns := conf.addOns.map AddOnConf.plain, idToken := idt }

/-- conf["claims_interface"], server.py:119-121 -/
def needs (there : Bool) : Except Exc Unit := if there then .ok () else .error .keyError

/-- `Server.__init__`, server.py:61-127.  The steps are in the order of the code, but for the members that the ID token handler adds
to the metadata, which come with the others: "grant_types_supported" is not among them.  If several things are wrong the exception
may be another one. -/
def startServer (lib : FactoryLib) (conf : StartConf) : Except Exc Started :=
  populateBroker conf.authn >>= fun broker =>
  allMethods conf.endpoints [] >>= fun methods =>
  idTokenArgsOf conf.factoryConf.idToken >>= fun idt =>
  makeServer lib.crypto (conf.server broker idt) >>= fun serv =>
  checkAddOns serv.endpoints conf.addOns >>= fun _ =>
  factory lib conf.factoryConf >>= fun hs =>
  tokenAllowRefresh serv.endpoints (conf.caps.map (fun _ => serv.info)) hs >>= fun r =>
  needs conf.claimsInterface >>= fun _ =>
  .ok { serv := serv, broker := broker, methods := methods, handlers := hs, refresh := r }

end OidcOp
