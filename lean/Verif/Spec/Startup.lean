/-
Specification vocabulary for C117: when a configuration is in order.
-/
import Verif.Model.Startup
import Verif.Spec.Construct
import Verif.Spec.EndpointAuth
import Verif.Spec.TokenFactory

namespace OidcOp.Spec

/-- The ways to authenticate that the software knows by name (OpenID Connect Core 9, RFC 6750, and two of its own). -/
def knownWays : List String :=
  ["client_secret_basic", "client_secret_post", "bearer_header", "bearer_body", "client_secret_jwt", "private_key_jwt",
   "request_param"]

/-- The arguments have only supported algorithms, under the names in the list. -/
def OnlySupported (lib : CryptoAlgs) (names : Dict Json) (args : Dict Json) : Prop :=
  ∀ n ∈ names.keys, ∀ algs, AlgsAbout lib n algs → ∀ v, args.get? n = some v → AllFrom algs v

/-- An endpoint in order: of one of the classes in the repository, with supported algorithms and known ways to authenticate. -/
structure EndpointInOrder (lib : CryptoAlgs) (c : EndpConf) : Prop where
  shipped : c.cls ∈ shippedClasses
  algs : OnlySupported lib (c.cls.caps.getD []) c.kwargs
  ways : c.kwargs.get? "client_authn_method" = none ∨
    ∃ l, c.kwargs.get? "client_authn_method" = some (strs l) ∧ ∀ n ∈ l, n ∈ knownWays ∨ NoneName n

/-- Settings for a handler that are in order whatever it is: arguments are in a dictionary, the life time is a number, and nothing is
set that the software sets. -/
structure SettingsInOrder (s : Dict Json) : Prop where
  grouped : Grouped s
  lifetime : ∃ lt, Lifetime s 0 lt
  free : (kwargsOf s).get? "token_class" = none ∧ (kwargsOf s).get? "server_get" = none

/-- Settings for a class of tokens in order: encrypted, with a key for them, or signed. -/
def TokensInOrder (key : Option String) (s : Dict Json) : Prop :=
  SettingsInOrder s ∧
  (Encrypted s ∧ s.get? "password" = none ∧ (s.get? "class" ≠ none → s.get? "kwargs" ≠ none) ∧ key ≠ none ∨
   Signed s ∧ (kwargsOf s).get? "password" = none)

/-- Settings for ID tokens in order. -/
structure IdTokensInOrder (lib : CryptoAlgs) (s : Dict Json) : Prop where
  settings : SettingsInOrder s
  cls : s.get? "class" = some (.str "oidcop.token.id_token.IDToken")
  algs : OnlySupported lib
    [("id_token_signing_alg_values_supported", .null), ("id_token_encryption_alg_values_supported", .null),
     ("id_token_encryption_enc_values_supported", .null)] (kwargsOf s)

/-- There is an endpoint of that name. -/
def HasEndpoint (conf : StartConf) (name : String) : Prop := ∃ c ∈ conf.endpoints, c.cls.name = name

/-- An add-on in order: it has the endpoints that it adds to, and its methods are those of RFC 7636 or their relatives. -/
def AddOnInOrder (conf : StartConf) : AddOnConf → Prop
  | .pkce ms => ∀ l, ms = some l → ∀ m ∈ l, m = "plain" ∨ m = "S256" ∨ m = "S384" ∨ m = "S512"
  | .dpop _ => HasEndpoint conf "token"
  | .customScopes _ => conf.endpoints ≠ []

/-- A configuration in order. -/
structure ConfInOrder (lib : FactoryLib) (conf : StartConf) : Prop where
  authn : ∀ n i, (n, i) ∈ conf.authn → i.acr ≠ none ∧ i.method ≠ none
  endpoints : ∀ c ∈ conf.endpoints, EndpointInOrder lib.crypto c
  tokens : ∀ n cls, (n, cls) ∈ tokenSettings → ∀ s, settingsOf conf.factoryConf n = some s →
    TokensInOrder (factoryKey lib conf.factoryConf n) s
  idTokens : ∀ s, conf.factoryConf.idToken = some s → IdTokensInOrder lib.crypto s
  addOns : ∀ a ∈ conf.addOns, AddOnInOrder conf a
  claims : conf.claimsInterface = true

/-- The library signs with algorithms of the families it sorts by. -/
def Sortable (lib : CryptoAlgs) : Prop := ∀ a ∈ lib.sign, KnownAlg a

/-- It is known which grant types there are: no capabilities are configured at all; or grant types are among them; or the
authorization endpoint adds them, and no endpoint is configured with something that is no list. -/
def GrantTypesKnown (conf : StartConf) : Prop :=
  ∀ caps, conf.caps = some caps →
    (∃ l, Dict.get? caps "grant_types_supported" = some (.arr l)) ∨
    (Dict.get? caps "grant_types_supported" = none ∧ HasEndpoint conf "authorization" ∧
      ∀ c ∈ conf.endpoints, ∀ v, c.kwargs.get? "grant_types_supported" = some v → ∃ l, v = .arr l)

/-- Something in the configuration that is wrong. -/
inductive Wrong (lib : FactoryLib) (conf : StartConf) : Prop where
  | authn (n : String) (i : BrokerInfo) (h : (n, i) ∈ conf.authn) (hi : i.acr = none ∨ i.method = none)
  | way (c : EndpConf) (h : c ∈ conf.endpoints) (l : List String) (hl : c.kwargs.get? "client_authn_method" = some (strs l))
      (n : String) (hn : n ∈ l) (hw : n ∉ knownWays ∧ ¬ NoneName n)
  | algorithm (c : EndpConf) (h : c ∈ conf.endpoints) (n : String) (hn : n ∈ Dict.keys (c.cls.caps.getD [])) (algs : List String)
      (ha : AlgsAbout lib.crypto n algs) (v : Json) (hv : c.kwargs.get? n = some v) (hw : ¬ AllFrom algs v)
  | noKey (n cls : String) (hn : (n, cls) ∈ tokenSettings) (s : Dict Json) (hs : settingsOf conf.factoryConf n = some s)
      (hg : Grouped s) (he : Encrypted s) (hk : factoryKey lib conf.factoryConf n = none) (hp : ∀ p, ¬ PasswordIn s p)
  | notAnIdToken (s : Dict Json) (hs : conf.factoryConf.idToken = some s)
      (hc : s.get? "class" ≠ some (.str "oidcop.token.id_token.IDToken"))
  | dpop (algs : List String) (h : .dpop algs ∈ conf.addOns) (hn : ¬ HasEndpoint conf "token")
  | challenge (l : List String) (h : .pkce (some l) ∈ conf.addOns) (ha : HasEndpoint conf "authorization")
      (ht : HasEndpoint conf "token") (m : String) (hm : m ∈ l) (hw : m ≠ "plain" ∧ m ≠ "S256" ∧ m ≠ "S384" ∧ m ≠ "S512")
  | noClaims (h : conf.claimsInterface = false)

/-- What a server has that runs. -/
structure HasAll (conf : StartConf) (s : Started) : Prop where
  endpoints : ∀ n, s.serv.endpoints.get? n ≠ none ↔ HasEndpoint conf n
  ways : (conf.endpoints.map (·.cls.name)).Nodup → ∀ c ∈ conf.endpoints, ∀ l, l ≠ [] →
    c.kwargs.get? "client_authn_method" = some (strs l) →
      ∃ ms, s.methods.get? c.cls.name = some ms ∧ (∀ m, some m ∈ ms ↔ m.tag ∈ l) ∧ (none ∈ ms ↔ ∃ n ∈ l, NoneName n)
  authn : (conf.authn.map (·.1)).Nodup → ∀ n i, (n, i) ∈ conf.authn →
    ∃ m, s.broker.db.get? n = some m ∧ some m.acr = i.acr ∧ some m.id = i.method
  tokens : ∀ n cls, (n, cls) ∈ tokenSettings → (s.handlers.get? cls ≠ none ↔ settingsOf conf.factoryConf n ≠ none)
  idTokens : s.handlers.get? "id_token" ≠ none ↔ conf.factoryConf.idToken ≠ none

end OidcOp.Spec
