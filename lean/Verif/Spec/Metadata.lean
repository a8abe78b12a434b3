/-
Specification vocabulary for C96-C98: what the provider metadata should say.
-/
import Verif.Model.Metadata

namespace OidcOp.Spec

/-- The URL of a path at an issuer: one slash between the two, also if the issuer ends with one. -/
inductive UrlAt (issuer path : String) : String → Prop where
  | slash (b : String) (h : issuer = b ++ "/") : UrlAt issuer path (b ++ "/" ++ path)
  | plain (h : ∀ b, issuer ≠ b ++ "/") : UrlAt issuer path (issuer ++ "/" ++ path)

/-- The members of the metadata that name URLs of endpoints. -/
def endpointMembers : List String :=
  ["authorization_endpoint", "token_endpoint", "userinfo_endpoint", "registration_endpoint", "end_session_endpoint",
   "introspection_endpoint", "pushed_authorization_request_endpoint"]

/-- All endpoints are of the classes in the repository. -/
def Shipped (conf : ServerConf) : Prop := ∀ c ∈ conf.endpoints, c.cls ∈ shippedClasses

/-- The capabilities in the configuration name no endpoint. -/
def NoUrls (caps : Option (Dict Json)) : Prop := ∀ k ∈ endpointMembers, (caps.getD []).get? k = none

/-- No two entries of the configuration are of the same kind. -/
def OneOfAKind (conf : ServerConf) : Prop := (conf.endpoints.map (fun c => c.cls.name)).Nodup

/-- The members that something else than the capabilities in the configuration decides about. -/
inductive DecidedElsewhere (conf : ServerConf) : String → Prop where
  | issuer : DecidedElsewhere conf "issuer"
  | version : DecidedElsewhere conf "version"
  | acr (h : conf.broker ≠ []) : DecidedElsewhere conf "acr_values_supported"
  | jwks (p : String) (h : conf.jwksPath = some p) : DecidedElsewhere conf "jwks_uri"
  | dpop (l : List String) (h : .dpop l ∈ conf.addOns) : DecidedElsewhere conf "dpop_signing_alg_values_supported"
  | scopes (m : ScopeMap) (h : .customScopes m ∈ conf.addOns) : DecidedElsewhere conf "scopes_supported"
  | claims (m : ScopeMap) (h : .customScopes m ∈ conf.addOns) : DecidedElsewhere conf "claims_supported"
  | idToken (kw : Dict Json) (h : conf.idToken = some kw) (k : String)
      (hk : k ∈ ["id_token_signing_alg_values_supported", "id_token_encryption_alg_values_supported",
        "id_token_encryption_enc_values_supported"]) : DecidedElsewhere conf k

/-- What two endpoints publish under the same name is the same. -/
def Agree (lib : CryptoAlgs) (conf : ServerConf) : Prop :=
  ∀ c ∈ conf.endpoints, ∀ c' ∈ conf.endpoints, ∀ i i', c.cls.info lib c.kwargs = .ok (some i) →
    c'.cls.info lib c'.kwargs = .ok (some i') → ∀ k v v', i.get? k = some v → i'.get? k = some v' → v = v'

/-- The client has no settings of its own about scopes. -/
def NoOwnScopes (cfg : ScopeCfg) (client : String) : Prop :=
  ∃ cl, cfg.cdb.get? client = some cl ∧ cl.allowedScopes = none ∧ cl.scopesToClaims = none

/-- A scope stands for a claim: in the mapping that is configured, or without one in the standard mapping. -/
def StandsFor (cfg : ScopeCfg) (scope claim : String) : Prop :=
  ∃ names, claim ∈ names ∧
    ((∃ m, cfg.scopesToClaims = some m ∧ m ≠ [] ∧ m.get? scope = some names) ∨
     ((cfg.scopesToClaims = none ∨ cfg.scopesToClaims = some []) ∧ scope2claims.get? scope = some names))

/-- The string is in the list that the metadata have under this name. -/
def Published (s : Serv) (member x : String) : Prop := ∃ l, s.info.get? member = some (.arr l) ∧ .str x ∈ l

end OidcOp.Spec
