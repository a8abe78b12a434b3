/-
Specification vocabulary for C41-C44 and C69: which claims may be released.
-/
import Verif.Model.Claims
import Verif.Spec.Scopes

namespace OidcOp.Spec

/-- A specification of a claim as OpenID Connect Core 5.5.1 has it: null, or an object in which "values" is an array. -/
def ProperSpec (spec : Json) : Prop :=
  spec = .null ∨ ∃ d, spec = .obj d ∧ ∀ x, ("values", x) ∈ d → ∃ l, x = .arr l

/-- `v` is a value that satisfies the specification. -/
def MatchesSpec (v spec : Json) : Prop :=
  v ≠ .null ∧
  (spec = .null ∨ (∃ x, spec = .obj [("essential", x)]) ∨
   ∃ d, spec = .obj d ∧
    ((∃ x, ("value", x) ∈ d ∧ pyEq v x = true) ∨ (∃ l y, ("values", .arr l) ∈ d ∧ y ∈ l ∧ pyEq v y = true)))

/-- The user database has value `v` for claim `k` of the user. -/
def UserHas (db : UserDb) (user k : String) (v : Json) : Prop := ∃ d, db.get? user = some d ∧ d.get? k = some v

/-- A configured set of claims has an entry for `k`. -/
def Lists : ClaimList → String → Json → Prop
  | .names l, k, spec => k ∈ l ∧ spec = .null
  | .specs d, k, spec => d.get? k = some spec

/-- The claims a scope stands for, for a client: by its own mapping, else the server's, else the standard one. -/
def ScopeClaim (cfg : ScopeCfg) (client s k : String) : Prop :=
  ∃ cl m l, cfg.cdb.get? client = some cl ∧ m.get? s = some l ∧ k ∈ l ∧
    ((cl.scopesToClaims = some m ∧ m ≠ []) ∨ (cl.scopesToClaims = some [] ∧ m = scope2claims) ∨
     (cl.scopesToClaims = none ∧
      ((cfg.scopesToClaims = some m ∧ m ≠ []) ∨
       ((cfg.scopesToClaims = none ∨ cfg.scopesToClaims = some []) ∧ m = scope2claims))))

/-- The claims the standard scopes stand for (OpenID Connect Core 1.0, section 5.4); "openid" itself stands for the subject. -/
def standardClaims : List (String × String) :=
  [("openid", "sub"), ("profile", "name"), ("profile", "family_name"), ("profile", "given_name"), ("profile", "middle_name"),
   ("profile", "nickname"), ("profile", "preferred_username"), ("profile", "profile"), ("profile", "picture"),
   ("profile", "website"), ("profile", "gender"), ("profile", "birthdate"), ("profile", "zoneinfo"), ("profile", "locale"),
   ("profile", "updated_at"), ("email", "email"), ("email", "email_verified"), ("address", "address"),
   ("phone", "phone_number"), ("phone", "phone_number_verified")]

/-- Dictionaries have no key twice. -/
structure ProperClaims (m : ClaimsModule) (own : Option ClaimsClient) (req : AuthzReq) (point : String) : Prop where
  always : ∀ d, m.always = .specs d → d.keys.Nodup
  own : ∀ cl p d, own = some cl → cl.always.get? p = some (.specs d) → d.keys.Nodup
  requested : ∀ d, req.claims.get? point = some d → d.keys.Nodup

/-- Scopes are turned into claims: by the module's setting or the client's own setting (`own`) for this point or the second
one. -/
def ScopesCount (m : ClaimsModule) (own : Option ClaimsClient) (point : String) (second : Option String) : Prop :=
  m.byScope = true ∨ ∃ cl, own = some cl ∧
    (cl.byScope.get? point = some true ∨ ∃ s, second = some s ∧ s ≠ "" ∧ cl.byScope.get? s = some true)

/-- The claims added always: the client's own ones instead of the module's, if clients may have their own. -/
def AlwaysAdds (m : ClaimsModule) (own : Option ClaimsClient) (point : String) (second : Option String) (k : String)
    (spec : Json) : Prop :=
  (own = none ∧ Lists m.always k spec) ∨
  ∃ cl, own = some cl ∧
    (((second = none ∨ second = some "") ∧ ∃ L, cl.always.get? point = some L ∧ Lists L k spec) ∨
     (∃ s, second = some s ∧ s ≠ "" ∧ spec = .null ∧
      ((∃ L, cl.always.get? point = some L ∧ ∃ x, Lists L k x) ∨ (∃ L, cl.always.get? s = some L ∧ ∃ x, Lists L k x))))

/-- The client may use one of the scopes and this scope stands for the claim. -/
def ScopeAdds (cfg : ScopeCfg) (client : String) (scopes : List String) (k : String) : Prop :=
  ∃ s ∈ scopes, AllowedScope cfg client s ∧ ScopeClaim cfg client s k

/-- The request's claims parameter asks for the claim at this point with this specification. -/
def Requests (req : AuthzReq) (point k : String) (spec : Json) : Prop :=
  ∃ d, req.claims.get? point = some d ∧ d.get? k = some spec

/-- What is to be released at a point: the request's specifications come first, then the claims of scopes, then those added
always, then the basic ones. -/
def ToRelease (cfg : ClaimsCfg) (m : ClaimsModule) (own : Option ClaimsClient) (req : AuthzReq) (client point : String)
    (second : Option String) (scopes : List String) (k : String) (spec : Json) : Prop :=
  Requests req point k spec ∨
  ((∀ x, ¬ Requests req point k x) ∧
    ((ScopesCount m own point second ∧ ScopeAdds cfg.scopes client scopes k ∧ spec = .null) ∨
     (¬ (ScopesCount m own point second ∧ ScopeAdds cfg.scopes client scopes k) ∧
      (AlwaysAdds m own point second k spec ∨
       ((∀ x, ¬ AlwaysAdds m own point second k x) ∧ m.base.get? k = some spec)))))

/-- The client's own settings, if the module lets clients have their own. -/
def OwnSettings (m : ClaimsModule) (db : ClaimsDb) (client : String) : Option ClaimsClient :=
  if m.perClient then db.get? client else none

end OidcOp.Spec
