/-
Specification vocabulary for C115: what is told about the user in tokens.
-/
import Verif.Spec.Payload

namespace OidcOp.Spec

/-- Names in ID tokens that are not for what the user database says of the user: those of OpenID Connect Core 2 and 3.3.2.11, of
OpenID Connect Front-Channel Logout 3, those that are in all payloads, and the names of arguments of the function that makes ID
tokens. -/
def idTokenNames : List String :=
  ["iss", "sub", "aud", "exp", "iat", "nonce", "auth_time", "acr", "c_hash", "at_hash", "sid", "scope", "client_id", "jti", "cnf",
   "ttype", "encrypt", "code", "access_token"]

/-- Names in access tokens that are not for what the user database says of the user. -/
def accessTokenNames : List String :=
  ["iss", "sub", "aud", "exp", "iat", "sid", "scope", "client_id", "jti", "cnf", "token_class", "acr"]

/-- The claim is to be told at a release point, with this value: it is to be released there, the user database has this value for
this user, and it is a value that was asked for. -/
def ToldAt (cfg : ClaimsCfg) (m : ClaimsModule) (own : Option ClaimsClient) (req : AuthzReq) (users : Option UserDb)
    (user client point : String) (second : Option String) (scope : List String) (k : String) (v : Json) : Prop :=
  ∃ udb spec, users = some udb ∧ UserHas udb user k v ∧
    ToRelease cfg m own req client point second scope k spec ∧ MatchesSpec v spec

/-- The specifications of the claims that are to be released have the form of OpenID Connect Core 5.5.1. -/
def ProperRelease (cfg : ClaimsCfg) (m : ClaimsModule) (own : Option ClaimsClient) (req : AuthzReq) (client point : String)
    (second : Option String) (scope : List String) : Prop :=
  ∀ k spec, ToRelease cfg m own req client point second scope k spec → ProperSpec spec

/-- The grant has claims to release at the point, and the login is one that fits what they say of its context (no word of it fits
every login). -/
def ContextTold (g : Grant) (ev : AuthnEvent) (point : String) : Prop :=
  ∃ restr, g.claims.get? point = some restr ∧ restr ≠ [] ∧ g.authnEvent = some ev ∧
    MatchesSpec (.str ev.authnInfo) ((restr.get? "acr").getD .null)

end OidcOp.Spec
