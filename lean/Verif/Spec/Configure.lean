/-
What a setting of the configuration is worth (C102).
-/
import Verif.Model.Configure

namespace OidcOp.Spec

/-- The settings that an OpenID provider has, by the documentation of `OPConfiguration`. -/
def opSettings : List String :=
  ["add_on", "authz", "authentication", "base_url", "capabilities", "claims_interface", "client_db", "cookie_handler", "endpoint",
   "httpc_params", "issuer", "keys", "session_params", "template_dir", "token_handler_args", "userinfo",
   "id_token", "login_hint2acrs", "login_hint_lookup", "sub_func", "scopes_to_claims"]

/-- The settings that an OAuth2 authorization server has. -/
def asSettings : List String :=
  ["add_on", "authz", "authentication", "base_url", "capabilities", "claims_interface", "client_db", "cookie_handler", "endpoint",
   "httpc_params", "issuer", "keys", "session_params", "template_dir", "token_handler_args", "userinfo"]

/-- Where the configuration object holds a setting. -/
def heldAs (key : String) : String := if key = "keys" then "key_conf" else key

/-- The setting is given, and not as something empty (null, false, 0, "", [] or {}). -/
def Given (conf : Dict Json) (key : String) (v : Json) : Prop :=
  conf.get? key = some v ∧ v ≠ .null ∧ v ≠ .bool false ∧ v ≠ .num 0 ∧ v ≠ .str "" ∧ v ≠ .arr [] ∧ v ≠ .obj []

/-- The setting is not given, or as something empty. -/
def NotGiven (conf : Dict Json) (key : String) : Prop := ∀ v, ¬ Given conf key v

/-- The HTTP client of the provider verifies the certificates of the servers it talks to, where the arguments are the ones given. -/
def VerifiesTls (verify : Option Bool) : Prop := verify ≠ some false

end OidcOp.Spec
