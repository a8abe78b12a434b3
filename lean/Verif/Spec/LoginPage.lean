/-
What a login page is about (C112).
-/
import Verif.Base.Json
import Verif.Base.Dict

namespace OidcOp.Spec

/-- The value under a name, if there is one that is not empty. -/
def given (d : Dict Json) (k : String) : Option Json :=
  (d.get? k).filter Json.truthy

/-- What the application gets back with the form: the request, how the user was to be authenticated, where to go
afterwards, what the client has registered about itself, what the request says about the user, and who made the page and
when. -/
structure PageFor (query : String) (req cinfo : Dict Json) (acr : String) (wanted : Option Json) (issuer : String) (made : Int)
    (got : Dict Json) : Prop where
  query : got.get? "query" = some (.str query)
  acr : got.get? "authn_class_ref" = some (.str acr)
  back : got.get? "return_uri" = req.get? "redirect_uri"
  user : got.get? "as_user" = wanted.map (fun u => .arr [u])
  client : ∀ k ∈ ["policy_uri", "logo_uri", "tos_uri"], got.get? k = given cinfo k
  asked : ∀ k ∈ ["ui_locales", "acr_values", "login_hint"], got.get? k = given req k
  issuer : got.get? "iss" = some (.str issuer)
  made : got.get? "iat" = some (.num made)
  only : ∀ k, got.get? k ≠ none → k ∈ ["query", "authn_class_ref", "return_uri", "as_user", "policy_uri", "logo_uri",
    "tos_uri", "ui_locales", "acr_values", "login_hint", "iss", "iat"]

end OidcOp.Spec
