/-
When a registration request is in order, and what is kept of it (C113).
-/
import Verif.Spec.Registration

namespace OidcOp.Spec

/-- A redirect URI that the client may register: by the rules for web or for native clients, and for a client of another
type an http or https URI without a fragment. -/
def RedirectOk (L : RegLib) (req : Dict Json) (u : String) : Prop :=
  (IsWeb req → WebUri L (CodeOnly req) u) ∧ (IsNative req → NativeUri L u) ∧
  (¬ IsWeb req → ¬ IsNative req → (L.scheme u = "http" ∨ L.scheme u = "https") ∧ L.fragment u = "")

/-- The place of a redirect URI, without its query.  A URI with a scheme of its own is taken whole. -/
def placeOf (L : RegLib) (req : Dict Json) (u : String) : String :=
  if req.get? "application_type" = some (.str "native") ∧ L.scheme u ≠ "http" then u else (L.split u).1

/-- At most one "#" in a URI with a fragment. -/
def OneFragment (L : RegLib) (u : String) : Prop :=
  L.fragment u ≠ "" → ∃ b f : List Char, u.toList = b ++ '#' :: f ∧ '#' ∉ b ∧ '#' ∉ f

/-- Two URLs on the same site. -/
def SameSite (L : RegLib) (a b : String) : Prop := L.scheme a = L.scheme b ∧ L.netloc a = L.netloc b

/-- The members with links that are shown to users. -/
def linkNames : List String := ["policy_uri", "logo_uri", "tos_uri"]

/-- A registration request that is in order. -/
structure InOrder (C : RegConf) (req : Dict Json) : Prop where
  /-- it asks for what the provider supports -/
  capabilities : WithinCapabilities C.providerInfo req
  /-- the URI for after the logout has no fragment -/
  logout : ∀ v, req.get? "post_logout_redirect_uri" = some v → v.truthy = true → ∃ u, v = .str u ∧ C.lib.fragment u = ""
  /-- the redirect URIs follow the rules -/
  redirects : ∀ v, req.get? "redirect_uris" = some v →
    ∃ us : List String, v = .arr (us.map .str) ∧ ∀ u ∈ us, RedirectOk C.lib req u
  /-- the places of request objects have no query, and can be put in the answer -/
  requests : ∀ v, req.get? "request_uris" = some v →
    ∃ us : List String, v = .arr (us.map .str) ∧
      ∀ u ∈ us, C.lib.query u = "" ∧ ("request_uris" ∈ C.respParams → OneFragment C.lib u)
  /-- the document of the sector has all the redirect URIs -/
  sector : ∀ v, req.get? "sector_identifier_uri" = some v →
    ∃ u doc, v = .str u ∧ C.lib.fetch u = some doc ∧
      ∀ us : List String, req.get? "redirect_uris" = some (.arr (us.map .str)) → ∀ x ∈ us, pyIn (.str x) doc = .ok true
  /-- links shown to users are on a site that the client has a redirect URI on -/
  links : ∀ k ∈ linkNames, ∀ v, req.get? k = some v →
    ∃ (u : String) (us : List String) (x : String), v = .str u ∧ req.get? "redirect_uris" = some (.arr (us.map .str)) ∧ x ∈ us ∧
      SameSite C.lib u (placeOf C.lib req x)
  /-- the place of the keys is a text, or the keys themselves are good -/
  keys : (∀ v, req.get? "jwks_uri" = some v → ∃ u, v = .str u) ∧
    (req.get? "jwks_uri" = none → ∀ j, req.get? "jwks" = some j → C.lib.jwksOk j = true)

/-- The keys that a request brings along: where to get them, or else the keys themselves. -/
def broughtKeys (req : Dict Json) : List KeySource :=
  match req.get? "jwks_uri" with
  | some (.str u) => if u = "" then [] else [.url u]
  | some _ => []
  | none => match req.get? "jwks" with | some j => [.jwks j] | none => []

/-- The provider cannot sign with this algorithm: it needs a key of its own for it and has none. -/
def CannotSign (L : RegLib) (a : String) : Prop := L.keyType a ≠ "none" ∧ L.keyType a ≠ "oct" ∧ L.hasKey a = false

end OidcOp.Spec
