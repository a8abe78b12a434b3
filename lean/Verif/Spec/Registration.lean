/-
Specification vocabulary for dynamic registration (C52-C56, C70).
-/
import Verif.Model.Registration
import Verif.Spec.Uri

namespace OidcOp.Spec

/-- A call of the registration endpoint: what it draws, and the request. -/
structure RegCall where
  draw : RegDraw
  req : Dict Json

/-- The state after a series of calls of the registration endpoint, each with a new client id.  A call for which the random
generator never finds a free id does not end and has no effect. -/
def regHistory (C : RegConf) : RegState → List RegCall → RegState
  | s, [] => s
  | s, c :: rest =>
    match register C true true c.draw c.req s with
    | none => regHistory C s rest
    | some (_, s') => regHistory C s' rest

/-- The redirect URIs of the clients, as the authorization endpoint sees them. -/
def redirectUrisOf (s : RegState) : Dict (Option (List RegUri)) :=
  s.cdb.map (fun p => (p.1, match p.2.get? "redirect_uris" with | some (.uris l) => some l | _ => none))

/-- A redirect URI a web client may register: https, or http if the client uses nothing but the code flow; no fragment. -/
def WebUri (L : RegLib) (codeOnly : Bool) (u : String) : Prop :=
  (L.scheme u = "https" ∨ (codeOnly = true ∧ L.scheme u = "http")) ∧ L.fragment u = ""

/-- A redirect URI a native client may register, apart from the fragment: a scheme of its own, or http on the local host. -/
def NativeUri (L : RegLib) (u : String) : Prop :=
  (L.scheme u ≠ "http" ∧ L.scheme u ≠ "https") ∨
    (L.scheme u = "http" ∧ (L.hostname u = some "localhost" ∨ L.hostname u = some "127.0.0.1"))

/-- The request is for a web client: it says so or does not say. -/
def IsWeb (req : Dict Json) : Prop :=
  req.get? "application_type" = none ∨ req.get? "application_type" = some (.str "web")

def IsNative (req : Dict Json) : Prop := req.get? "application_type" = some (.str "native")

/-- The only response type asked for is "code". -/
def CodeOnly (req : Dict Json) : Bool := req.get? "response_types" = some (.arr [.str "code"])

/-- A response type or a list of acr values: the words of `v` are those of one of the supported. -/
def WordsSupported (sup : List String) (v : String) : Prop :=
  ∃ w ∈ sup, ∃ a b, Words v a ∧ Words w b ∧ SameSet a b

/-- The value `v` of a preference is within what the provider supports. -/
def Within (pref : String) (v : Json) (sup : List String) : Prop :=
  if pref = "response_types" ∨ pref = "default_acr_values" then
    (∃ vs : List String, v = .arr (vs.map .str) ∧ ∀ x ∈ vs, WordsSupported sup x) ∨
    (∃ s ws, v = .str s ∧ Words s ws ∧ ∀ x ∈ ws, WordsSupported sup x)
  else
    (∃ s, v = .str s ∧ s ∈ sup) ∨
    (∃ vs : List String, v = .arr (vs.map .str) ∧ ∀ x ∈ vs, x ∈ sup) ∨
    (∃ d : Dict Json, v = .obj d ∧ ∀ x ∈ d.keys, x ∈ sup)

/-- The members of a registration request that announce a preference, each with the member of the provider's metadata that
lists what is supported (OpenID Connect Dynamic Client Registration 1.0, section 2, and Discovery 1.0, section 3). -/
def preferences : List (String × String) :=
  [("id_token_signed_response_alg", "id_token_signing_alg_values_supported"),
   ("id_token_encrypted_response_alg", "id_token_encryption_alg_values_supported"),
   ("id_token_encrypted_response_enc", "id_token_encryption_enc_values_supported"),
   ("userinfo_signed_response_alg", "userinfo_signing_alg_values_supported"),
   ("userinfo_encrypted_response_alg", "userinfo_encryption_alg_values_supported"),
   ("userinfo_encrypted_response_enc", "userinfo_encryption_enc_values_supported"),
   ("request_object_signing_alg", "request_object_signing_alg_values_supported"),
   ("request_object_encryption_alg", "request_object_encryption_alg_values_supported"),
   ("request_object_encryption_enc", "request_object_encryption_enc_values_supported"),
   ("token_endpoint_auth_method", "token_endpoint_auth_methods_supported"),
   ("token_endpoint_auth_signing_alg", "token_endpoint_auth_signing_alg_values_supported"),
   ("subject_type", "subject_types_supported"),
   ("default_acr_values", "acr_values_supported"),
   ("response_types", "response_types_supported"),
   ("grant_types", "grant_types_supported")]

/-- Every preference in `req` that has a counterpart in the provider's metadata is within it. -/
def WithinCapabilities (pi : Dict (List String)) (req : Dict Json) : Prop :=
  ∀ pref prov v, (pref, prov) ∈ preferences → req.get? pref = some v →
    ∃ sup, pi.get? prov = some sup ∧ Within pref v sup

/-- What the provider itself puts into the record of a new client under a name: the client's id, a salt, the time, a secret if
the client gets one, with the time it expires if that is to happen, and the registration access token with the URI to use it
at, if there is an endpoint for reading registrations. -/
def givenByProvider (C : RegConf) (setSecret : Bool) (d : RegDraw) (cid name : String) : Option Json :=
  if name = "client_id" then some (.str cid)
  else if name = "client_salt" then some (.str d.salt)
  else if name = "client_id_issued_at" then some (.num d.now)
  else if name = "client_secret" ∧ setSecret = true then some (.str d.secret)
  else if name = "client_secret_expires_at" ∧ setSecret = true ∧ C.secretExpires = true ∧ d.now + C.secretExpiresIn ≠ 0 then
    some (.num (d.now + C.secretExpiresIn))
  else if name = "registration_access_token" ∧ C.readPath ≠ none then some (.str d.token)
  else if name = "registration_client_uri" then C.readPath.map (fun p => .str (p ++ "?client_id=" ++ cid))
  else none

end OidcOp.Spec
