/-
Specification vocabulary for C49-C51: credentials.
-/
import Verif.Model.ClientAuthn

namespace OidcOp.Spec

/-- The authorization header has the id and the secret: "Basic ", then the encoding of `id:secret`, both quoted. -/
def BasicCredentials (C : AuthnCtx) (header : Option String) (id secret : String) : Prop :=
  ∃ tok i s, header = some (String.ofList ("Basic ".toList ++ tok)) ∧ C.decode tok = some (i ++ ':' :: s) ∧
    ':' ∉ i ∧ ':' ∉ s ∧ C.unquote i = id ∧ C.unquote s = secret

/-- The body has the id and the secret. -/
def PostCredentials (req : AuthnReq) (id secret : String) : Prop :=
  req.clientId = some id ∧ req.clientSecret = some secret

/-- The client is registered with the secret. -/
def HasSecret (cdb : Dict CEntry) (id secret : String) : Prop :=
  ∃ c, cdb.get? id = some (.info c) ∧ c.secret = some secret

/-- The client is registered and its secret has not expired (0 means that it never does). -/
def InForce (cdb : Dict CEntry) (now : Int) (id : String) : Prop :=
  ∃ c, cdb.get? id = some (.info c) ∧ (c.expiresAt = 0 ∨ now ≤ c.expiresAt)

/-- The header has the bearer token. -/
def BearerToken (header : Option String) (token : String) : Prop := header = some ("Bearer " ++ token)

/-- A verified assertion of the client for this endpoint, made with the right kind of key: a private key, or the client's
secret. -/
def GoodAssertion (C : AuthnCtx) (privateKey : Bool) (text : String) (A : Assertion) (id : String) : Prop :=
  C.unpack text = some A ∧ A.iss = some id ∧ (∃ l a, A.aud = some l ∧ a ∈ l ∧ a ∈ C.targets) ∧
  (privateKey = true → A.hs = false) ∧
  (privateKey = false → A.hs = true ∧ (∃ c, C.cdb.get? id = some (.info c)) ∧
    ∀ s, HasSecret C.cdb id s → s ≠ "" → A.octKey = some s)

/-- One request with its surroundings. -/
structure AuthCall where
  C : AuthnCtx
  methods : List (Option CAuthn)
  getId : Option (String → AuthnReq → Except Exc String)
  req : AuthnReq
  header : Option String

/-- The results of a series of requests; `seen` is the record of used identifiers at the start. -/
def authHistory (seen : List String) : List AuthCall → List (Except Exc (Option AuthInfo))
  | [] => []
  | x :: xs =>
    let r := verifyClient x.C x.methods x.getId x.req x.header seen
    r.1 :: authHistory r.2 xs

end OidcOp.Spec
