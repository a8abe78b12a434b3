/-
Specification vocabulary for request objects that are passed by reference (C83, C84).
-/
import Verif.Model.RequestObject

namespace OidcOp.Spec

/-- `b` is the URI without its fragment. -/
def BaseOf (uri b : String) : Prop := '#' ∉ b.toList ∧ (uri = b ∨ ∃ f, uri = b ++ "#" ++ f)

/-- The algorithm is the one, or one of those, in a client's registration or the provider's metadata. -/
def Algs.Has : Algs → String → Prop
  | .one s, a => a = s
  | .many l, a => a ∈ l

/-- The client may use the algorithm: it is the one the client has registered; if the client has not registered any, the
provider supports it. -/
def MayUse (F : ObjectLib) (client alg : String) (use : AlgUse) : Prop :=
  (∃ x, F.registered client use = some x ∧ Algs.Has x alg) ∨
  (F.registered client use = none ∧ ∃ x, F.supported use = some x ∧ Algs.Has x alg)

/-- Where a single algorithm is registered or supported, no other name in the headers of the client's objects is a part of
its name. -/
def PlainAlgs (F : ObjectLib) (client : String) : Prop :=
  ∀ text o h, F.fromJwt client text = .ok o → o.jws = some h →
    ∀ a, (h.alg = some a ∨ h.enc = some a ∨ a = "RS256") →
      ∀ use s, (F.registered client use = some (.one s) ∨ F.supported use = some (.one s)) →
        (∃ x y, s.toList = x ++ a.toList ++ y) → a = s

/-- `r` has every member of the request object: what the object says is what the provider goes by. -/
structure Carries (o r : AuthzReq) : Prop where
  clientId : ∀ v, o.clientId = some v → r.clientId = some v
  redirectUri : ∀ v, o.redirectUri = some v → r.redirectUri = some v
  scope : ∀ v, o.scope = some v → r.scope = some v
  responseType : o.responseType ≠ [] → r.responseType = o.responseType
  responseMode : ∀ v, o.responseMode = some v → r.responseMode = some v
  state : ∀ v, o.state = some v → r.state = some v
  nonce : ∀ v, o.nonce = some v → r.nonce = some v
  prompt : ∀ v, o.prompt = some v → r.prompt = some v
  maxAge : ∀ v, o.maxAge = some v → r.maxAge = some v
  acrValues : ∀ v, o.acrValues = some v → r.acrValues = some v
  claims : o.claims ≠ [] → r.claims = o.claims
  codeChallenge : ∀ v, o.codeChallenge = some v → r.codeChallenge = some v
  codeChallengeMethod : ∀ v, o.codeChallengeMethod = some v → r.codeChallengeMethod = some v
  sectorIdentifierUri : ∀ v, o.sectorIdentifierUri = some v → r.sectorIdentifierUri = some v
  upmAnswer : o.upmAnswer = true → r.upmAnswer = true
  other : o.other.keys.Nodup → ∀ k v, o.other.get? k = some v → r.other.get? k = some v

/-- The members of `r` that are not in the request object are those of the request.  The redirect URI can be the client's
only one, and the challenge method the default. -/
structure Completes (o req r : AuthzReq) : Prop where
  redirectUri : ∀ v, o.redirectUri = none → req.redirectUri = some v → r.redirectUri = some v
  scope : o.scope = none → r.scope = req.scope
  responseType : o.responseType = [] → r.responseType = req.responseType
  responseMode : o.responseMode = none → r.responseMode = req.responseMode
  state : o.state = none → r.state = req.state
  nonce : o.nonce = none → r.nonce = req.nonce
  prompt : o.prompt = none → r.prompt = req.prompt
  maxAge : o.maxAge = none → r.maxAge = req.maxAge
  acrValues : o.acrValues = none → r.acrValues = req.acrValues
  claims : o.claims = [] → r.claims = req.claims
  codeChallenge : o.codeChallenge = none → r.codeChallenge = req.codeChallenge
  codeChallengeMethod : ∀ v, o.codeChallengeMethod = none → req.codeChallengeMethod = some v → r.codeChallengeMethod = some v
  sectorIdentifierUri : o.sectorIdentifierUri = none → r.sectorIdentifierUri = req.sectorIdentifierUri
  upmAnswer : o.upmAnswer = false → r.upmAnswer = req.upmAnswer
  other : o.other.keys.Nodup → ∀ k, o.other.get? k = none → r.other.get? k = req.other.get? k

/-- The request refers to a request object at `uri`, not to a pushed request. -/
def RefersTo (p : Prov) (req : AuthzReq) (uri : String) : Prop :=
  req.requestUri = some uri ∧ uri ≠ "" ∧ (p.hasPar = false ∨ ¬ ∃ x, uri = "urn:uuid:" ++ x)

/-- Objects for the client are taken from this place: the provider supports it, the client is known, and if it has
registered any such places, this is one of them. -/
def FetchesFrom (p : Prov) (client uri : String) : Prop :=
  p.requestUriSupported = true ∧ ∃ cl, p.clients.get? client = some cl ∧
    ∀ l, cl.requestUris = some l → l ≠ [] → ∃ b ∈ l, BaseOf uri b

/-- What has to be so for the object at `uri` to be taken in: it can be had, it is signed with a key of the client, or is
openly unsigned, and the algorithm is one the client may use. -/
def GoodObject (F : ObjectLib) (client uri : String) (o : ReqObject) : Prop :=
  ∃ text h, F.get uri = .ok (200, text) ∧ F.fromJwt client text = .ok o ∧ o.jws = some h ∧
    MayUse F client (h.alg.getD "RS256") .sign ∧ (h.alg ≠ some "none" → F.verified client text = true)

/-- What is asked of an encrypted object: the algorithm of its signature (!) has to be one the client may encrypt with, and
the header of the signature has to have a member "enc". -/
def OddlyEncrypted (F : ObjectLib) (client : String) (o : ReqObject) : Prop :=
  ∃ h a e, o.jws = some h ∧ h.alg = some a ∧ MayUse F client a .encAlg ∧ h.enc = some e ∧ MayUse F client e .encEnc

end OidcOp.Spec
