/-
Request objects that are passed by reference: oauth2/authorization.py:381-410 and 1024-1039.
-/
import Verif.Model.Provider

namespace OidcOp

/-- What the code reads of the header of a signed JWT. -/
structure JoseHdr where
  alg : Option String := none
  enc : Option String := none
  deriving DecidableEq, Repr, Inhabited

/-- A request object as `Message.from_jwt` of oidcmsg returns it: its members, the header of the signed JWT if it is one,
and whether it was encrypted.  A member `says` has as its default is not in the object. -/
structure ReqObject where
  says : AuthzReq := {}
  jws : Option JoseHdr := some {}
  jwe : Bool := false
  deriving DecidableEq, Repr, Inhabited

/-- Algorithms in the client database or in the provider's metadata: one as a string, or a list. -/
inductive Algs where
  | one (s : String)
  | many (l : List String)
  deriving DecidableEq, Repr, Inhabited

/-- The keys of `ALG_PARAMS`, oauth2/authorization.py:47-60. -/
inductive AlgUse where
  | sign | encAlg | encEnc
  deriving DecidableEq, Repr, Inhabited

/-- The libraries and the configuration that are used for request objects.  `get` is the HTTP client: the status code and the
text.  The place answers the same thing each time.  `fromJwt client text` is `from_jwt` with the client as issuer.
`verified client text` says that the JWT is signed with a key the client has registered; `from_jwt` verifies the signature of
every JWT whose algorithm is not "none". -/
structure ObjectLib where
  get : String → Except Exc (Nat × String)
  fromJwt : String → String → Except Exc ReqObject
  verified : String → String → Bool
  /-- "request_object_signing_alg" and so on of the client -/
  registered : String → AlgUse → Option Algs
  /-- "request_object_signing_alg_values_supported" and so on of the provider -/
  supported : AlgUse → Option Algs
  fromJwt_verified : ∀ {c t o h}, fromJwt c t = .ok o → o.jws = some h → h.alg ≠ some "none" → verified c t = true

/-- Is one string a part of another, `a in b`. -/
def strIn (a : Str) : Str → Bool
  | [] => a.isEmpty
  | c :: b => a.isPrefixOf (c :: b) || strIn a b

/-- `alg not in _allowed` -/
def algIn (alg : Option String) : Option Algs → Except Exc Bool
  | none => .error .typeError
  | some (.many l) => .ok (match alg with | none => false | some a => l.contains a)
  | some (.one s) => match alg with | none => .error .typeError | some a => .ok (strIn a.toList s.toList)

/-- `AllowedAlgorithms.__call__`, oauth2/authorization.py:1028-1039 -/
def allowedAlgorithm (F : ObjectLib) (client : String) (alg : Option String) (use : AlgUse) : Except Exc Unit :=
  match algIn alg (match F.registered client use with | some x => some x | none => F.supported use) with
  | .error e => .error e
  | .ok true => .ok ()
  | .ok false => .error .valueError

/-- `for k, v in _ver_request.items(): request[k] = v`, oauth2/authorization.py:405-406.  A member "upm_answer" other than
"true" is left out; new other members come last. -/
def AuthzReq.overwrite (req obj : AuthzReq) : AuthzReq :=
  { clientId := obj.clientId.or req.clientId
    redirectUri := obj.redirectUri.or req.redirectUri
    scope := obj.scope.or req.scope
    responseType := if obj.responseType.isEmpty then req.responseType else obj.responseType
    responseMode := obj.responseMode.or req.responseMode
    state := obj.state.or req.state
    nonce := obj.nonce.or req.nonce
    prompt := obj.prompt.or req.prompt
    maxAge := obj.maxAge.or req.maxAge
    acrValues := obj.acrValues.or req.acrValues
    claims := if obj.claims.isEmpty then req.claims else obj.claims
    codeChallenge := obj.codeChallenge.or req.codeChallenge
    codeChallengeMethod := obj.codeChallengeMethod.or req.codeChallengeMethod
    requestUri := obj.requestUri.or req.requestUri
    sectorIdentifierUri := obj.sectorIdentifierUri.or req.sectorIdentifierUri
    upmAnswer := obj.upmAnswer || req.upmAnswer
    other := obj.other.foldl (fun d p => d.set p.1 p.2) req.other }

/-- The checks of the algorithms, oauth2/authorization.py:385-403.  For an encrypted object the header that is looked at is
the one of the signature.  An object that is not signed has no `jws_header`, which raises AttributeError. -/
def checkObject (F : ObjectLib) (client : String) (o : ReqObject) : Except Exc Unit :=
  match o.jws with
  | none => .error .attributeError
  | some h =>
    match allowedAlgorithm F client (some (h.alg.getD "RS256")) .sign with
    | .error e => .error e
    | .ok () =>
      if o.jwe then
        match allowedAlgorithm F client h.alg .encAlg with
        | .error e => .error e
        | .ok () => allowedAlgorithm F client h.enc .encEnc
      else .ok ()

/-- The request is fetched, verified and put into the request that came in, oauth2/authorization.py:381-410.  If the status
is not 200, `_resp.status` raises AttributeError. -/
def fetchObject (F : ObjectLib) (client uri : String) (req : AuthzReq) : Except Exc AuthzReq :=
  match F.get uri with
  | .error e => .error e
  | .ok (status, text) =>
    if status = 200 then
      match F.fromJwt client text with
      | .error e => .error e
      | .ok o =>
        match checkObject F client o with
        | .error e => .error e
        | .ok () => .ok (req.overwrite o.says)
    else .error .attributeError

/-- A provider that takes request objects by reference. -/
def Prov.withObjects (p : Prov) (F : ObjectLib) : Prov := { p with fetch := fetchObject F }

end OidcOp
