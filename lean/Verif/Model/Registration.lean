/-
Model of oidc/registration.py: dynamic client registration.

An exception anywhere in `client_registration_setup` is turned into an error message by `process_request`
(oidc/registration.py:467-474), so an error message and an exception are both `.error`, with the "error" member of the
message.  The cookie of `process_request` and `cdb.sync` are not modelled, nor is a `client_id_generator` of one's own.
-/
import Verif.Model.Uri
import Verif.Base.PyEq

namespace OidcOp

/-- urllib, the HTTP client, the key jar and oidcmsg, as far as registration uses them. -/
structure RegLib extends UriLib where
  /-- `urlparse(uri).scheme`, `.hostname`, `.netloc`, `.query` -/
  scheme : String → String
  hostname : String → Option String
  netloc : String → String
  query : String → String
  /-- `request.verify()` and `request.rm_blanks()`, with what they make of the request -/
  verify : Dict Json → Except String (Dict Json)
  /-- the result is a dictionary: one entry for each name -/
  verify_nodup : ∀ {r r'}, verify r = .ok r' → (r'.map (·.1)).Nodup
  /-- the JSON document behind a URL -/
  fetch : String → Option Json
  /-- `alg2keytype` -/
  keyType : String → String
  /-- a signing key of the provider's for this algorithm -/
  hasKey : String → Bool
  /-- `keyjar.load_keys` accepts the key set -/
  jwksOk : Json → Bool

/-- A value in a client's record: what came as JSON, redirect URIs (oidc/registration.py:191), one split URI (line 186), or
request URIs in parts (line 211). -/
inductive RVal where
  | json (j : Json)
  | uris (l : List RegUri)
  | uri (r : RegUri)
  | parts (l : List (List String))
  deriving DecidableEq, Repr, Inhabited

/-- The record of a client in the client database. -/
abbrev Cinfo := Dict RVal

/-- What can be put in the key jar for a client. -/
inductive KeySource where
  | url (s : String)
  | jwks (j : Json)
  | symmetric (s : String)
  deriving DecidableEq, Repr, Inhabited

/-- The parts of the endpoint context that registration changes: the client database, the registration access tokens and the
key jar. -/
structure RegState where
  cdb : Dict Cinfo := []
  tokens : Dict String := []
  keys : Dict (List KeySource) := []
  deriving DecidableEq, Repr, Inhabited

/-- Configuration.  `providerInfo` holds the list-valued members of the provider's metadata, `readPath` the path of the
registration read endpoint if there is one, `respParams` the names in `RegistrationResponse.c_param`. -/
structure RegConf where
  lib : RegLib
  providerInfo : Dict (List String)
  readPath : Option String := none
  secretExpires : Bool := true
  secretExpiresIn : Int := 2592000
  respParams : List String := []

/-- What one call draws from the random generator and the clock: candidates for a client id, the salt, the registration access
token and the secret. -/
structure RegDraw where
  ids : List String
  salt : String
  token : String
  secret : String
  now : Int
  deriving DecidableEq, Repr, Inhabited

/-- The "error" member for an exception, oidc/registration.py:471-474 -/
def regRaised : String := "invalid_configuration_request"

/-- oidc/registration.py:28-46 -/
def preference2provider : Dict String :=
  [("request_object_signing_alg", "request_object_signing_alg_values_supported"),
   ("request_object_encryption_alg", "request_object_encryption_alg_values_supported"),
   ("request_object_encryption_enc", "request_object_encryption_enc_values_supported"),
   ("userinfo_signed_response_alg", "userinfo_signing_alg_values_supported"),
   ("userinfo_encrypted_response_alg", "userinfo_encryption_alg_values_supported"),
   ("userinfo_encrypted_response_enc", "userinfo_encryption_enc_values_supported"),
   ("id_token_signed_response_alg", "id_token_signing_alg_values_supported"),
   ("id_token_encrypted_response_alg", "id_token_encryption_alg_values_supported"),
   ("id_token_encrypted_response_enc", "id_token_encryption_enc_values_supported"),
   ("default_acr_values", "acr_values_supported"),
   ("subject_type", "subject_types_supported"),
   ("token_endpoint_auth_method", "token_endpoint_auth_methods_supported"),
   ("token_endpoint_auth_signing_alg", "token_endpoint_auth_signing_alg_values_supported"),
   ("response_types", "response_types_supported"),
   ("grant_types", "grant_types_supported")]

/-- A list of strings. -/
def strList : List Json → Option (List String)
  | [] => some []
  | .str s :: r => (strList r).map (s :: ·)
  | _ :: _ => none

/-- `v.split(" ")` -/
def spWords (v : String) : List String := (pySplit [' '] v.toList).map String.ofList

/-- `==` on sets, given as lists -/
def sameWords (a b : List String) : Bool := a.all (fun x => b.contains x) && b.all (fun x => a.contains x)

/-- `match_sp_sep`, oidc/registration.py:49-73, of a value of the request and a list of strings; an element that is not a
string raises. -/
def matchSpSep (first : Json) (second : List String) : Except String Bool :=
  match first with
  | .arr l =>
    match strList l with
    | none => .error regRaised
    | some vs => .ok (vs.all (fun v => second.any (fun w => sameWords (spWords v) (spWords w))))
  | .str s => .ok ((spWords s).all (fun v => second.any (fun w => sameWords [v] (spWords w))))
  | _ => .error regRaised

/-- One turn of the loop of `match_client_request`, oidc/registration.py:159-170.  An element that is not a string is in no
list of strings. -/
def matchPref (pi : Dict (List String)) (req : Dict Json) (p : String × String) : Except String Unit :=
  match req.get? p.1 with
  | none => .ok ()
  | some v =>
    match pi.get? p.2 with
    | none => .error regRaised
    | some sup =>
      if p.1 = "response_types" ∨ p.1 = "default_acr_values" then
        match matchSpSep v sup with
        | .error e => .error e
        | .ok b => if b then .ok () else .error "invalid_request"
      else
        match v with
        | .str s => if sup.contains s then .ok () else .error "invalid_request"
        | .arr l => if l.all (fun j => sup.any (fun s => j = .str s)) then .ok () else .error "invalid_request"
        | .obj d => if d.all (fun q => sup.contains q.1) then .ok () else .error "invalid_request"
        | _ => .error regRaised

/-- The loop over the preferences. -/
def matchPrefs (pi : Dict (List String)) (req : Dict Json) : Dict String → Except String Unit
  | [] => .ok ()
  | p :: rest =>
    match matchPref pi req p with
    | .error e => .error e
    | .ok _ => matchPrefs pi req rest

/-- `match_client_request`, oidc/registration.py:157-170 -/
def matchClientRequest (pi : Dict (List String)) (req : Dict Json) : Except String Unit :=
  matchPrefs pi req preference2provider

/-- `random_client_id`, oidc/registration.py:127-133: candidates are drawn until one is not reserved; `none` if the
candidates given do not suffice, that is, the loop still runs. -/
def randomClientId (reserved : List String) : List String → Option String
  | [] => none
  | c :: rest => if reserved.contains c then randomClientId reserved rest else some c

/-- One turn of the loop of `verify_redirect_uris`, oidc/registration.py:285-318 -/
def verifyRedirectUri (L : RegLib) (clientType : Json) (mustHttps : Bool) (uri : String) : Except String RegUri :=
  if clientType = .str "native" then
    if L.scheme uri ≠ "http" ∧ L.scheme uri ≠ "https" then .ok (registeredForm L.toUriLib true uri)
    else if L.scheme uri = "http" ∧ (L.hostname uri = some "localhost" ∨ L.hostname uri = some "127.0.0.1") then
      .ok (registeredForm L.toUriLib false uri)
    else .error "invalid_redirect_uri"
  else if mustHttps && L.scheme uri != "https" then .error "invalid_redirect_uri"
  else if L.scheme uri ≠ "http" ∧ L.scheme uri ≠ "https" then .error "invalid_redirect_uri"
  else if L.fragment uri ≠ "" then .error "invalid_redirect_uri"
  else .ok (registeredForm L.toUriLib false uri)

/-- The loop of `verify_redirect_uris` -/
def verifyRedirectLoop (L : RegLib) (clientType : Json) (mustHttps : Bool) : List String → Except String (List RegUri)
  | [] => .ok []
  | u :: rest =>
    match verifyRedirectUri L clientType mustHttps u with
    | .error e => .error e
    | .ok r =>
      match verifyRedirectLoop L clientType mustHttps rest with
      | .error e => .error e
      | .ok rs => .ok (r :: rs)

/-- `registration_request.get("application_type", "web")`, oidc/registration.py:277 -/
def clientType (req : Dict Json) : Json := (req.get? "application_type").getD (.str "web")

/-- oidc/registration.py:279-283 -/
def mustHttps (req : Dict Json) : Bool :=
  clientType req = .str "web" && req.get? "response_types" != some (.arr [.str "code"])

/-- `verify_redirect_uris`, oidc/registration.py:274-320, of the list of redirect URIs in the request -/
def verifyRedirectUris (L : RegLib) (req : Dict Json) (uris : List String) : Except String (List RegUri) :=
  verifyRedirectLoop L (clientType req) (mustHttps req) uris

/-- The list of strings under a name, if it is there; `request.verify()` refuses other types. -/
def listMember (req : Dict Json) (name : String) : Except String (Option (List String)) :=
  match req.get? name with
  | none => .ok none
  | some (.arr l) =>
    match strList l with
    | some vs => .ok (some vs)
    | none => .error regRaised
  | some _ => .error regRaised

/-- The string under a name, if it is there. -/
def strMember (req : Dict Json) (name : String) : Except String (Option String) :=
  match req.get? name with
  | none => .ok none
  | some (.str s) => .ok (some s)
  | some _ => .error regRaised

/-- The members of the request are copied, oidc/registration.py:179-181. -/
def copyRequest (ignore : List String) (req : Dict Json) (ci : Cinfo) : Cinfo :=
  ci.update ((req.filter (fun p => !ignore.contains p.1)).map (fun p => (p.1, RVal.json p.2)))

/-- oidc/registration.py:183-191 -/
def postLogoutStep (L : RegLib) (req : Dict Json) (ci : Cinfo) : Except String Cinfo :=
  match req.get? "post_logout_redirect_uri" with
  | none => .ok ci
  | some (.str u) =>
    if u = "" then .ok ci
    else if L.fragment u ≠ "" then .error "invalid_configuration_parameter"
    else .ok (ci.set "post_logout_redirect_uri" (.uri (.pair (L.split u).1 (L.split u).2)))
  | some v => if v.truthy then .error regRaised else .ok ci

/-- oidc/registration.py:193-198 -/
def redirectStep (L : RegLib) (req : Dict Json) (ci : Cinfo) : Except String Cinfo :=
  match listMember req "redirect_uris" with
  | .error e => .error e
  | .ok none => .ok ci
  | .ok (some us) =>
    match verifyRedirectUris L req us with
    | .error e => .error e
    | .ok rs => .ok (ci.set "redirect_uris" (.uris rs))

/-- The loop of oidc/registration.py:202-215 -/
def requestUriParts (L : RegLib) : List String → Except String (List (List String))
  | [] => .ok []
  | u :: rest =>
    if L.query u ≠ "" then .error "invalid_configuration_parameter"
    else
      match requestUriParts L rest with
      | .error e => .error e
      | .ok ps =>
        .ok ((if L.fragment u ≠ "" then (pySplit ['#'] u.toList).map String.ofList else [u, ""]) :: ps)

/-- oidc/registration.py:200-216 -/
def requestUrisStep (L : RegLib) (req : Dict Json) (ci : Cinfo) : Except String Cinfo :=
  match listMember req "request_uris" with
  | .error e => .error e
  | .ok none => .ok ci
  | .ok (some us) =>
    match requestUriParts L us with
    | .error e => .error e
    | .ok ps => .ok (ci.set "request_uris" (.parts ps))

/-- The redirect URIs of the request all occur in the document, oidc/registration.py:347-351 -/
def sectorCovers (doc : Json) : List String → Except String Unit
  | [] => .ok ()
  | u :: rest =>
    match pyIn (.str u) doc with
    | .error _ => .error regRaised
    | .ok b => if b then sectorCovers doc rest else .error "invalid_configuration_parameter"

/-- `_verify_sector_identifier`, oidc/registration.py:322-353, and its use, lines 218-227 -/
def sectorStep (L : RegLib) (req : Dict Json) (ci : Cinfo) : Except String Cinfo :=
  match strMember req "sector_identifier_uri" with
  | .error e => .error e
  | .ok none => .ok ci
  | .ok (some u) =>
    match L.fetch u with
    | none => .error "invalid_configuration_parameter"
    | some doc =>
      match listMember req "redirect_uris" with
      | .error e => .error e
      | .ok us =>
        match sectorCovers doc (us.getD []) with
        | .error e => .error e
        | .ok _ => .ok ((ci.set "si_redirects" (.json doc)).set "sector_id" (.json (.str u)))

/-- `verify_url`, oidc/registration.py:76-84 -/
def verifyUrl (L : RegLib) (url : String) (regs : List RegUri) : Bool :=
  regs.any (fun r => L.scheme url = L.scheme r.parts.1 && L.netloc url = L.netloc r.parts.1)

/-- One turn of the loop of oidc/registration.py:229-237 -/
def urlStep (L : RegLib) (req : Dict Json) (ci : Cinfo) (item : String) : Except String Cinfo :=
  match strMember req item with
  | .error e => .error e
  | .ok none => .ok ci
  | .ok (some u) =>
    match ci.get? "redirect_uris" with
    | some (.uris rs) =>
      if verifyUrl L u rs then .ok (ci.set item (.json (.str u))) else .error "invalid_configuration_parameter"
    | _ => .error regRaised

/-- oidc/registration.py:229-237 -/
def urlsStep (L : RegLib) (req : Dict Json) (ci : Cinfo) : Except String Cinfo :=
  match urlStep L req ci "policy_uri" with
  | .error e => .error e
  | .ok ci1 =>
    match urlStep L req ci1 "logo_uri" with
    | .error e => .error e
    | .ok ci2 => urlStep L req ci2 "tos_uri"

/-- One turn of the loop of oidc/registration.py:240-255 -/
def algStep (C : RegConf) (req : Dict Json) (ci : Cinfo) (item prov : String) : Except String Cinfo :=
  match req.get? item with
  | none => .ok ci
  | some v =>
    match C.providerInfo.get? prov with
    | none => .error regRaised
    | some sup =>
      match v with
      | .str a =>
        if sup.contains a && C.lib.keyType a != "none" && C.lib.keyType a != "oct" && !C.lib.hasKey a then
          .ok (ci.erase item)
        else .ok ci
      | _ => .ok ci

/-- oidc/registration.py:239-255 -/
def algsStep (C : RegConf) (req : Dict Json) (ci : Cinfo) : Except String Cinfo :=
  match algStep C req ci "id_token_signed_response_alg" "id_token_signing_alg_values_supported" with
  | .error e => .error e
  | .ok ci1 => algStep C req ci1 "userinfo_signed_response_alg" "userinfo_signing_alg_values_supported"

/-- The names in `ignore`, oidc/registration.py:440 -/
def regIgnore : List String := ["redirect_uris", "policy_uri", "logo_uri", "tos_uri"]

/-- The record that `do_client_registration` makes of a request, oidc/registration.py:172-255 -/
def makeRecord (C : RegConf) (req : Dict Json) (ci : Cinfo) : Except String Cinfo := do
  let c1 ← postLogoutStep C.lib req (copyRequest regIgnore req ci)
  let c2 ← redirectStep C.lib req c1
  let c3 ← requestUrisStep C.lib req c2
  let c4 ← sectorStep C.lib req c3
  let c5 ← urlsStep C.lib req c4
  algsStep C req c5

/-- `keyjar.load_keys(client_id, jwks_uri=…, jwks=…)`, oidc/registration.py:257-265: the URL comes first. -/
def loadKeys (L : RegLib) (req : Dict Json) : Except String (List KeySource) :=
  match strMember req "jwks_uri" with
  | .error e => .error e
  | .ok (some u) => if u = "" then .ok [] else .ok [.url u]
  | .ok none =>
    match req.get? "jwks" with
    | none => .ok []
    | some j => if L.jwksOk j then .ok [.jwks j] else .error regRaised

/-- Keys are added to those a client has in the key jar. -/
def addKeys (keys : Dict (List KeySource)) (cid : String) (new : List KeySource) : Dict (List KeySource) :=
  if new.isEmpty then keys else keys.set cid ((keys.get? cid).getD [] ++ new)

/-- The record before the request is looked at, oidc/registration.py:424-433; also `add_registration_api` (355-364),
`client_secret_expiration_time` (366-374) and `add_client_secret` (376-383). -/
def initialRecord (C : RegConf) (newId setSecret : Bool) (d : RegDraw) (cid : String) : Cinfo :=
  let base : Cinfo := [("client_id", .json (.str cid)), ("client_salt", .json (.str d.salt))]
  let api : Cinfo :=
    match C.readPath with
    | none => []
    | some p => [("registration_access_token", .json (.str d.token)),
                 ("registration_client_uri", .json (.str (p ++ "?client_id=" ++ cid)))]
  let issued : Cinfo := if newId then [("client_id_issued_at", .json (.num d.now))] else []
  let eat : Int := if C.secretExpires then d.now + C.secretExpiresIn else 0
  let secret : Cinfo :=
    if setSecret then
      ("client_secret", .json (.str d.secret)) ::
        (if eat ≠ 0 then [("client_secret_expires_at", .json (.num eat))] else [])
    else []
  base ++ api ++ issued ++ secret

/-- `"{}?{}"` of a split URI, oidc/registration.py:97-104, 107-114 -/
def combOne (L : UriLib) (r : RegUri) : String := joinQuery L r.parts.1 r.parts.2

/-- oidc/registration.py:117-124; parts that are not two raise. -/
def combParts : List (List String) → Except String (List String)
  | [] => .ok []
  | [b, f] :: rest =>
    match combParts rest with
    | .error e => .error e
    | .ok l => .ok ((if f ≠ "" then b ++ "#" ++ f else b) :: l)
  | _ :: _ => .error regRaised

/-- `comb_uri`, oidc/registration.py:93-124, on one member of the record -/
def combVal (L : UriLib) : RVal → Except String Json
  | .json j => .ok j
  | .uris l => .ok (.arr (l.map (fun r => .str (combOne L r))))
  | .uri r => .ok (.str (combOne L r))
  | .parts l =>
    match combParts l with
    | .error e => .error e
    | .ok us => .ok (.arr (us.map .str))

/-- `comb_uri` on all members. -/
def combAll (L : UriLib) : Cinfo → Except String (Dict Json)
  | [] => .ok []
  | (k, v) :: rest =>
    match combVal L v with
    | .error e => .error e
    | .ok j =>
      match combAll L rest with
      | .error e => .error e
      | .ok d => .ok ((k, j) :: d)

/-- The members of the response, oidc/registration.py:445-448 and oidc/read_registration.py:29-31 -/
def responseArgs (C : RegConf) (ci : Cinfo) : Except String (Dict Json) :=
  combAll C.lib.toUriLib (ci.filter (fun p => C.respParams.contains p.1))

/-- oidc/registration.py:437-456, after the first record has been stored: the new record, the answer, and the last additions
to the key jar.  `.error` leaves the state as it then is. -/
def finishRegistration (C : RegConf) (setSecret : Bool) (d : RegDraw) (cid : String) (req : Dict Json) (s : RegState) :
    Except String (Dict Json) × RegState :=
  match makeRecord C req ((s.cdb.get? cid).getD []) with
  | .error e => (.error e, s)
  | .ok ci =>
    match loadKeys C.lib req with
    | .error e => (.error e, s)
    | .ok ks =>
      let s1 := { s with keys := addKeys s.keys cid ks }
      match responseArgs C ci with
      | .error e => (.error e, s1)
      | .ok args =>
        (.ok args,
         { s1 with
            keys := if setSecret && d.secret != "" then addKeys s1.keys cid [.symmetric d.secret] else s1.keys
            cdb := s1.cdb.set cid ci })

/-- The state when the first record has been stored, oidc/registration.py:424-436 -/
def storeInitial (C : RegConf) (newId setSecret : Bool) (d : RegDraw) (cid : String) (s : RegState) : RegState :=
  { s with
    tokens := if C.readPath.isSome then s.tokens.set d.token cid else s.tokens
    cdb := s.cdb.set cid (initialRecord C newId setSecret d cid) }

/-- The client id and the request without one, oidc/registration.py:405-422.  `none` if the random generator has not found
one. -/
def chooseId (newId : Bool) (d : RegDraw) (req : Dict Json) (s : RegState) :
    Option (Except String (String × Dict Json)) :=
  if newId then (randomClientId s.cdb.keys d.ids).map (fun c => .ok (c, req.erase "client_id"))
  else
    match req.get? "client_id" with
    | some (.str c) => if c = "" then some (.error regRaised) else some (.ok (c, req))
    | _ => some (.error regRaised)

/-- `process_request` and `client_registration_setup`, oidc/registration.py:385-485.  `none`: no free client id yet. -/
def register (C : RegConf) (newId setSecret : Bool) (d : RegDraw) (req : Dict Json) (s : RegState) :
    Option (Except String (Dict Json) × RegState) :=
  match C.lib.verify req with
  | .error e => some (.error e, s)
  | .ok req1 =>
    match matchClientRequest C.providerInfo req1 with
    | .error e => some (.error e, s)
    | .ok _ =>
      match chooseId newId d req1 s with
      | none => none
      | some (.error e) => some (.error e, s)
      | some (.ok (cid, req2)) =>
        some (finishRegistration C setSecret d cid req2 (storeInitial C newId setSecret d cid s))

/-- `RegistrationRead.process_request`, oidc/read_registration.py:27-31 -/
def readRecord (C : RegConf) (s : RegState) (cid : String) : Except String (Dict Json) :=
  match s.cdb.get? cid with
  | none => .error "KeyError"
  | some ci => responseArgs C ci

end OidcOp
