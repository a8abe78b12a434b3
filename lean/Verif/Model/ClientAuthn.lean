/-
Model of client_authn.py, of `Endpoint.client_authentication` and of the registration read endpoint.

The methods of an endpoint are those of `CLIENT_AUTHN_METHOD`; classes of one's own are not modelled.  `also_known_as` is not
used by the code and not modelled, and neither is the note of the used method in the client database.
-/
import Verif.Base.Dict
import Verif.Base.Str
import Verif.Base.Json
import Verif.Base.Exc

namespace OidcOp

/-- A client's record, as far as authentication looks at it. -/
structure AuthnClient where
  secret : Option String := none
  /-- "client_secret_expires_at", 0 if it is missing -/
  expiresAt : Int := 0
  deriving DecidableEq, Repr, Inhabited

/-- An entry of the client database: a record, or a string that names another client. -/
inductive CEntry where
  | info (c : AuthnClient)
  | alias (name : String)
  deriving DecidableEq, Repr, Inhabited

/-- The parameters of a request that authentication looks at. -/
structure AuthnReq where
  clientId : Option String := none
  clientSecret : Option String := none
  accessToken : Option String := none
  clientAssertion : Option String := none
  request : Option String := none
  deriving DecidableEq, Repr, Inhabited

/-- A verified JWT.  `hs` tells whether "alg" starts with HS, `octKey` is the issuer's first symmetric key in the key jar. -/
structure Assertion where
  iss : Option String := none
  aud : Option (List String) := none
  jti : Option String := none
  hs : Bool := false
  octKey : Option String := none
  deriving DecidableEq, Repr, Inhabited

/-- Client authentication methods, client_authn.py:303-312. -/
inductive CAuthn where
  | basic | post | bearerHeader | bearerBody | secretJwt | privateKeyJwt | requestParam | dpop
  deriving DecidableEq, Repr, Inhabited

/-- `tag` -/
def CAuthn.tag : CAuthn → String
  | .basic => "client_secret_basic"
  | .post => "client_secret_post"
  | .bearerHeader => "bearer_header"
  | .bearerBody => "bearer_body"
  | .secretJwt => "client_secret_jwt"
  | .privateKeyJwt => "private_key_jwt"
  | .requestParam => "request_param"
  | .dpop => "dpop_client_auth"

/-- The surroundings of one call.  `decode` is base64 decoding and decoding of the bytes, `unquote` is `unquote_plus`,
`unpack` verifies a JWT with the keys of its issuer, `targets` are the endpoint's `allowed_target_uris`
(endpoint.py:417-425). -/
structure AuthnCtx where
  cdb : Dict CEntry
  now : Int
  targets : List String
  decode : Str → Option Str
  unquote : Str → String
  unpack : String → Option Assertion

/-- What a method found out. -/
structure AuthInfo where
  clientId : Option String := none
  token : Option String := none
  method : String := ""
  assertion : Option Assertion := none
  deriving DecidableEq, Repr, Inhabited

/-- The rest of a header after a prefix, if it has the prefix. -/
def afterPrefix (p : String) (header : Option String) : Option Str :=
  match header with
  | none => none
  | some h => if p.toList.isPrefixOf h.toList then some (h.toList.drop p.length) else none

/-- `is_usable` of each method: client_authn.py:100-103, 127-132, 149-152, 165-168, 183-188, 275-277, and of
`DPoPClientAuth`, oauth2/add_on/dpop.py:159-162 -/
def CAuthn.usable (req : AuthnReq) (header : Option String) : CAuthn → Bool
  | .basic => (afterPrefix "Basic " header).isSome
  | .post => req.clientId.isSome && req.clientSecret.isSome
  | .bearerHeader => (afterPrefix "Bearer " header).isSome
  | .bearerBody => req.accessToken.isSome
  | .secretJwt | .privateKeyJwt => req.clientAssertion.isSome
  | .requestParam => req.request.isSome
  | .dpop => (afterPrefix "DPoP " header).isSome

/-- `basic_authn`, client_authn.py:77-88, of a header that starts with "Basic " -/
def basicAuthn (C : AuthnCtx) (tok : Str) : Option (String × String) :=
  match C.decode tok with
  | none => none
  | some text =>
    match pySplit [':'] text with
    | [i, s] => some (C.unquote i, C.unquote s)
    | _ => none

/-- `cdb[id]["client_secret"] == secret`, client_authn.py:108-111, 135-138; everything but equality is an exception. -/
def secretMatches (cdb : Dict CEntry) (id secret : String) : Bool :=
  match cdb.get? id with
  | some (.info c) => c.secret = some secret
  | _ => false

/-- The checks on the key, client_authn.py:199-210.  `private_` is `key_type == "private_key"`. -/
def keyCheck (C : AuthnCtx) (private_ : Bool) (A : Assertion) : Bool :=
  if A.hs then
    if private_ then false
    else
      match A.iss.bind (fun i => C.cdb.get? i) with
      | some (.info c) =>
        match truthyStr c.secret with
        | some s => A.octKey = some s
        | none => true
      | _ => false
  else private_

/-- The check on the audience, client_authn.py:215-225; the endpoint is always passed. -/
def audCheck (C : AuthnCtx) (A : Assertion) : Bool :=
  match A.aud with
  | none => false
  | some l => l.any (fun a => C.targets.contains a)

/-- The key in `jti_db`, client_authn.py:229, 291 -/
def jtiKey (iss jti : String) : String := iss ++ ":" ++ jti

/-- One-time use, client_authn.py:227-238 and 289-300; `seen` are the keys of `jti_db`. -/
def jtiCheck (method : String) (A : Assertion) (seen : List String) : Option AuthInfo × List String :=
  match A.iss with
  | none => (none, seen)
  | some iss =>
    match truthyStr A.jti with
    | none => (some { clientId := some iss, method := method, assertion := some A }, seen)
    | some jti =>
      if jtiKey iss jti ∈ seen then (none, seen)
      else (some { clientId := some iss, method := method, assertion := some A }, jtiKey iss jti :: seen)

/-- `JWSAuthnMethod.verify`, client_authn.py:190-238 -/
def jwsVerify (C : AuthnCtx) (method : String) (private_ : Bool) (assertion : Option String) (seen : List String) :
    Option AuthInfo × List String :=
  match assertion.bind C.unpack with
  | none => (none, seen)
  | some A => if keyCheck C private_ A && audCheck C A then jtiCheck method A seen else (none, seen)

/-- `verify` of each method; every exception is caught by the caller (client_authn.py:363-364) and is `none` here.
`DPoPClientAuth.verify` (oauth2/add_on/dpop.py:164-170) has a parameter `authorization_info` and is called with `authorization_token`
(client_authn.py:358-362), which is a TypeError. -/
def CAuthn.verify (C : AuthnCtx) (req : AuthnReq) (header : Option String) (seen : List String) :
    CAuthn → Option AuthInfo × List String
  | .basic =>
    match (afterPrefix "Basic " header).bind (basicAuthn C) with
    | none => (none, seen)
    | some (i, s) =>
      (if secretMatches C.cdb i s then some { clientId := some i, method := CAuthn.basic.tag } else none, seen)
  | .post =>
    match req.clientId, req.clientSecret with
    | some i, some s =>
      (if secretMatches C.cdb i s then some { clientId := some i, method := CAuthn.post.tag } else none, seen)
    | _, _ => (none, seen)
  | .bearerHeader =>
    match afterPrefix "Bearer " header with
    | none => (none, seen)
    | some t => (some { token := some (String.ofList t), method := CAuthn.bearerHeader.tag }, seen)
  | .bearerBody =>
    match req.accessToken with
    | none => (none, seen)
    | some t => (some { token := some t, clientId := truthyStr req.clientId, method := CAuthn.bearerBody.tag }, seen)
  | .secretJwt => jwsVerify C CAuthn.secretJwt.tag false req.clientAssertion seen
  | .privateKeyJwt => jwsVerify C CAuthn.privateKeyJwt.tag true req.clientAssertion seen
  | .requestParam =>
    match req.request.bind C.unpack with
    | none => (none, seen)
    | some A => jtiCheck CAuthn.requestParam.tag A seen
  | .dpop => (none, seen)

/-- The loop over the methods, client_authn.py:353-368; `none` in the list is the method "none". -/
def tryMethods (C : AuthnCtx) (req : AuthnReq) (header : Option String) :
    List (Option CAuthn) → List String → Option AuthInfo × List String
  | [], seen => (none, seen)
  | none :: ms, seen => tryMethods C req header ms seen
  | some m :: ms, seen =>
    if m.usable req header then
      match m.verify C req header seen with
      | (some ai, seen') => (some ai, seen')
      | (none, seen') => tryMethods C req header ms seen'
    else tryMethods C req header ms seen

/-- `valid_client_info`, client_authn.py:317-321 -/
def validClientInfo (now : Int) (c : AuthnClient) : Bool := !(c.expiresAt != 0 && decide (c.expiresAt < now))

/-- The checks on a client that was named, client_authn.py:384-406.  An entry that is a string has no `get`. -/
def checkClient (C : AuthnCtx) (id : String) : Except Exc Unit :=
  match C.cdb.get? id with
  | none => .error (.other "UnknownClient")
  | some (.alias n) => if C.cdb.has n then .error .attributeError else .error (.other "UnknownClient")
  | some (.info c) => if validClientInfo C.now c then .ok () else .error (.other "InvalidClient")

/-- The client of a token, client_authn.py:407-418 -/
def clientOfToken (getId : Option (String → AuthnReq → Except Exc String)) (req : AuthnReq) (ai : AuthInfo) :
    Except Exc AuthInfo :=
  match getId with
  | none => .ok ai
  | some f =>
    match truthyStr ai.token with
    | none => .error (.other "BearerTokenAuthenticationError")
    | some t =>
      match f t req with
      | .ok c => .ok { ai with clientId := some c }
      | .error e =>
        if e = .toOld || e.isKeyError then .error (.other "BearerTokenAuthenticationError") else .error e

/-- The end of `verify_client`, client_authn.py:376-420 -/
def finishClient (C : AuthnCtx) (getId : Option (String → AuthnReq → Except Exc String)) (req : AuthnReq) (ai : AuthInfo) :
    Except Exc AuthInfo :=
  match truthyStr ai.clientId with
  | some c =>
    match checkClient C c with
    | .error e => .error e
    | .ok () => .ok ai
  | none => clientOfToken getId req ai

/-- `verify_client`, client_authn.py:324-420.  The empty dictionary is `none`. -/
def verifyClient (C : AuthnCtx) (methods : List (Option CAuthn)) (getId : Option (String → AuthnReq → Except Exc String))
    (req : AuthnReq) (header : Option String) (seen : List String) : Except Exc (Option AuthInfo) × List String :=
  match tryMethods C req header methods seen with
  | (some ai, seen') => ((finishClient C getId req ai).map some, seen')
  | (none, seen') =>
    if none ∈ methods then ((finishClient C getId req { clientId := req.clientId, method := "none" }).map some, seen')
    else (.ok none, seen')

/-- `Endpoint.client_authentication`, endpoint.py:208-233 -/
def clientAuthentication (C : AuthnCtx) (methods : List (Option CAuthn))
    (getId : Option (String → AuthnReq → Except Exc String)) (req : AuthnReq) (header : Option String)
    (seen : List String) : Except Exc (Option AuthInfo) × List String :=
  match verifyClient C methods getId req header seen with
  | (.ok none, seen') => if methods.isEmpty then (.ok none, seen') else (.error (.other "UnAuthorizedClient"), seen')
  | r => r

/-- The client id that `parse_request` puts into the request, endpoint.py:180-184. -/
def parsedClient (req : AuthnReq) : Option AuthInfo → Option String
  | some ai => if ai.clientId.isSome then ai.clientId else req.clientId
  | none => req.clientId

/-- `RegistrationRead.get_client_id_from_token`, oidc/read_registration.py:18-25; `tokens` is
`registration_access_token`. -/
def readClientOfToken (tokens : Dict String) (token : String) (req : AuthnReq) : Except Exc String :=
  match req.clientId with
  | none => .ok ""
  | some c =>
    match tokens.get? token with
    | none => .error .keyError
    | some c' => .ok (if c = c' then c else "")

/-- A read request: `parse_request`, then `RegistrationRead.process_request`, oidc/read_registration.py:27-31.  The result is
the client whose record is returned.  The record is looked up in `cdb`, an entry that is a string has no `items`. -/
def readRegistration (C : AuthnCtx) (methods : List (Option CAuthn)) (tokens : Dict String) (req : AuthnReq)
    (header : Option String) (seen : List String) : Except Exc String × List String :=
  match clientAuthentication C methods (some (readClientOfToken tokens)) req header seen with
  | (.error e, seen') => (.error e, seen')
  | (.ok ai, seen') =>
    match parsedClient req ai with
    | none => (.error .keyError, seen')
    | some c =>
      match C.cdb.get? c with
      | some (.info _) => (.ok c, seen')
      | some (.alias _) => (.error .attributeError, seen')
      | none => (.error .keyError, seen')

end OidcOp
