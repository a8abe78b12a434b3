/-
Model of what goes into a token: `Grant.payload_arguments`, the call of the token handler in `Grant.mint_token`, and the ID
token handler (token/id_token.py).
-/
import Verif.Model.Resource
import Verif.Model.TokenHandler

namespace OidcOp

/-- The payload before user claims, session/grant.py:216-231.  `extra` is `extra_payload`, `jti` the fresh identifier. -/
def basePayload (g : Grant) (scope : List String) (extra : Dict Json) (jti : String) : Dict Json :=
  let p : Dict Json :=
    [("scope", .arr (scope.map Json.str)), ("aud", .arr (g.resources.map Json.str)), ("jti", .str jti)]
  let p := p.update extra
  let p := match truthyStr g.dpopJkt with
    | some jkt => p.set "cnf" (.obj [("jkt", .str jkt)])
    | none => p
  match truthyStr (g.authzReq.bind (·.clientId)) with
  | some c => (p.set "client_id" (.str c)).set "sub" (.str g.sub)
  | none => p

/-- Whether the acr value is added, session/grant.py:242-246 -/
def wantsAcr (g : Grant) (point : String) (second : Option String) : Except Exc Bool :=
  match addAcrValue g (some point) with
  | .error e => .error e
  | .ok true => .ok true
  | .ok false => addAcrValue g second

/-- The user's claims and the acr value on top of the payload, session/grant.py:239-248 -/
def fillPayload (users : Option UserDb) (user : String) (g : Grant) (point : String) (second : Option String)
    (restriction base : Dict Json) : Except Exc (Dict Json) :=
  match getUserClaims users user restriction with
  | .error e => .error e
  | .ok info =>
    match wantsAcr g point second with
    | .error e => .error e
    | .ok false => .ok (base.update info)
    | .ok true => .ok ((base.update info).set "acr" (.str ((g.authnEvent.map (·.authnInfo)).getD "")))

/-- `Grant.payload_arguments`, session/grant.py:195-248, for the session of `user` and `client`. -/
def payloadArguments (cfg : ClaimsCfg) (users : Option UserDb) (user client : String) (g : Grant) (point : String)
    (second : Option String) (scope : List String) (extra : Dict Json) (jti : String) (db : ClaimsDb) :
    Except Exc (Dict Json) × ClaimsDb :=
  match claimsFromRequest cfg g.authzReq point (some scope) (some client) second db with
  | (.error e, db') => (.error e, db')
  | (.ok restriction, db') => (fillPayload users user g point second restriction (basePayload g scope extra jti), db')

/-- The release point of a token class, session/grant.py:319-322 -/
def mintPoint (cfg : ClaimsCfg) (cls : String) : String := if (releasePoints cfg.oidc).contains cls then cls else ""

/-- The handler is called with the payload as keyword arguments, session/grant.py:344-346: a payload entry with the name of
an argument that is given already is a TypeError. -/
def keywordClash (payload : Dict Json) : Bool :=
  payload.has "session_id" || payload.has "usage_rules" || payload.has "self"

/-- Minting a JWT access token: `payload_arguments`, then `JWTToken.__call__`. -/
def mintJwt (L : JwtLib) (issuer alg : String) (lifetime : Int) (cfg : ClaimsCfg) (users : Option UserDb) (cls : String)
    (rules : Option Int) (now : Int) (nonce : Nat) (sid : Str) (user client : String) (g : Grant) (scope : List String)
    (jti : String) (db : ClaimsDb) : Except Exc Str × ClaimsDb :=
  match payloadArguments cfg users user client g (mintPoint cfg cls) none scope [] jti db with
  | (.error e, db') => (.error e, db')
  | (.ok p, db') =>
    (if keywordClash p then .error .typeError else .ok (jwtCall L issuer cls alg lifetime rules now nonce sid p), db')

/-! ## The ID token -/

/-- What the ID token handler needs to know. -/
structure IdtCfg where
  issuer : String
  lifetime : Int := 300
  /-- the signing algorithm for ID tokens of each client in the client database, `get_sign_and_encrypt_algorithms`,
  token/id_token.py:60-107 -/
  algOf : Dict String
  /-- `include_session_id` for back or front, token/id_token.py:31-57, 277-284 -/
  inclSid : String → Bool
  /-- `left_hash(value, "HS" + alg[-3:])` -/
  hash : String → String → Json

/-- Names that are removed from the user information, token/id_token.py:183-188 -/
def idtProtected : List String := ["iss", "sub", "aud", "exp", "acr", "nonce", "auth_time"]

def eraseAll (d : Dict Json) : List String → Dict Json
  | [] => d
  | k :: ks => eraseAll (d.erase k) ks

/-- `_args` at the start, token/id_token.py:157-162 -/
def idtStart (g : Grant) (sid : String) : Dict Json :=
  let a : Dict Json := [("sub", .str g.sub), ("sid", .str sid)]
  match g.authnEvent with
  | none => a
  | some ev =>
    let a := if ev.authnTime ≠ 0 then a.set "auth_time" (.num ev.authnTime) else a
    if ev.authnInfo ≠ "" then a.set "acr" (.str ev.authnInfo) else a

/-- One of the two hashes, token/id_token.py:197-200: a value that is not a string has no `encode`. -/
def addHash (hash : String → Json) (name : String) (v : Option Json) (a : Dict Json) : Except Exc (Dict Json) :=
  match v with
  | none => .ok a
  | some x =>
    if x.truthy then
      match x with
      | .str s => .ok (a.set name (hash s))
      | _ => .error .attributeError
    else .ok a

/-- `authn_req["nonce"]`, token/id_token.py:202-207 -/
def addNonce (g : Grant) (a : Dict Json) : Dict Json :=
  match g.authzReq.bind (·.nonce) with
  | some n => a.set "nonce" (.str n)
  | none => a

/-- `IDToken.payload`, token/id_token.py:133-211, as `__call__` uses it: `user_info` is what is left of the keyword
arguments.  They always have "jti", so the branch for missing user information (164-176) is not reached. -/
def idtPayload (hash : String → Json) (g : Grant) (sid : String) (incl : Bool) (code accessToken : Option Json)
    (userInfo : Dict Json) : Except Exc (Dict Json) :=
  let a := (idtStart g sid).update (eraseAll userInfo idtProtected)
  let a := if incl then a.set "sid" (.str sid) else a
  match addHash hash "c_hash" code a with
  | .error e => .error e
  | .ok a =>
    match addHash hash "at_hash" accessToken a with
    | .error e => .error e
    | .ok a => .ok (addNonce g a)

/-- `IDToken.__call__` and `sign_encrypt`, token/id_token.py:213-299: the keyword arguments "ttype", "encrypt", "code" and
"access_token" are parameters of the method.  The result is the signed token; the encryption that follows it for a true
"encrypt" is not modelled. `recv=client_id` makes the client the only audience. -/
def idtCall (L : JwtLib) (K : IdtCfg) (now : Int) (nonce : Nat) (sid client : String) (g : Grant) (kwargs : Dict Json) :
    Except Exc Str :=
  match K.algOf.get? client with
  | none => .error .keyError
  | some alg =>
    match idtPayload (K.hash alg) g sid (K.inclSid client) (kwargs.get? "code") (kwargs.get? "access_token")
        (eraseAll kwargs ["ttype", "encrypt", "code", "access_token"]) with
    | .error e => .error e
    | .ok a => .ok (L.sign nonce alg ((packed K.issuer now K.lifetime a).set "aud" (.arr [.str client])))

/-- The code and the access token that are issued with the ID token, oauth2/authorization.py:778-784; none in the token
endpoint. -/
def idtExtra (code accessToken : Option String) : Dict Json :=
  (match code with | some c => [("code", Json.str c)] | none => []) ++
  (match accessToken with | some t => [("access_token", Json.str t)] | none => [])

/-- Minting an ID token: `Grant.mint_token` with `payload_arguments` and `IDToken.__call__`. -/
def mintIdt (L : JwtLib) (K : IdtCfg) (cfg : ClaimsCfg) (users : Option UserDb) (now : Int) (nonce : Nat) (sid user : String)
    (client : String) (g : Grant) (second : Option String) (scope : List String) (code accessToken : Option String)
    (jti : String) (db : ClaimsDb) : Except Exc Str × ClaimsDb :=
  match payloadArguments cfg users user client g (mintPoint cfg "id_token") second scope (idtExtra code accessToken) jti db with
  | (.error e, db') => (.error e, db')
  | (.ok p, db') => (if keywordClash p then .error .typeError else idtCall L K now nonce sid client g p, db')

end OidcOp
