/-
Model of oidc/add_on/pkce.py, and of the provider with that add-on.
-/
import Verif.Model.World

namespace OidcOp

/-- The three hash transformations of `CC_METHOD`, oidc/add_on/pkce.py:16-30.  Each may raise (a verifier that is not
ASCII). -/
structure CCHash where
  s256 : String → Except Exc String
  s384 : String → Except Exc String
  s512 : String → Except Exc String

/-- `CC_METHOD`, oidc/add_on/pkce.py:25-30 -/
def ccMethod (H : CCHash) (m : String) : Option (String → Except Exc String) :=
  if m = "plain" then some .ok
  else if m = "S256" then some H.s256
  else if m = "S384" then some H.s384
  else if m = "S512" then some H.s512
  else none

/-- `args["pkce"]` and the "pkce_essential" members of the client database. -/
structure PkceCfg where
  /-- "essential" -/
  essential : Option Bool := none
  /-- the keys of "code_challenge_methods" -/
  methods : List String := ["plain", "S256", "S384", "S512"]
  /-- the client database: the value of "pkce_essential", if the client has one -/
  cdb : Dict (Option Bool) := []
  deriving DecidableEq, Repr, Inhabited

/-- `essential` in post_authn_parse, oidc/add_on/pkce.py:42-46 -/
def PkceCfg.essentialFor (P : PkceCfg) (own : Option Bool) : Bool :=
  match own with
  | some b => b
  | none => P.essential.getD false

/-- What `post_authn_parse` returns: an error message or the completed request. -/
inductive AParse where
  | err (code desc : String)
  | req (r : AuthzReq)
  deriving DecidableEq, Repr, Inhabited

/-- `post_authn_parse`, oidc/add_on/pkce.py:33-66 -/
def pkceAuthnParse (P : PkceCfg) (client : String) (req : AuthzReq) : Except Exc AParse :=
  match P.cdb.get? client with
  | none => .error .keyError
  | some own =>
    if P.essentialFor own && req.codeChallenge.isNone then
      .ok (.err "invalid_request" "Missing required code_challenge")
    else
      let method := req.codeChallengeMethod.getD "plain"
      let req' := { req with codeChallengeMethod := some method }
      if req'.codeChallenge.isSome && !(P.methods.contains method) then
        .ok (.err "invalid_request" "Unsupported code_challenge_method")
      else .ok (.req req')

/-- `verify_code_challenge`, oidc/add_on/pkce.py:69-83 -/
def verifyCodeChallenge (H : CCHash) (verifier challenge method : String) : Except Exc Bool :=
  match ccMethod H method with
  | none => .error .keyError
  | some f =>
    match f verifier with
    | .error e => .error e
    | .ok x => .ok (decide (x = challenge))

/-- `post_token_parse`, oidc/add_on/pkce.py:86-124.  A request with grant type refresh_token is a
RefreshAccessTokenRequest by then (oauth2/token.py:327-331, oidc/token.py:321-325).  A grant without an authorization
request makes the `in` test raise TypeError. -/
def pkceTokenParse (E : Env) (H : CCHash) (w : World) (req : TokenReq) : Except Exc PRes :=
  if req.grantType = some "refresh_token" then .ok (.req req)
  else
    match req.code with
    | none => .ok (.err "invalid_grant")
    | some code =>
      match sessionByToken E w code with
      | .error e => if e.isKeyError then .ok (.err "invalid_grant") else .error e
      | .ok s =>
        match s.grant.authzReq with
        | none => .error .typeError
        | some ar =>
          match ar.codeChallenge with
          | none => .ok (.req req)
          | some challenge =>
            match req.codeVerifier with
            | none => .ok (.err "invalid_grant")
            | some verifier =>
              match ar.codeChallengeMethod with
              | none => .error .keyError
              | some m =>
                match verifyCodeChallenge H verifier challenge m with
                | .error e => .error e
                | .ok true => .ok (.req req)
                | .ok false => .ok (.err "invalid_grant")

/-- `do_post_parse_request` at the token endpoint with PKCE added, endpoint.py:235-243 and pkce.py:139: the
endpoint's own function first, then `post_token_parse` unless the result is an error. -/
def tokenParseP (E : Env) (H : CCHash) (w : World) (client : String) (req : TokenReq) : Except Exc PRes × World :=
  match tokenParse E w client req with
  | (.ok (.req r), w') => (pkceTokenParse E H w' r, w')
  | (res, w') => (res, w')

/-- One operation of a provider with PKCE: like `step`, but authorization requests and token requests go through
the functions above as well. -/
def pstep (E : Env) (H : CCHash) (P : PkceCfg) (w : World) : WOp → World
  | .login u c req ev =>
    match pkceAuthnParse P c req with
    | .ok (.req req') => step E w (.login u c req' ev)
    | _ => w
  | .again u c req ev =>
    match pkceAuthnParse P c req with
    | .ok (.req req') => step E w (.again u c req' ev)
    | _ => w
  | .parse client req =>
    match tokenParseP E H w client { req with clientId := some client } with
    | (.ok (.req r), w') => { w' with pool := w'.pool ++ [r] }
    | (_, w') => w'
  | op => step E w op

/-- The state after a history of a provider with PKCE. -/
def prun (E : Env) (H : CCHash) (P : PkceCfg) (w : World) (ops : List WOp) : World := ops.foldl (pstep E H P) w

end OidcOp
