/-
Model of authz/__init__.py and of the minting part of the authorization endpoint
(oauth2/authorization.py), at the level of one grant.
-/
import Verif.Model.TokenEndpoint

namespace OidcOp

/-- A usage rules dictionary: token class to rules.  A top level "max_usage" is left out. -/
abbrev Rules := List (TokenClass × UsageRules)

/-- `rules.get(cls)` -/
def Rules.get? (rs : Rules) (c : TokenClass) : Option UsageRules :=
  (rs.find? (fun p => decide (p.1 = c))).map Prod.snd

/-- `_rule.update(_pc)` on one rules dict -/
def UsageRules.update (a b : UsageRules) : UsageRules :=
  { maxUsage := b.maxUsage.or a.maxUsage
    supportsMinting := b.supportsMinting.or a.supportsMinting
    expiresIn := b.expiresIn.or a.expiresIn }

/-- `AuthzHandling.usage_rules`, authz/__init__.py:23-50.  `server` is
`grant_config.get("usage_rules")`; `client` is the client's "token_usage_rules", `none` when no client
id is given or the lookup raises KeyError.  An entry of the client's rules is a dict, possibly empty. -/
def usageRules (server : Option Rules) (client : Option Rules) : Rules :=
  let base := server.getD []
  match client with
  | none => base
  | some pc =>
    if base.isEmpty then pc
    else
      base.map (fun p => match Rules.get? pc p.1 with
        | some r => if r.nonempty then (p.1, p.2.update r) else (p.1, {})
        | none => p)
      ++ pc.filter (fun p => !(base.any (fun q => decide (q.1 = p.1))))

/-- Configuration of the authorization handler and of the client database as far as it reads it. -/
structure AuthzCfg where
  /-- grant_config["expires_in"] -/
  expiresIn : Option Int := none
  /-- grant_config["usage_rules"] -/
  usageRules : Option Rules := none
  /-- cdb[client]["token_usage_rules"] -/
  perClient : Dict Rules := []
  deriving DecidableEq, Repr, Inhabited

/-- `usage_rules(client_id)` for an optional client id, authz/__init__.py:29-35 -/
def AuthzCfg.rulesOf (cfg : AuthzCfg) (client : Option String) : Rules :=
  match truthyStr client with
  | none => OidcOp.usageRules cfg.usageRules none
  | some c => OidcOp.usageRules cfg.usageRules (cfg.perClient.get? c)

/-- `AuthzHandling.__call__` after the grant has been found, authz/__init__.py:70-94, with
`resources=None`.  `claims` is the outcome of `get_claims_all_usage`.  Other keys of the grant
configuration than "expires_in" and "usage_rules" are left out. -/
def authzCall (cfg : AuthzCfg) (claims : List String → Except Exc (Dict (Dict Json))) (clock : Int)
    (sessClient : String) (req : AuthzReq) : SE Grant Unit := fun g =>
  let g := match cfg.expiresIn with
    | some x => { g with expiresAt := clock + x }
    | none => g
  let g := match cfg.usageRules with
    | some _ => { g with usageRules := cfg.rulesOf req.clientId, maxUsage := none }
    | none => g
  let g := { g with resources := [sessClient] }
  let g := if g.scope.isEmpty then { g with scope := req.scope.getD [] } else g
  match claims g.scope with
  | .error e => (.error e, g)
  | .ok cl => (.ok (), { g with claims := cl })

/-- The parameters of an authorization response. -/
structure AuthzResp where
  state : Option String := none
  scope : Option (List String) := none
  code : Option String := none
  accessToken : Option String := none
  expiresIn : Option Int := none
  idToken : Option String := none
  deriving DecidableEq, Repr, Inhabited

/-- What `create_authn_response` returns: `response_args` (an error or a response) and `fragment_enc`. -/
inductive ARes where
  | err (code desc : String) (fragmentEnc : Bool)
  | resp (r : AuthzResp) (fragmentEnc : Bool)
  deriving DecidableEq, Repr, Inhabited

/-- `Authorization.mint_token`, oauth2/authorization.py:329-349.  As in `mintEP` a `None` from
`grant.mint_token` is an AttributeError, raised at line 344 or by the caller's `.value`. -/
def mintAuthz (mk : Minter) (clock : Int) (c : TokenClass) (scope : Option (List String)) :
    SE GS Token := fun s =>
  let rules := (s.g.rulesFor c).getD {}
  match s.g.mintToken clock c none (some rules) scope "" (mk s.n c) with
  | (.error e, g') => (.error e, ⟨g', s.n + 1⟩)
  | (.ok none, g') => (.error .attributeError, ⟨g', s.n + 1⟩)
  | (.ok (some t), g') =>
    let t' := withExpiry clock rules.expiresIn t
    (.ok t', ⟨g'.updateLast (fun _ => t'), s.n + 1⟩)

/-- Mint a token for a response parameter if it was asked for, oauth2/authorization.py:752-775. -/
def mintIfAsked (mk : Minter) (clock : Int) (c : TokenClass) (wanted : Bool) : SE GS (Option Token) :=
  fun s =>
    if wanted then
      match mintAuthz mk clock c none s with
      | (.ok t, s') => (.ok (some t), s')
      | (.error e, s') => (.error e, s')
    else (.ok none, s)

/-- Minting the ID Token in an authorization response, oauth2/authorization.py:777-808.
`none` is the "Could not sign/encrypt" error. -/
def mintIdTokenAuthz (mk : Minter) (clock : Int) (scope : Option (List String)) (wanted : Bool) :
    SE GS (Option (Option Token)) := fun s =>
  if wanted then
    match scope with
    | none => (.error .keyError, s)
    | some sc =>
      match mintAuthz mk clock .idToken (some sc) s with
      | (.ok t, s') => (.ok (some (some t)), s')
      | (.error .jweException, s') => (.ok none, s')
      | (.error .noSuitableSigningKeys, s') => (.ok none, s')
      | (.error e, s') => (.error e, s')
  else (.ok (some none), s)

/-- `fragment_enc`, oauth2/authorization.py:746-748: False only if the response type, as a set, is
{code}. -/
def fragmentEnc (rt : List String) : Bool := !(rt.contains "code" && rt.all (fun x => x == "code"))

/-- `create_authn_response` after the session has been found, oauth2/authorization.py:726-821.
`filter` is `filter_scopes(_, client_id)`.  An absent response_type is the empty list. -/
def createAuthnResponse (mk : Minter) (clock : Int) (filter : List String → List String)
    (req : AuthzReq) : SE GS ARes := do
  let state := truthyStr req.state
  if req.responseType = ["none"] then return .resp { state := state } false
  else do
    let scope := match req.scope with
      | some sc => if sc.isEmpty then none else some (filter sc)
      | none => none
    if req.responseType.isEmpty then SE.raise .keyError
    else do
      let frag := fragmentEnc req.responseType
      let code ← mintIfAsked mk clock .authorizationCode (req.responseType.contains "code")
      let at' ← mintIfAsked mk clock .accessToken (req.responseType.contains "token")
      let idt ← mintIdTokenAuthz mk clock req.scope (req.responseType.contains "id_token")
      match idt with
      | none => return .err "invalid_request" "Could not sign/encrypt id_token" frag
      | some idt =>
        if req.responseType.all (fun x => x == "code" || x == "token" || x == "id_token") then
          return .resp
            { state := state, scope := scope, code := code.map Token.value,
              accessToken := at'.map Token.value, expiresIn := at'.bind (expiresInOf clock),
              idToken := idt.map Token.value } frag
        else return .err "invalid_request" "unsupported_response_type" frag

end OidcOp
