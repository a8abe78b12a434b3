/-
Model of the token endpoint helpers, oauth2/token.py and oidc/token.py, at the level of one grant.
The session lookups that precede and follow are in Model/World.lean.
-/
import Verif.Model.Grant

namespace OidcOp

/-- DEFAULT_TOKEN_LIFETIME, constant.py:3 -/
def defaultTokenLifetime : Int := 1800

/-- Which of the two token endpoint classes is configured: oauth2/token.py or oidc/token.py. -/
inductive Flavor where
  | oauth2
  | oidc
  deriving DecidableEq, Repr, Inhabited

/-- The parameters of a token request that the code reads; `none` means absent. -/
structure TokenReq where
  grantType : Option String := none
  code : Option String := none
  refreshToken : Option String := none
  redirectUri : Option String := none
  clientId : Option String := none
  scope : Option (List String) := none
  codeVerifier : Option String := none
  dpopJkt : Option String := none
  deriving DecidableEq, Repr, Inhabited

/-- The response arguments of a token response, oauth2/token.py:148-185, oidc/token.py:94-155. -/
structure TokenResp where
  tokenType : String := "Bearer"
  scope : List String := []
  accessToken : Option String := none
  expiresIn : Option Int := none
  refreshToken : Option String := none
  idToken : Option String := none
  deriving DecidableEq, Repr, Inhabited

/-- What a helper's `process_request` returns: an error message instance or response arguments. -/
inductive HRes where
  | err (code : String)
  | resp (r : TokenResp)
  deriving DecidableEq, Repr, Inhabited

/-- What `post_parse_request` returns: an error message instance or the (completed) request. -/
inductive PRes where
  | err (code : String)
  | req (r : TokenReq)
  deriving DecidableEq, Repr, Inhabited

/-- What the helpers read of a client's entry in the client database. -/
structure TClient where
  /-- "grant_types_supported" -/
  grantTypes : Option (List String) := none
  /-- "revoke_refresh_on_issue" -/
  revokeRefresh : Option Bool := none
  deriving DecidableEq, Repr, Inhabited

/-- Configuration seen by the token endpoint. -/
structure TokenCfg where
  flavor : Flavor := .oidc
  /-- the client database -/
  cdb : Dict TClient := []
  /-- provider_info["grant_types_supported"] -/
  providerGrantTypes : List String := []
  /-- endpoint_context.dpop_enabled -/
  dpopEnabled : Bool := false
  /-- "dpop_signing_alg_values_supported" in provider_info -/
  dpopAdvertised : Bool := false
  /-- `Token.revoke_refresh_on_issue`, oauth2/token.py:388 -/
  revokeRefreshOnIssue : Bool := false
  deriving DecidableEq, Repr, Inhabited

/-- State of a helper at work: the grant object and a counter that numbers the calls of token
handlers.  The counter stands for the freshness of the random part of a token value. -/
structure GS where
  g : Grant
  n : Nat
  deriving DecidableEq, Repr, Inhabited

/-- Outcome of the `n`-th token handler call for a class: a value or an exception. -/
abbrev Minter := Nat → TokenClass → Except Exc String

/-- The life time that `_mint_token` applies, oauth2/token.py:60-64. -/
def expIn (rules : Option UsageRules) : Option Int :=
  match rules with
  | some r => if r.nonempty then r.expiresIn else some defaultTokenLifetime
  | none => some defaultTokenLifetime

/-- Put the expiry on a freshly minted token, oauth2/token.py:87-92. -/
def withExpiry (clock : Int) (e : Option Int) (t : Token) : Token :=
  match e with
  | some x => if x = 0 then t else { t with expiresAt := clock + x }
  | none => t

/-- `TokenEndpointHelper._mint_token`, oauth2/token.py:47-96.
`token_args_methods` is taken to be empty.  When `mint_token` returns `None` Python raises
AttributeError, either at `token.expires_at = ...` (line 92) or, if no life time is configured, at the
caller's `token.value`; nothing happens in between, so it is raised here in both cases.
The `session_manager.set` of line 94 is part of Model/World.lean. -/
def mintEP (mk : Minter) (clock : Int) (c : TokenClass) (basedOn : Option Token)
    (scope : Option (List String)) (tokenType : String) : SE GS Token := fun s =>
  let rules := s.g.rulesFor c
  match s.g.mintToken clock c basedOn rules scope tokenType (mk s.n c) with
  | (.error e, g') => (.error e, ⟨g', s.n + 1⟩)
  | (.ok none, g') => (.error .attributeError, ⟨g', s.n + 1⟩)
  | (.ok (some t), g') =>
    let t' := withExpiry clock (expIn rules) t
    (.ok t', ⟨g'.updateLast (fun _ => t'), s.n + 1⟩)

/-- `if <wanted>: try: _mint_token(...) except MintingNotAllowed: log else: use it`,
oauth2/token.py:153-167, 169-185 and oidc/token.py:99-114, 116-132. -/
def mintOrSkip (mk : Minter) (clock : Int) (c : TokenClass) (b : Token) (tokenType : String)
    (wanted : Bool) : SE GS (Option Token) := fun s =>
  if wanted then
    match mintEP mk clock c (some b) none tokenType s with
    | (.ok t, s') => (.ok (some t), s')
    | (.error .mintingNotAllowed, s') => (.ok none, s')
    | (.error e, s') => (.error e, s')
  else (.ok none, s)

/-- `token.expires_at - now` if `token.expires_at` is set, oauth2/token.py:166-167. -/
def expiresInOf (clock : Int) (t : Token) : Option Int :=
  if t.expiresAt ≠ 0 then some (t.expiresAt - clock) else none

/-- `"grant_types_supported" in cdb[client_id]` etc., oauth2/token.py:126-129. -/
def grantTypesFor (cfg : TokenCfg) (cid : String) : Except Exc (List String) :=
  match cfg.cdb.get? cid with
  | none => .error .keyError
  | some c => .ok (c.grantTypes.getD cfg.providerGrantTypes)

/-- The comparison of redirect URIs, oauth2/token.py:137-143, oidc/token.py:79-85.
`ok true` means go on, `ok false` the mismatch error. -/
def redirectCheck (ar : AuthzReq) (req : TokenReq) : Except Exc Bool :=
  match ar.redirectUri with
  | none => .ok true
  | some u =>
    match req.redirectUri with
    | none => .error .keyError
    | some u' => .ok (decide (u' = u))

/-- Minting the ID Token in a token response, oidc/token.py:137-155.
`some none`: nothing to mint; `none`: could not sign or encrypt (an error message is returned). -/
def mintIdToken (mk : Minter) (clock : Int) (b : Token) (scope : Option (List String)) (wanted : Bool) :
    SE GS (Option (Option String)) := fun s =>
  if wanted then
    match mintEP mk clock .idToken (some b) scope "" s with
    | (.ok t, s') => (.ok (some (some t.value)), s')
    | (.error .jweException, s') => (.ok none, s')
    | (.error .noSuitableSigningKeys, s') => (.ok none, s')
    | (.error e, s') => (.error e, s')
  else (.ok (some none), s)

/-- Storing the DPoP key thumb print in the grant; returns the token type.
oidc/token.py:60-72 (code), oauth2/token.py:250-257 and oidc/token.py:219-226 (refresh). -/
def dpopStep (enabled : Bool) (req : TokenReq) : SE GS String := fun s =>
  if enabled then
    match truthyStr req.dpopJkt with
    | some j => (.ok "DPoP", { s with g := { s.g with dpopJkt := some j } })
    | none => (.ok "Bearer", s)
  else (.ok "Bearer", s)

/-- `issue_refresh`: oauth2/token.py:147 (default False); oidc/token.py:89-92 and 253-256 (not given
and "offline_access" among the scopes means yes).  `kw` is the keyword argument of `process_request`. -/
def issueRefresh (fl : Flavor) (kw : Option Bool) (scope : List String) : Bool :=
  match fl, kw with
  | .oauth2, k => k.getD false
  | .oidc, some b => b
  | .oidc, none => decide ("offline_access" ∈ scope)

/-- `"openid" in _authn_req["scope"] and "id_token" in _supports_minting`, oidc/token.py:137; the OAuth2
endpoint mints no ID Token. -/
def idTokenWanted (fl : Flavor) (ar : AuthzReq) (mints : List TokenClass) : Except Exc Bool :=
  match fl with
  | .oauth2 => .ok false
  | .oidc =>
    match ar.scope with
    | none => .error .keyError
    | some sc => .ok (decide ("openid" ∈ sc ∧ TokenClass.idToken ∈ mints))

/-- How far the first part got. -/
inductive MRes where
  /-- an error message is returned -/
  | err (code : String)
  /-- everything is minted, the response arguments are ready -/
  | ready (r : TokenResp)
  deriving DecidableEq, Repr, Inhabited

/-- The part of `AccessTokenHelper.process_request` after the session has been found and up to
`_based_on.register_usage()`, oauth2/token.py:119-186 and oidc/token.py:45-156.  `sessClient` is
`_session_info["client_id"]`, `code` is `_access_code`. -/
def codeMint (cfg : TokenCfg) (mk : Minter) (clock : Int) (kw : Option Bool) (sessClient : String)
    (req : TokenReq) (code : String) : SE GS MRes := do
  match req.clientId with
  | none => SE.raise .keyError
  | some reqClient =>
    if sessClient ≠ reqClient then return .err "invalid_grant"
    else do
      let supported ← SE.ofExcept (grantTypesFor cfg sessClient)
      let ttype ← dpopStep (cfg.flavor = .oidc && cfg.dpopEnabled) req
      let s ← SE.get
      match s.g.getToken code with
      | none => SE.raise .attributeError
      | some b =>
        let mints := b.rules.supportsMinting.getD []
        match s.g.authzReq with
        | none => SE.raise .typeError
        | some ar =>
          let same ← SE.ofExcept (redirectCheck ar req)
          if same = false then return .err "invalid_request"
          else do
            let issue := issueRefresh cfg.flavor kw s.g.scope
            let at? ← mintOrSkip mk clock .accessToken b (if cfg.flavor = .oidc then ttype else "")
              (decide (TokenClass.accessToken ∈ mints))
            let rt? ← mintOrSkip mk clock .refreshToken b ""
              (decide (issue = true ∧ TokenClass.refreshToken ∈ mints ∧ "refresh_token" ∈ supported))
            let openid ← SE.ofExcept (idTokenWanted cfg.flavor ar mints)
            let idt ← mintIdToken mk clock b none openid
            match idt with
            | none => return .err "invalid_request"
            | some idv =>
              return .ready
                { tokenType := ttype, scope := s.g.scope, accessToken := at?.map Token.value,
                  expiresIn := at?.bind (expiresInOf clock), refreshToken := rt?.map Token.value,
                  idToken := idv }

/-- The rest: `_based_on.register_usage()` and the return, oauth2/token.py:187-192, oidc/token.py:157-159. -/
def codeFinish (code : String) : MRes → SE GS HRes
  | .err c => fun s => (.ok (.err c), s)
  | .ready r => fun s => (.ok (.resp r), { s with g := s.g.updateToken code Token.registerUsage })

/-- The part of `AccessTokenHelper.process_request` after the session has been found,
oauth2/token.py:119-192 and oidc/token.py:45-159. -/
def codeProcess (cfg : TokenCfg) (mk : Minter) (clock : Int) (kw : Option Bool) (sessClient : String)
    (req : TokenReq) (code : String) : SE GS HRes := do
  let m ← codeMint cfg mk clock kw sessClient req code
  codeFinish code m

/-- The part of `AccessTokenHelper.post_parse_request` after the session has been found,
oauth2/token.py:212-227, oidc/token.py:179-199.  `code` is `request["code"]`. -/
def codeParse (cfg : TokenCfg) (clock : Int) (req : TokenReq) (code : String) : SE Grant PRes := fun g =>
  match g.getToken code with
  | none => (.ok (.err "invalid_request"), g)
  | some t =>
    if t.cls ≠ .authorizationCode then (.ok (.err "invalid_request"), g)
    else if cfg.flavor = .oidc ∧ t.used ≠ 0 then
      match g.revokeToken "" code with
      | .ok g' => (.ok (.err "invalid_grant"), g')
      | .error e => (.error e, g)
    else if t.isActive clock = false then
      (.ok (.err (if cfg.flavor = .oidc then "invalid_grant" else "invalid_request")), g)
    else match req.clientId with
      | some _ => (.ok (.req req), g)
      | none =>
        match g.authzReq with
        | none => (.error .typeError, g)
        | some ar =>
          match ar.clientId with
          | none => (.error .keyError, g)
          | some c => (.ok (.req { req with clientId := some c }), g)

/-- Whether the used refresh token is revoked, oauth2/token.py:298-305, oidc/token.py:292-299. -/
def revokeRefreshFor (cfg : TokenCfg) (cid : Option String) : Bool :=
  match cid with
  | none => cfg.revokeRefreshOnIssue
  | some c =>
    match cfg.cdb.get? c with
    | none => cfg.revokeRefreshOnIssue
    | some cl => cl.revokeRefresh.getD cfg.revokeRefreshOnIssue

/-- `if revoke_refresh: token.revoke()`, oauth2/token.py:306-308, oidc/token.py:300-302 -/
def revokeIf (b : Bool) (v : String) : SE GS Unit := fun s =>
  if b then (.ok (), { s with g := s.g.updateToken v Token.revoke }) else (.ok (), s)

/-- Minting the new refresh token, oauth2/token.py:284-294, oidc/token.py:258-268: the new token gets
a copy of the old one's usage rules. -/
def mintRefresh (mk : Minter) (clock : Int) (tok : Token) (scope : List String) (wanted : Bool) :
    SE GS (Option String) := fun s =>
  if wanted then
    match mintEP mk clock .refreshToken (some tok) (some scope) "" s with
    | (.ok t, s') =>
      (.ok (some t.value), { s' with g := s'.g.updateLast (fun r => { r with rules := tok.rules }) })
    | (.error e, s') => (.error e, s')
  else (.ok none, s)

/-- The part of `RefreshTokenHelper.process_request` after the session has been found,
oauth2/token.py:243-310, oidc/token.py:212-304.  `v` is `req["refresh_token"]`. -/
def refreshProcess (cfg : TokenCfg) (mk : Minter) (clock : Int) (kw : Option Bool) (sessClient : String)
    (req : TokenReq) (v : String) : SE GS HRes := do
  match req.clientId with
  | none => SE.raise .keyError
  | some reqClient =>
    if sessClient ≠ reqClient then return .err "invalid_grant"
    else do
      let ttype ← dpopStep cfg.dpopAdvertised req
      let s ← SE.get
      match s.g.getToken v with
      | none => SE.raise .attributeError
      | some tok =>
        let found ← SE.ofExcept (s.g.findScope tok.basedOn)
        let scope := req.scope.getD found
        let at' ← mintEP mk clock .accessToken (some tok) (some scope) ttype
        match tok.rules.supportsMinting with
        | none => SE.raise .typeError
        | some mints =>
          let rt ← mintRefresh mk clock tok scope
            (decide (TokenClass.refreshToken ∈ mints) && issueRefresh cfg.flavor kw scope)
          let idt ← mintIdToken mk clock tok (some scope)
            (decide (cfg.flavor = .oidc ∧ TokenClass.idToken ∈ mints ∧ "openid" ∈ scope))
          match idt with
          | none => return .err "invalid_request"
          | some idv => do
            SE.modify (fun s => { s with g := s.g.updateToken v Token.registerUsage })
            revokeIf (revokeRefreshFor cfg req.clientId) v
            return .resp
              { tokenType := ttype, scope := scope, accessToken := some at'.value,
                expiresIn := expiresInOf clock at', refreshToken := rt, idToken := idv }

/-- `set(a).issubset(set(b))` -/
def subsetB (a b : List String) : Bool := a.all (fun x => decide (x ∈ b))

/-- The part of `RefreshTokenHelper.post_parse_request` after the session has been found,
oauth2/token.py:339-359, oidc/token.py:333-353. -/
def refreshParse (clock : Int) (req : TokenReq) (v : String) (g : Grant) : Except Exc PRes :=
  match g.getToken v with
  | none => .ok (.err "invalid_request")
  | some t =>
    if t.cls ≠ .refreshToken then .ok (.err "invalid_request")
    else if t.isActive clock = false then .ok (.err "invalid_request")
    else match req.scope with
      | none => .ok (.req req)
      | some sc =>
        match g.findScope t.basedOn with
        | .error e => .error e
        | .ok found => if subsetB sc found then .ok (.req req) else .ok (.err "invalid_request")

end OidcOp
