/-
The provider with its authorization endpoint, pushed authorization endpoint and token endpoint put together: parsing and
processing of requests as they come in over HTTP, with logins, cookies and the store of pushed requests.
-/
import Verif.Model.Login
import Verif.Model.Pkce
import Verif.Model.Uri

namespace OidcOp

/-- What parsing an authorization request reads of a client's entry in the client database, and "subject_type" and
"sector_id", which registration stores there (oidc/registration.py:217-225) and nothing reads. -/
structure ClientReg where
  redirectUris : Option (List RegUri) := none
  responseTypes : List String := []
  /-- the bases of "request_uris" -/
  requestUris : Option (List String) := none
  subjectType : Option String := none
  sectorId : Option String := none
  deriving DecidableEq, Repr, Inhabited

/-- A provider: its environment, configuration and client database.  `urn` are the values of `uuid.uuid4()` written as
URNs, which never repeat. -/
structure Prov where
  E : Env
  L : LoginCfg := {}
  U : UriLib := simpleUri
  clients : Dict ClientReg := []
  /-- the PKCE add-on, if it is used -/
  pkce : Option (CCHash × PkceCfg) := none
  /-- the OpenID Connect authorization endpoint, not the OAuth2 one -/
  oidc : Bool := true
  /-- there is a pushed authorization endpoint -/
  hasPar : Bool := true
  /-- provider_info["request_uri_parameter_supported"] -/
  requestUriSupported : Bool := true
  /-- fetching a request object and merging it into the request -/
  fetch : String → String → AuthzReq → Except Exc AuthzReq := fun _ _ _ => .error (.other "ServiceError")
  urn : Nat → String
  urn_inj : ∀ {n n'}, urn n = urn n' → n = n'

/-- A pushed request: its URN, the client that pushed it, the request and the time. -/
structure Pushed where
  urn : String
  client : String
  req : AuthzReq
  time : Int
  deriving DecidableEq, Repr, Inhabited

/-- Someone has authenticated: who, for which request, by which method and when. -/
structure LoginRec where
  user : String
  req : AuthzReq
  method : AuthnMethod
  time : Int
  deriving DecidableEq, Repr, Inhabited

/-- State of the provider.  `par` is `par_db`.  `pending` are the requests whose login pages are out, with the method:
they are carried by the signed tokens in the pages.  `cookies` are the session cookies given out.  `pushed`, `resolved` and
`logins` are histories: what was pushed, which URNs were resolved for which client to which request, when, and who has
authenticated on the login page for which request, by which method and when. -/
structure PState where
  w : World := {}
  par : Dict AuthzReq := []
  pushes : Nat := 0
  pending : List (AuthzReq × AuthnMethod) := []
  cookies : List SessionCookie := []
  pushed : List Pushed := []
  resolved : List Pushed := []
  logins : List LoginRec := []
  deriving DecidableEq, Repr, Inhabited

/-- `_do_request_uri`, oauth2/authorization.py:351-412.  The fragment of the request URI is cut off for the comparison
with the registered ones. -/
def doRequestUri (p : Prov) (client : String) (req : AuthzReq) (s : PState) : Except Exc AuthzReq × PState :=
  match truthyStr req.requestUri with
  | none => (.ok req, s)
  | some uri =>
    if p.hasPar && "urn:uuid:".toList.isPrefixOf uri.toList then
      match s.par.get? uri with
      | none => (.error .valueError, s)
      | some r =>
        (.ok r, { s with
          par := s.par.erase uri
          resolved := s.resolved ++ [⟨uri, client, r, s.w.now⟩] })
    else if p.requestUriSupported = false then (.error (.other "ServiceError"), s)
    else
      match p.clients.get? client with
      | none => (.error .keyError, s)
      | some cl =>
        match cl.requestUris with
        | none => (p.fetch client uri req, s)
        | some l =>
          if !l.isEmpty && !(l.contains (String.ofList (cutAt '#' uri.toList).1)) then (.error .valueError, s)
          else (p.fetch client uri req, s)

/-- The client database as `verify_uri` and `get_uri` see it. -/
def Prov.uris (p : Prov) : Dict (Option (List RegUri)) := p.clients.map (fun x => (x.1, x.2.redirectUris))

/-- `_post_parse_request`, oauth2/authorization.py:414-459.  `client` is the client of the HTTP request, which is not
necessarily the one named in the (pushed or fetched) request. -/
def postParseAuthz (p : Prov) (client : String) (req : AuthzReq) : Except Exc AParse :=
  match p.clients.get? client with
  | none => .ok (.err "unauthorized_client" "unknown client")
  | some cl =>
    if verifyResponseType cl.responseTypes req.responseType = false then
      .ok (.err "invalid_request" "Trying to use unregistered response_type")
    else
      match getUri p.U p.uris req.clientId req.redirectUri with
      | .ok u => .ok (.req { req with redirectUri := some u })
      | .error e =>
        if e = .other "RedirectURIError" ∨ e = .other "ParameterError" then .ok (.err "invalid_request" "redirect_uri")
        else .error e

/-- Both functions one after the other. -/
def parseRound (p : Prov) (client : String) (req : AuthzReq) (s : PState) : Except Exc AParse × PState :=
  match doRequestUri p client req s with
  | (.error e, s') => (.error e, s')
  | (.ok r, s') => (postParseAuthz p client r, s')

/-- The second time in the OpenID Connect endpoint, oidc/authorization.py:92-96. -/
def parseAgain (p : Prov) (client : String) (req : AuthzReq) (s : PState) : Except Exc AParse × PState :=
  if p.oidc then parseRound p client req s else (.ok (.req req), s)

/-- The PKCE add-on, if any. -/
def parsePkce (p : Prov) (client : String) (req : AuthzReq) : Except Exc AParse :=
  match p.pkce with
  | none => .ok (.req req)
  | some (_, P) => pkceAuthnParse P client req

/-- `parse_request` at the authorization endpoint, endpoint.py:136-206, 235-243.  `client` is the client id of the request,
or the one established by client authentication, which is then put into the request.  The checks of `verify` on the
message are left out: every request passes them. -/
def parseAuthz (p : Prov) (client : String) (req : AuthzReq) (s : PState) : Except Exc AParse × PState :=
  match parseRound p client { req with clientId := some client } s with
  | (.ok (.req r1), s1) =>
    match parseAgain p client r1 s1 with
    | (.ok (.req r2), s2) => (parsePkce p client r2, s2)
    | (x, s2) => (x, s2)
  | (x, s1) => (x, s1)

/-- `parse_request` at the pushed authorization endpoint, oauth2/pushed_authorization.py:19-23: the functions of the
authorization endpoint and `_post_parse_request` once more. -/
def parsePush (p : Prov) (client : String) (req : AuthzReq) (s : PState) : Except Exc AParse × PState :=
  match parseRound p client { req with clientId := some client } s with
  | (.ok (.req r1), s1) => (postParseAuthz p client r1, s1)
  | (x, s1) => (x, s1)

/-- `PushedAuthorization.process_request`, oauth2/pushed_authorization.py:25-38 -/
def processPush (p : Prov) (client : String) (req : AuthzReq) (s : PState) : PState :=
  { s with
    par := s.par.set (p.urn s.pushes) req
    pushes := s.pushes + 1
    pushed := s.pushed ++ [⟨p.urn s.pushes, client, req, s.w.now⟩] }

/-- A login page that goes out is remembered, and so is a cookie. -/
def settle (s : PState) (req : AuthzReq) : Except Exc ProcRes × World → PState
  | (.ok (.loginPage m), w) => { s with w := w, pending := s.pending ++ [(req, m)] }
  | (.ok (.part2 _ _ (some k)), w) => { s with w := w, cookies := s.cookies ++ [k] }
  | (_, w) => { s with w := w }

/-- The cookies with the given numbers. -/
def pickCookies (s : PState) (is : List Nat) : List SessionCookie := is.filterMap (fun i => s.cookies[i]?)

/-- The user has authenticated on a login page: `create_session` and `authz_part2`, as in example/flask_op/views.py:104-133.
-/
def finishLogin (p : Prov) (s : PState) (req : AuthzReq) (m : AuthnMethod) (user : String) : PState :=
  match startSession p.E s.w m req user with
  | (.error _, w') => { s with w := w' }
  | (.ok sid, w') =>
    settle s req (.ok (.part2 sid user (cookieOf p.E w' sid req)), authzPart2 p.E w' sid req)

/-- `parse_request` at the token endpoint, with PKCE if it is used. -/
def tokenEndpointParse (p : Prov) (w : World) (client : String) (req : TokenReq) : World :=
  match p.pkce with
  | none => step p.E w (.parse client req)
  | some (H, P) => pstep p.E H P w (.parse client req)

/-- Something that happens to the provider. -/
inductive POp where
  | tick (d : Nat)
  /-- a request to the pushed authorization endpoint by an authenticated client -/
  | push (client : String) (req : AuthzReq)
  /-- a request to the authorization endpoint, with some of the session cookies that were given out, the acrs and the user
  its hints lead to -/
  | request (client : String) (req : AuthzReq) (cookies : List Nat) (hint : List String) (reqUser : Option (Option String))
  /-- a user has authenticated on login page number `i` -/
  | loggedIn (i : Nat) (user : String)
  /-- a token request by an authenticated client is parsed -/
  | token (client : String) (req : TokenReq)
  /-- a parsed token request is processed -/
  | redeem (i : Nat) (kw : Option Bool)
  | revokeToken (sid v : String) (recursive : Bool)
  | revokeGrant (sid : String)
  | revokeClientSession (sid : String)
  | removeSession (sid : String)

/-- The state after something has happened. -/
def provStep (p : Prov) (s : PState) : POp → PState
  | .tick d => { s with w := step p.E s.w (.tick d) }
  | .push client req =>
    match parsePush p client req s with
    | (.ok (.req r), s') => processPush p client r s'
    | (_, s') => s'
  | .request client req cookies hint reqUser =>
    match parseAuthz p client req s with
    | (.ok (.req r), s') => settle s' r (processAuthz p.L p.E s'.w r hint (pickCookies s cookies) reqUser)
    | (_, s') => s'
  | .loggedIn i user =>
    match s.pending[i]? with
    | none => s
    | some (req, m) => finishLogin p { s with logins := s.logins ++ [⟨user, req, m, s.w.now⟩] } req m user
  | .token client req => { s with w := tokenEndpointParse p s.w client req }
  | .redeem i kw => { s with w := step p.E s.w (.process i kw) }
  | .revokeToken sid v rec => { s with w := step p.E s.w (.revokeToken sid v rec) }
  | .revokeGrant sid => { s with w := step p.E s.w (.revokeGrant sid) }
  | .revokeClientSession sid => { s with w := step p.E s.w (.revokeClientSession sid) }
  | .removeSession sid => { s with w := step p.E s.w (.removeSession sid) }

/-- The state after a history. -/
def provRun (p : Prov) (s : PState) (ops : List POp) : PState := ops.foldl (provStep p) s

end OidcOp
