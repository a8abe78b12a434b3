/-
What the authorization endpoint sends back, from beginning to end: the error of `setup_auth`, `post_authentication`,
`response_mode`, `authz_part2` (oauth2/authorization.py) and `do_response` (endpoint.py) for an endpoint whose answers are placed in
the URL (oauth2/authorization.py:283-284).
-/
import Verif.Model.Provider
import Verif.Model.Response

namespace OidcOp

/-- The surroundings.  `iframe` is `"check_session_iframe" in provider_info`; `sessionState client uri` is the session state that
is computed for a client and a redirect URI (cookie_handler.py:271-286) with the salt and the cookie of this answer. -/
structure Delivery where
  issuer : String := ""
  iframe : Bool := false
  sessionState : String → String → String := fun _ _ => ""

/-- The keyword arguments of `do_response` that matter here.  `error` comes with "state"; a form has its action and its
parameters. -/
structure RespInfo where
  error : Option String := none
  state : Option String := none
  args : Option (Dict Json) := none
  returnUri : Option String := none
  returnType : Option (List String) := none
  fragmentEnc : Option Bool := none
  form : Option (String × Dict Json) := none
  deriving Repr, Inhabited

/-- What goes out: a redirection with parameters in the query or the fragment, or a page with a form that posts itself. -/
inductive HttpOut where
  | redirect (uri : String) (place : Placement) (params : Dict Json)
  | form (action : String) (params : Dict Json)
  deriving DecidableEq, Repr, Inhabited

/-- A member that is there or not. -/
def optParam (name : String) : Option String → Dict Json
  | none => []
  | some v => [(name, .str v)]

/-- A list as a member. -/
def listJson (l : List String) : Json := .arr (l.map .str)

/-- A list that is there or not. -/
def optList (name : String) : Option (List String) → Dict Json
  | none => []
  | some l => [(name, listJson l)]

/-- A number that is there or not. -/
def optNum (name : String) : Option Int → Dict Json
  | none => []
  | some n => [(name, .num n)]

/-- `authentication_error_response`, oauth2/authorization.py:312-317 -/
def errorParams (req : AuthzReq) (code desc : String) : Dict Json :=
  [("error", .str code), ("error_description", .str desc)] ++ optParam "state" (truthyStr req.state)

/-- The members of a response, oauth2/authorization.py:726-808.  A response with an access token has "token_type". -/
def respParams (r : AuthzResp) : Dict Json :=
  optParam "state" r.state ++
  optList "scope" r.scope ++
  optParam "code" r.code ++ optParam "access_token" r.accessToken ++
  (if r.accessToken.isSome then [("token_type", .str "Bearer")] else []) ++
  optNum "expires_in" r.expiresIn ++
  optParam "id_token" r.idToken

/-- `response_mode`, oauth2/authorization.py:658-704, without "response_args" and "return_uri" of the kind that an error of
`setup_auth` has: those are in `setupErrorInfo`.  In the result of "form_post" there is neither of both. -/
def respMode (req : AuthzReq) (args : Dict Json) (uri : String) (fragEnc : Option Bool) : Except Exc RespInfo :=
  match req.responseMode with
  | none => .error .keyError
  | some m =>
    if m = "form_post" then .ok { form := some (uri, args) }
    else if m = "fragment" then
      if fragEnc = some false then .error (.other "InvalidRequest")
      else .ok { fragmentEnc := some true, args := some args, returnUri := some uri }
    else if m = "query" then
      if fragEnc = some true then .error (.other "InvalidRequest") else .ok { args := some args, returnUri := some uri }
    else .error (.other "InvalidRequest")

/-- `error_by_response_mode` with an empty dictionary, oauth2/authorization.py:713-718 -/
def errorByMode (req : AuthzReq) (code desc : String) : Except Exc RespInfo :=
  match req.redirectUri with
  | none => .error .keyError
  | some u => respMode req (errorParams req code desc) u none

/-- The last part of `post_authentication`, oauth2/authorization.py:857-887, with what `create_authn_response` has returned;
`uri` is what `get_uri` returns.  The cookie is in `cookieOf`. -/
def finishPost (req : AuthzReq) (uri : Except Exc String) (args : Dict Json) (frag : Bool) : Except Exc RespInfo :=
  match uri with
  | .error e =>
    if e = .other "RedirectURIError" ∨ e = .other "ParameterError" then
      .ok { args := some (errorParams req "invalid_request" "redirect_uri"), fragmentEnc := some frag }
    else .error e
  | .ok u =>
    if req.responseMode.isNone then .ok { args := some args, fragmentEnc := some frag, returnUri := some u }
    else
      match respMode req args u (some frag) with
      | .error _ =>
        .ok { args := some (errorParams req "invalid_request" "wrong response_mode"), fragmentEnc := some frag, returnUri := some u }
      | .ok i => .ok i

/-- `post_authentication`, oauth2/authorization.py:823-887, with the outcome of its session work. -/
def postInfo (req : AuthzReq) (uri : Except Exc String) : Except Exc (Option (Sess × ARes)) → Except Exc RespInfo
  | .error e => .error e
  | .ok none => .ok { args := some (errorParams req "server_error" "Grant not usable") }
  | .ok (some (_, .resp r f)) => finishPost req uri (respParams r) f
  | .ok (some (_, .err c d f)) => finishPost req uri (errorParams req c d) f

/-- The session management part of `authz_part2`, oauth2/authorization.py:907-951; `event` is what
`get_authentication_event` returns, of whose exceptions KeyError is caught. -/
def addSessionState (D : Delivery) (now : Int) (req : AuthzReq) (event : Except Exc AuthnEvent) (i : RespInfo) :
    Except Exc RespInfo :=
  if D.iframe then
    match event with
    | .error e => if e.isKeyError then errorByMode req "server_error" "No such session" else .error e
    | .ok ev =>
      if ev.isValid now = false then errorByMode req "server_error" "Authentication has timed out"
      else
        match i.returnUri.or req.redirectUri, req.clientId with
        | some u, some c =>
          .ok { i with args := i.args.map (fun a => a.set "session_state" (.str (D.sessionState c u))) }
        | _, _ => .error .keyError
  else .ok i

/-- "Mix-Up mitigation", oauth2/authorization.py:953-957 -/
def addIssuer (D : Delivery) (req : AuthzReq) (i : RespInfo) : Except Exc RespInfo :=
  match i.args with
  | none => .ok i
  | some a =>
    match req.clientId with
    | none => .error .keyError
    | some c => .ok { i with args := some ((a.set "iss" (.str D.issuer)).set "client_id" (.str c)) }

/-- Whether the answer of `authz_part2` is returned at once, in which case no issuer is added: the error for an authentication that
has timed out or a session that is gone. -/
def earlyError (D : Delivery) (now : Int) (event : Except Exc AuthnEvent) : Bool :=
  D.iframe &&
    (match event with
     | .error e => e.isKeyError
     | .ok ev => !ev.isValid now)

/-- `authz_part2`, oauth2/authorization.py:889-959 -/
def partTwo (D : Delivery) (now : Int) (req : AuthzReq) (uri : Except Exc String) (event : Except Exc AuthnEvent)
    (post : Except Exc (Option (Sess × ARes))) : Except Exc RespInfo :=
  match postInfo req uri post with
  | .error _ => errorByMode req "server_error" "exception"
  | .ok i =>
    match addSessionState D now req event i with
    | .error e => .error e
    | .ok i' => if earlyError D now event then .ok i' else addIssuer D req i'

/-- `_login_required_error`, oauth2/authorization.py:506-516 -/
def loginRequiredInfo (req : AuthzReq) : Except Exc RespInfo :=
  if req.responseType.isEmpty then .error .keyError
  else .ok { error := some "login_required", state := truthyStr req.state, returnUri := req.redirectUri, returnType := some req.responseType }

/-- `process_request` with an error of `setup_auth`, oauth2/authorization.py:1000-1004: `response_mode(request, info)` gets the
whole description of the error as response arguments, and no `return_uri`. -/
def setupErrorInfo (req : AuthzReq) (i : RespInfo) : Except Exc RespInfo :=
  match req.responseMode with
  | none => .ok i
  | some m =>
    if m = "form_post" then
      match i.returnUri with
      | none => .error .keyError
      | some u => .ok { form := some (u, optParam "error" i.error ++ optParam "state" i.state) }
    else
      respMode req
        (optParam "error" i.error ++ optParam "return_uri" i.returnUri ++
          optList "return_type" i.returnType ++ optParam "state" i.state) "" none

/-- `fragment_encoding` and its use, endpoint.py:74-78, 370-376 -/
def inFragment (i : RespInfo) : Bool :=
  if i.fragmentEnc = some true then true
  else
    match i.returnType with
    | none => false
    | some [] => false
    | some l => l != ["code"]

/-- `do_response` for the authorization endpoint, endpoint.py:309-415.  Missing response arguments are an empty message. -/
def doAuthzResponse (i : RespInfo) : Except Exc HttpOut :=
  match truthyStr i.error, i.form with
  | some e, _ =>
    match i.returnUri with
    | none => .error .keyError
    | some u => .ok (.redirect u (if inFragment i then .fragment else .query) ([("error", .str e)] ++ optParam "state" i.state))
  | none, some (action, params) => .ok (.form action params)
  | none, none =>
    match i.returnUri with
    | none => .error .keyError
    | some u => .ok (.redirect u (if inFragment i then .fragment else .query) (i.args.getD []))

/-- What a request to the authorization endpoint gets: a login page or an answer for the client. -/
inductive AuthzHttp where
  | loginPage (m : AuthnMethod)
  | out (o : HttpOut)
  deriving DecidableEq, Repr, Inhabited

/-- The answer of `authz_part2` for a session in a state, and `do_response`. -/
def part2Http (p : Prov) (D : Delivery) (w : World) (sid : String) (req : AuthzReq) : Except Exc HttpOut :=
  let post := postAuthentication p.E w sid req
  match partTwo D w.now req (getUri p.U p.uris req.clientId req.redirectUri) (eventOf p.E post.2 sid) post.1 with
  | .error e => .error e
  | .ok i => doAuthzResponse i

/-- The answer for an outcome of `setup_auth`. -/
def setupHttp (p : Prov) (D : Delivery) (w : World) (m : AuthnMethod) (req : AuthzReq) : SetupRes → Except Exc AuthzHttp
  | .login => .ok (.loginPage m)
  | .loginRequired =>
    match loginRequiredInfo req with
    | .error e => .error e
    | .ok i =>
      match setupErrorInfo req i with
      | .error e => .error e
      | .ok i' => (doAuthzResponse i').map .out
  | .session sid _ => (part2Http p D w sid req).map .out

/-- A parsed request at the authorization endpoint: `process_request`, oauth2/authorization.py:962-1021, as in `processAuthz`, then
`do_response`. -/
def authzHttp (p : Prov) (D : Delivery) (w : World) (req : AuthzReq) (hint : List String) (cookies : List SessionCookie)
    (reqUser : Option (Option String)) : Except Exc AuthzHttp :=
  match req.clientId with
  | none => .error .keyError
  | some c =>
    if !(p.L.scopes.cdb.has c) then .error .keyError
    else
      match checkUnknownScopes p.L.scopes c req.scope with
      | .error e => .error e
      | .ok _ =>
        match pickMethod p.L.broker hint req with
        | .error e => .error e
        | .ok m =>
          match setupAuth p.E p.L.loads m w req cookies reqUser with
          | (.error e, _) => .error e
          | (.ok r, w') => setupHttp p D w' m req r

end OidcOp
