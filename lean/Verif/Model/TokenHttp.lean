/-
The token endpoint as it is reached over HTTP: client authentication, then parsing of the request (endpoint.py:136-206).
-/
import Verif.Model.World
import Verif.Model.ClientAuthn

namespace OidcOp

/-- How clients authenticate at the token endpoint: the client database, the endpoint's methods (endpoint.py:115-120) and
what they use.  `unpack` verifies a JWT at a time.  Without "client_authn_method" in the configuration there are no methods:
the `default_capabilities` of the endpoint (oauth2/token.py:373) name none. -/
structure TokenAuth where
  cdb : Dict CEntry := []
  methods : List (Option CAuthn) := []
  targets : List String := []
  decode : Str → Option Str := fun _ => none
  unquote : Str → String := String.ofList
  unpack : Int → String → Option Assertion := fun _ _ => none

/-- The surroundings of a call at a time. -/
def TokenAuth.at (A : TokenAuth) (now : Int) : AuthnCtx :=
  { cdb := A.cdb, now := now, targets := A.targets, decode := A.decode, unquote := A.unquote, unpack := A.unpack now }

/-- A request to the token endpoint: the authorization header, the parameters with credentials, and the others.  The
parameter "client_id" is the one in `req`. -/
structure TokenHttp where
  header : Option String := none
  creds : AuthnReq := {}
  req : TokenReq := {}
  deriving DecidableEq, Repr, Inhabited

/-- The parameters that client authentication looks at. -/
def TokenHttp.authn (h : TokenHttp) : AuthnReq := { h.creds with clientId := h.req.clientId }

/-- State of the provider, and `jti_db`, the identifiers of assertions that were used (endpoint_context.py:152). -/
structure HState where
  w : World := {}
  seen : List String := []
  deriving DecidableEq, Repr, Inhabited

/-- One thing that happens. -/
inductive HOp where
  /-- anything but a request to the token endpoint -/
  | plain (op : WOp)
  /-- a request to the token endpoint -/
  | token (h : TokenHttp)

/-- Client authentication of a request to the token endpoint, endpoint.py:177-178, 208-233.  The endpoint has no
`get_client_id_from_token`. -/
def tokenAuthn (A : TokenAuth) (s : HState) (h : TokenHttp) : Except Exc (Option AuthInfo) × List String :=
  clientAuthentication (A.at s.w.now) A.methods none h.authn h.header s.seen

/-- `parse_request` at the token endpoint, endpoint.py:136-206: after client authentication the request has the client id
that was established, if there is one.  Without any client id `_post_parse_request` raises KeyError (oauth2/token.py:428). -/
def tokenHttp (E : Env) (A : TokenAuth) (s : HState) (h : TokenHttp) : HState :=
  match tokenAuthn A s h with
  | (.error _, seen') => { s with seen := seen' }
  | (.ok ai, seen') =>
    match parsedClient h.authn ai with
    | none => { s with seen := seen' }
    | some c => { w := step E s.w (.parse c h.req), seen := seen' }

/-- One operation. -/
def hstep (E : Env) (A : TokenAuth) (s : HState) : HOp → HState
  | .plain op => { s with w := step E s.w op }
  | .token h => tokenHttp E A s h

/-- The state after a history. -/
def hrun (E : Env) (A : TokenAuth) (s : HState) (ops : List HOp) : HState := ops.foldl (hstep E A) s

end OidcOp
