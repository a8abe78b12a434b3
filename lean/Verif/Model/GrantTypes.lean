/-
The grant types that a token endpoint answers: `Token.configure_grant_types` and the choice of a helper in `_post_parse_request` and
`process_request` (oauth2/token.py), and what a registration writes about grant types into the client database.
-/
import Verif.Model.World
import Verif.Model.Registration

namespace OidcOp

/-- The helper classes in the repository, oauth2/token.py:99, 230 and oidc/token.py:24, 202. -/
inductive GHelper where
  | code | refresh
  deriving DecidableEq, Repr, Inhabited

/-- The grant type that a helper's `process_request` insists on, oauth2/token.py:111-112, 236-237, oidc/token.py:37-38, 207-208 -/
def GHelper.grantType : GHelper → String
  | .code => "authorization_code"
  | .refresh => "refresh_token"

/-- An entry of the configured "grant_types_supported".  `dict off cls` is a dictionary: `off` tells that its "kwargs" are False, and
`cls` is the "class": absent, one of the helpers (or its import path), or something that cannot be imported.  `other` is any other
value, which has no `get`. -/
inductive GOpt where
  | dict (off : Bool) (cls : Option (Option GHelper))
  | other
  deriving DecidableEq, Repr, Inhabited

/-- One entry of the loop of `configure_grant_types`, oauth2/token.py:397-422.  The constructors of the helpers raise nothing. -/
def grantHelper : GOpt → Except Exc (Option GHelper)
  | .other => .error .attributeError
  | .dict true _ => .ok none
  | .dict false none => .error (.other "ProcessError")
  | .dict false (some none) => .error (.other "ProcessError")
  | .dict false (some (some k)) => .ok (some k)

/-- The loop of `configure_grant_types`. -/
def grantHelpers : Dict GOpt → Dict GHelper → Except Exc (Dict GHelper)
  | [], acc => .ok acc
  | (gt, o) :: rest, acc =>
    match grantHelper o with
    | .error e => .error e
    | .ok none => grantHelpers rest acc
    | .ok (some k) => grantHelpers rest (acc.set gt k)

/-- `helper_by_grant_type`, oauth2/token.py:373-376, oidc/token.py:367-370 -/
def standardHelpers : Dict GHelper := [("authorization_code", .code), ("refresh_token", .refresh)]

/-- `configure_grant_types`, oauth2/token.py:390-422 -/
def configureGrantTypes : Option (Dict GOpt) → Except Exc (Dict GHelper)
  | none => .ok standardHelpers
  | some conf => grantHelpers conf []

/-- `post_parse_request` of a helper. -/
def GHelper.parse (E : Env) (w : World) (req : TokenReq) : GHelper → Except Exc PRes × World
  | .code => codeParseW E w req
  | .refresh => (refreshParseW E w req, w)

/-- `Token._post_parse_request`, oauth2/token.py:424-440, with any helpers. -/
def tokenParseWith (E : Env) (H : Dict GHelper) (w : World) (client : String) (req : TokenReq) : Except Exc PRes × World :=
  match req.grantType with
  | none => (.error .keyError, w)
  | some gt =>
    match E.cfg.cdb.get? client with
    | none => (.error .keyError, w)
    | some cl =>
      if grantTypeRefused cl gt then (.ok (.err "invalid_request"), w)
      else
        match H.get? gt with
        | some k => k.parse E w req
        | none => (.ok (.err "invalid_request"), w)

/-- `Token.process_request`, oauth2/token.py:442-490, with any helpers: a helper answers only its own grant type, the rest is
`tokenProcess`. -/
def tokenProcessWith (E : Env) (H : Dict GHelper) (w : World) (kw : Option Bool) (req : TokenReq) : Except Exc HRes × World :=
  match req.grantType with
  | none => (.error .keyError, w)
  | some gt =>
    match H.get? gt with
    | none => (.ok (.err "invalid_request"), w)
    | some k => if gt = k.grantType then tokenProcess E w kw req else (.ok (.err "invalid_request"), w)

/-- One operation of a provider whose token endpoint has these helpers; compare `step`. -/
def stepWith (E : Env) (H : Dict GHelper) (w : World) : WOp → World
  | .parse client req =>
    match tokenParseWith E H w client { req with clientId := some client } with
    | (.ok (.req r), w') => { w' with pool := w'.pool ++ [r] }
    | (_, w') => w'
  | .process i kw =>
    match w.pool[i]? with
    | none => w
    | some req => (tokenProcessWith E H w kw req).2
  | op => step E w op

/-- The state after a history. -/
def runWith (E : Env) (H : Dict GHelper) (w : World) (ops : List WOp) : World := ops.foldl (stepWith E H) w

/-- What the token endpoint reads of a registered client, oauth2/token.py:430 and oidc/token.py:54-55, 293-299.  A value under
"grant_types_supported" that is no list of strings is taken for a missing one. -/
def tclientOf (ci : Cinfo) : TClient :=
  { grantTypes := match ci.get? "grant_types_supported" with | some (.json (.arr l)) => strList l | _ => none
    revokeRefresh := match ci.get? "revoke_refresh_on_issue" with | some (.json (.bool b)) => some b | _ => none }

/-- The client database as the token endpoint sees it. -/
def tokenDb (s : RegState) : Dict TClient := s.cdb.map (fun p => (p.1, tclientOf p.2))

end OidcOp
