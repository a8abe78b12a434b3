/-
Model of hints about the user in an authorization request: login_hint.py, `search` of user_info/__init__.py,
`proposed_user` and `do_request_user` of oidc/authorization.py, and the hint part of `pick_auth`.
-/
import Verif.Model.Login

namespace OidcOp

/-- The hints in a request that has been verified: the claims of verified tokens under the names of their parameters
(`verified_claim_name(name)` is "__verified_" + name), and "login_hint". -/
structure Hints where
  verified : Dict (Dict Json) := []
  loginHint : Option String := none
  deriving DecidableEq, Repr, Inhabited

/-- `dict_subset({attr: value}, record)` for a string, user_info/__init__.py:7-27 -/
def recordHas (attr value : String) (rec : Dict Json) : Bool :=
  match rec.get? attr with
  | none => false
  | some (.arr l) => decide (.str value ∈ l)
  | some v => decide (v = .str value)

/-- `UserInfo.search` for one attribute, user_info/__init__.py:73-78 -/
def userSearch (attr value : String) : Dict (Dict Json) → Except Exc String
  | [] => .error .keyError
  | (uid, rec) :: db => if recordHas attr value rec then .ok uid else userSearch attr value db

/-- `LoginHintLookup.__call__`, login_hint.py:10-20, over the user database; `none` is None. -/
def loginHintLookup (db : Dict (Dict Json)) (arg : String) : Except Exc (Option String) :=
  if "tel:".toList.isPrefixOf arg.toList then
    match arg.toList.drop 4 with
    | [] => .error .indexError
    | c :: r =>
      let pnr := if c = '+' then c :: r else "+46".toList ++ r
      (userSearch "phone_number" (String.ofList pnr) db).map some
  else if "mail:".toList.isPrefixOf arg.toList then
    (userSearch "email" (String.ofList (arg.toList.drop 5)) db).map some
  else .ok none

/-- `proposed_user`, oidc/authorization.py:14-18; `none` is a false value.  The name is the one in the code.  A "sub" that is
not a string is no user's id. -/
def proposedUser (h : Hints) : Option (Option String) :=
  match h.verified.get? "it_token_hint" with
  | none => none
  | some claims =>
    match claims.get? "sub" with
    | none => none
    | some (.str s) => if s = "" then none else some (some s)
    | some v => if v.truthy then some none else none

/-- `do_request_user`, oidc/authorization.py:105-114: the keyword argument "req_user", if it is set, and its value.
`lookup` is the database of `login_hint_lookup`, if that is configured. -/
def doRequestUser (lookup : Option (Dict (Dict Json))) (h : Hints) : Except Exc (Option (Option String)) :=
  match proposedUser h with
  | some u => .ok (some u)
  | none =>
    match truthyStr h.loginHint, lookup with
    | some l, some db => (loginHintLookup db l).map some
    | _, _ => .ok none

/-- `LoginHint2Acrs`, login_hint.py:23-37; `scheme` is `urlparse(hint).scheme`. -/
def loginHint2Acrs (scheme : String → String) (schemeMap : Dict (List String)) (hint : String) : List String :=
  (schemeMap.get? (scheme hint)).getD []

/-- The acrs that hints lead to, user_authn/authn_context.py:143-150.  "acr" is a string in a verified ID token. -/
def hintAcrs (scheme : String → String) (schemeMap : Option (Dict (List String))) (h : Hints) : List String :=
  match h.verified.get? "id_token_hint" with
  | some (c :: cs) =>
    match Dict.get? (c :: cs) "acr" with
    | some (.str a) => if a = "" then [] else [a]
    | _ => []
  | _ =>
    match truthyStr h.loginHint, schemeMap with
    | some l, some m => loginHint2Acrs scheme m l
    | _, _ => []

/-- What the provider is configured to do with hints. -/
structure HintCfg where
  lookup : Option (Dict (Dict Json)) := none
  schemeMap : Option (Dict (List String)) := none
  scheme : String → String := fun _ => ""

/-- What `process_request` does first, oauth2/authorization.py:978-986 -/
def entryChecks (L : LoginCfg) (req : AuthzReq) : Except Exc Unit :=
  match req.clientId with
  | none => .error .keyError
  | some c => if !(L.scopes.cdb.has c) then .error .keyError else (checkUnknownScopes L.scopes c req.scope).map (fun _ => ())

/-- `process_request` of the OpenID Connect authorization endpoint with hints, oauth2/authorization.py:962-1021 and
oidc/authorization.py:105-114. -/
def processOidc (L : LoginCfg) (H : HintCfg) (E : Env) (w : World) (req : AuthzReq) (h : Hints)
    (cookies : List SessionCookie) : Except Exc ProcRes × World :=
  match entryChecks L req with
  | .error e => (.error e, w)
  | .ok _ =>
    match doRequestUser H.lookup h with
    | .error e => (.error e, w)
    | .ok ru => processAuthz L E w req (hintAcrs H.scheme H.schemeMap h) cookies ru

end OidcOp
