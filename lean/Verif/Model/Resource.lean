/-
Model of the user information endpoint (oidc/userinfo.py) and the introspection endpoint (oauth2/introspection.py).
-/
import Verif.Model.World
import Verif.Model.Claims

namespace OidcOp

/-- The `token_class` string of a token. -/
def TokenClass.text : TokenClass → String
  | .authorizationCode => "authorization_code"
  | .accessToken => "access_token"
  | .refreshToken => "refresh_token"
  | .idToken => "id_token"
  | .other n => n

/-- `Grant.add_acr_value`, session/grant.py:187-193; the release point may be `None`. -/
def addAcrValue (g : Grant) (point : Option String) : Except Exc Bool :=
  match point.bind (fun p => g.claims.get? p) with
  | none => .ok false
  | some release =>
    if release.isEmpty then .ok false
    else
      match g.authnEvent with
      | none => .error .attributeError
      | some ev => claimsMatch (.str ev.authnInfo) ((release.get? "acr").getD .null)

/-- The answer of the user information endpoint. -/
inductive InfoRes where
  /-- an error response -/
  | err (code : String)
  /-- claims, for a client -/
  | claims (info : Dict Json) (client : String)
  /-- the error "Access not granted", as a response for a client -/
  | denied (client : String)
  deriving DecidableEq, Repr, Inhabited

/-- The last part of `UserInfo.process_request`, oidc/userinfo.py:144-152 -/
def userinfoClaims (db : Option UserDb) (s : Sess) : Except Exc (Dict Json) :=
  match getUserClaims db s.user ((s.grant.claims.get? "userinfo").getD []) with
  | .error e => .error e
  | .ok info =>
    let info := info.set "sub" (.str s.grant.sub)
    match addAcrValue s.grant (some "userinfo") with
    | .error e => .error e
    | .ok false => .ok info
    | .ok true => .ok (info.set "acr" (.str ((s.grant.authnEvent.map (·.authnInfo)).getD "")))

/-- `UserInfo.process_request`, oidc/userinfo.py:111-158.  A value that is not a token of the grant makes
`token.is_active` an AttributeError; a grant without an authentication event cannot be subscripted. -/
def userinfoProcess (E : Env) (db : Option UserDb) (w : World) (v : String) : Except Exc InfoRes :=
  match sessionByToken E w v with
  | .error e => if e.isKeyError || e = .valueError then .ok (.err "invalid_token") else .error e
  | .ok s =>
    match s.grant.getToken v with
    | none => .error .attributeError
    | some t =>
      if t.cls ≠ .accessToken then .ok (.err "invalid_token")
      else if t.isActive w.now = false then .ok (.err "invalid_token")
      else
        match s.grant.authnEvent with
        | none => .error .typeError
        | some ev =>
          if ¬ (ev.validUntil ≥ w.now) then .ok (.denied s.client)
          else
            match userinfoClaims db s with
            | .error e => .error e
            | .ok info => .ok (.claims info s.client)

/-- " ".join(scope) -/
def joinScope (sc : List String) : String := String.ofList (pyJoin [' '] (sc.map String.toList))

/-- The scope that is reported, oauth2/introspection.py:36-41 (`token.scope or grant.find_scope(token.based_on)` when there is a
parent). -/
def introspectScope (g : Grant) (t : Token) : Except Exc (List String) :=
  if !t.scope.isEmpty then .ok t.scope
  else match truthyStr t.basedOn with
    | some _ => g.findScope t.basedOn
    | none => .ok g.scope

/-- `Introspection._introspect`, oauth2/introspection.py:28-76, for a token that is in the grant, and then `_resp.weed()`
(line 112), which drops "token_class".  `extra` is what the add-ons (`token_args_methods`) put in for a client. -/
def introspectToken (issuer : String) (extra : String → Dict Json) (now : Int) (s : Sess) (t : Token) :
    Except Exc (Option (Dict Json)) :=
  if t.cls ≠ .accessToken ∧ t.cls ≠ .refreshToken then .ok none
  else if t.isActive now = false then .ok none
  else
    match introspectScope s.grant t with
    | .error e => .error e
    | .ok sc =>
      let ret : Dict Json :=
        [("active", .bool true), ("scope", .str (joinScope sc)), ("client_id", .str s.client),
         ("exp", .num t.expiresAt), ("iat", .num t.issuedAt), ("sub", .str s.grant.sub), ("iss", .str issuer)]
      let ret := if t.cls = .accessToken ∧ t.tokenType ≠ "" then ret.set "token_type" (.str t.tokenType) else ret
      let ret := if s.grant.resources.isEmpty then ret else ret.set "aud" (.arr (s.grant.resources.map Json.str))
      .ok (some (ret.update (extra s.client)))

/-- `Introspection.process_request`, oauth2/introspection.py:78-128; only UnknownToken and WrongTokenClass are caught. -/
def introspectProcess (E : Env) (db : Option UserDb) (issuer : String) (extra : String → Dict Json) (username : Bool)
    (w : World) (v : String) : Except Exc (Dict Json) :=
  match sessionByToken E w v with
  | .error e =>
    if e = .unknownToken ∨ e = .wrongTokenClass then .ok [("active", .bool false)] else .error e
  | .ok s =>
    match s.grant.getToken v with
    | none => .error .attributeError
    | some t =>
      match introspectToken issuer extra w.now s t with
      | .error e => .error e
      | .ok none => .ok [("active", .bool false)]
      | .ok (some info) =>
        let resp := if username then info.set "username" (.str s.user) else info
        let restriction := (s.grant.claims.get? "introspection").getD []
        if restriction.isEmpty then .ok (resp.set "active" (.bool true))
        else
          match getUserClaims db s.user restriction with
          | .error e => .error e
          | .ok user => .ok ((resp.update user).set "active" (.bool true))

end OidcOp
