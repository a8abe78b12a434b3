/-
Model of session/grant.py: the Grant class.
-/
import Verif.Model.Token
import Verif.Base.Json

namespace OidcOp

/-- An authorization request (an oidcmsg `AuthorizationRequest`): the members that the modelled code reads, where `none`
means that the parameter is absent, and all the others, which are compared when a request comes again
(oauth2/authorization.py:633) and nowhere read. -/
structure AuthzReq where
  clientId : Option String := none
  redirectUri : Option String := none
  scope : Option (List String) := none
  responseType : List String := []
  responseMode : Option String := none
  state : Option String := none
  nonce : Option String := none
  prompt : Option (List String) := none
  maxAge : Option Int := none
  acrValues : Option (List String) := none
  claims : Dict (Dict Json) := []
  codeChallenge : Option String := none
  codeChallengeMethod : Option String := none
  requestUri : Option String := none
  sectorIdentifierUri : Option String := none
  /-- "upm_answer" is there and is "true" -/
  upmAnswer : Bool := false
  /-- the other members, in the order of their names -/
  other : Dict Json := []
  deriving DecidableEq, Repr, Inhabited

/-- `AuthnEvent`, authn_event.py:11-72 -/
structure AuthnEvent where
  uid : String := ""
  authnInfo : String := ""
  authnTime : Int := 0
  validUntil : Int := 0
  deriving DecidableEq, Repr, Inhabited

/-- A `Grant` instance, session/grant.py:102-164.  `usageRules` is the dict of rules per token class.
`maxUsage` is the value under the key "max_usage" of that same dict, which is what
`Item.max_usage_reached` looks at.  `dpopJkt` is `extra["dpop_jkt"]`.
`authorization_details` and the rest of `extra` are left out, and `token_map` is always `TOKEN_MAP`. -/
structure Grant where
  id : String := ""
  sub : String := ""
  scope : List String := []
  claims : Dict (Dict Json) := []
  resources : List String := []
  authzReq : Option AuthzReq := none
  authnEvent : Option AuthnEvent := none
  issuedToken : List Token := []
  usageRules : List (TokenClass × UsageRules) := []
  maxUsage : Option Int := none
  issuedAt : Int := 0
  expiresAt : Int := 0
  notBefore : Int := 0
  revoked : Bool := false
  used : Nat := 0
  dpopJkt : Option String := none
  deriving DecidableEq, Repr, Inhabited

/-- A grant seen as an `Item`. -/
def Grant.item (g : Grant) : Item :=
  { maxUsage := g.maxUsage, used := g.used, revoked := g.revoked,
    notBefore := g.notBefore, expiresAt := g.expiresAt }

/-- `Grant.is_active()`, inherited from session/token.py:53-71 -/
def Grant.isActive (g : Grant) (clock : Int) (now : Int := 0) : Bool := g.item.isActive clock now

/-- `Item.revoke`, session/token.py:73-74 -/
def Grant.revoke (g : Grant) : Grant := { g with revoked := true }

/-- `grant.usage_rules.get(token_class)` -/
def Grant.rulesFor (g : Grant) (c : TokenClass) : Option UsageRules :=
  (g.usageRules.find? (fun p => decide (p.1 = c))).map Prod.snd

/-- `Grant.get_token`, session/grant.py:355-359: the first issued token with that value. -/
def Grant.getToken (g : Grant) (v : String) : Option Token :=
  g.issuedToken.find? (fun t => decide (t.value = v))

/-- `Grant.find_scope` on a token instance, session/grant.py:174-185.  The recursion over
`based_on` is cut after `fuel` steps; running out of fuel stands for Python's RecursionError. -/
def Grant.findScopeFuel (g : Grant) : Nat → Token → Except Exc (List String)
  | 0, _ => .error .recursionError
  | fuel + 1, t =>
    if !t.scope.isEmpty then .ok t.scope
    else match t.basedOn with
      | none => .ok g.scope
      | some v =>
        if v == "" then .ok g.scope
        else match g.getToken v with
          | none => .ok g.scope
          | some t' => g.findScopeFuel fuel t'

/-- `Grant.find_scope(based_on)` with a `SessionToken` instance.  A chain without repetition is at
most `issuedToken.length + 1` long, so a chain that exhausts this fuel is cyclic. -/
def Grant.findScopeTok (g : Grant) (t : Token) : Except Exc (List String) :=
  g.findScopeFuel (g.issuedToken.length + 2) t

/-- `Grant.find_scope(based_on)` with a string or `None`, session/grant.py:174-185 -/
def Grant.findScope (g : Grant) (basedOn : Option String) : Except Exc (List String) :=
  match basedOn with
  | none => .ok g.scope
  | some v =>
    match g.getToken v with
    | none => .ok g.scope
    | some t => g.findScopeTok t

/-- Which token classes `TOKEN_MAP` knows, session/grant.py:55-60 -/
def TokenClass.known : TokenClass → Bool
  | .other _ => false
  | _ => true

/-- `Grant.mint_token`, session/grant.py:250-353.

`handler` is the outcome of computing the payload and calling the token handler (lines 319-346), which
may raise; it is consulted only when execution reaches that point.
`token_map.get` failing (348-349) is the `ValueError`.
The result `none` is the `return None` of line 275. -/
def Grant.mintToken (g : Grant) (clock : Int) (c : TokenClass) (basedOn : Option Token)
    (rules : Option UsageRules) (scope : Option (List String)) (tokenType : String)
    (handler : Except Exc String) : Except Exc (Option Token) × Grant :=
  if g.isActive clock = false then (.ok none, g)
  else
    let guard : Except Exc (Option String) :=
      match basedOn with
      | some b =>
        if b.supportsMintingOf c = false then .error .mintingNotAllowed
        else if b.isActive clock = false then .error .mintingNotAllowed
        else .ok (some b.value)
      | none => .ok none
    match guard with
    | .error e => (.error e, g)
    | .ok ref =>
      let rules := rules.or (g.rulesFor c)
      if c.known = false then (.error .valueError, g)
      else
        let sc : Except Exc (List String) := match scope with
          | some s => .ok s
          | none => match basedOn with
            | some b => g.findScopeTok b
            | none => .ok g.scope
        match sc with
        | .error e => (.error e, g)
        | .ok s =>
          match handler with
          | .error e => (.error e, g)
          | .ok v =>
            let ttype := if c = .accessToken ∧ tokenType ≠ "" then tokenType else "bearer"
            let item := newToken clock c v ref rules s ttype
            (.ok (some item),
              { g with issuedToken := g.issuedToken ++ [item], used := g.used + 1 })

/-- Apply `f` to the first issued token with value `v`.  In Python the token object returned by
`get_token` is mutated; it is the first object with that value. -/
def modifyFirst (v : String) (f : Token → Token) : List Token → List Token
  | [] => []
  | t :: ts => if t.value = v then f t :: ts else t :: modifyFirst v f ts

/-- Mutate the token object that `get_token(v)` returns. -/
def Grant.updateToken (g : Grant) (v : String) (f : Token → Token) : Grant :=
  { g with issuedToken := modifyFirst v f g.issuedToken }

/-- Mutate the token object that was appended last. -/
def Grant.updateLast (g : Grant) (f : Token → Token) : Grant :=
  { g with issuedToken := match g.issuedToken.getLast? with
      | none => g.issuedToken
      | some t => g.issuedToken.dropLast ++ [f t] }

/-- Set `revoked` on the token at position `i`. -/
def markAt (ts : List Token) (i : Nat) : List Token := ts.modify i Token.revoke

/-- `Grant.revoke_token(value, based_on, recursive)`, session/grant.py:361-377, on the list
`grant.issued_token`.  The loop runs over the positions of the list; the decisions read only `value`
and `based_on` of the tokens, which nothing changes, so they are read from the list as it was at the
start.  The recursion is cut after `fuel` levels, standing for RecursionError on a cyclic ancestry.  The depth of the
interpreter's stack is not a limit here; Model/Depth.lean has it as one. -/
def revokeTokensFuel : Nat → (value basedOn : String) → (recursive : Bool) → List Token →
    Except Exc (List Token)
  | 0, _, _, _, _ => .error .recursionError
  | fuel + 1, value, basedOn, recursive, ts =>
    (List.range ts.length).foldlM (fun acc i =>
      match ts[i]? with
      | none => .ok acc
      | some t =>
        if value = "" ∧ basedOn = "" then .ok (markAt acc i)
        else if value ≠ "" ∧ basedOn ≠ "" then
          if value = t.value ∧ t.basedOn = some basedOn then .ok (markAt acc i) else .ok acc
        else if value ≠ "" ∧ t.value = value then
          if recursive then revokeTokensFuel fuel "" t.value true (markAt acc i)
          else .ok (markAt acc i)
        else if basedOn ≠ "" ∧ t.basedOn = some basedOn then
          if recursive then revokeTokensFuel fuel "" t.value true (markAt acc i)
          else .ok (markAt acc i)
        else .ok acc) ts

/-- `Grant.revoke_token`, session/grant.py:361-377 -/
def Grant.revokeToken (g : Grant) (value basedOn : String) (recursive : Bool := true) :
    Except Exc Grant :=
  match revokeTokensFuel (g.issuedToken.length + 1) value basedOn recursive g.issuedToken with
  | .ok ts => .ok { g with issuedToken := ts }
  | .error e => .error e

/-- `SessionManager._revoke_dependent(grant, token)`, session/manager.py:298-302 -/
def revokeDependentFuel : Nat → (value : String) → List Token → Except Exc (List Token)
  | 0, _, _ => .error .recursionError
  | fuel + 1, value, ts =>
    (List.range ts.length).foldlM (fun acc i =>
      match ts[i]? with
      | none => .ok acc
      | some t =>
        if t.basedOn = some value then revokeDependentFuel fuel t.value (markAt acc i)
        else .ok acc) ts

/-- `Grant.get_spec(token)`, session/grant.py:379-392.  `token.is_active is False` compares a bound
method with `False`, so the token's own state is never looked at (the parameter `_clockTok` that a
call would need does not occur).  Only the "scope" and "resources" attributes are kept: tokens are
modelled without claims and resources, so `resources` is the grant's. -/
def Grant.getSpec (g : Grant) (clock : Int) (t : Token) : Option (Option (List String) × Option (List String)) :=
  if g.isActive clock = false then none
  else
    let sc := if !t.scope.isEmpty then some t.scope
      else if !g.scope.isEmpty then some g.scope else none
    let rs := if !g.resources.isEmpty then some g.resources else none
    some (sc, rs)

/-- `Grant.last_issued_token_of_type`, session/grant.py:394-402 -/
def Grant.lastIssuedOfType (g : Grant) (c : TokenClass) : Option Token :=
  g.issuedToken.foldl (fun res t =>
    if t.cls = c then
      match res with
      | none => some t
      | some r => if t.issuedAt > r.issuedAt then some t else res
    else res) none

end OidcOp
