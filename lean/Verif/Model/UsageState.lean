/-
Model of `get_usage_rules`, session/grant.py:405-436, with the dictionaries it shares and changes in place.
-/
import Verif.Model.Authz

namespace OidcOp

/-- Where a rules dictionary lives: it is a copy, it is the entry of a client in the client database, or it is the entry in
the module's defaults. -/
inductive RuleRef where
  | copy
  | client (cid : String) (c : TokenClass)
  | default (c : TokenClass)
  deriving DecidableEq, Repr, Inhabited

/-- The shared dictionaries: the configuration, the clients' "token_usage_rules" and `DEFAULT_USAGE`. -/
structure UsageState where
  server : Option Rules := none
  clients : Dict Rules := []
  defaults : Rules := []
  deriving DecidableEq, Repr, Inhabited

/-- `DEFAULT_USAGE`, session/grant.py:405-413 -/
def defaultUsage : Rules :=
  [(.authorizationCode, { maxUsage := some 1, supportsMinting := some [.accessToken, .refreshToken, .idToken], expiresIn := some 300 }),
   (.accessToken, { supportsMinting := some [], expiresIn := some 3600 }),
   (.refreshToken, { supportsMinting := some [.accessToken, .refreshToken, .idToken] })]

/-- The client's rules, `none` without a client id or without rules, authz/__init__.py:29-35 -/
def UsageState.clientRules (s : UsageState) (cid : String) : Option Rules :=
  if cid = "" then none else s.clients.get? cid

/-- Where the dictionary lives that `usage_rules(client_id)[token_type]` refers to, authz/__init__.py:23-50: the server's
entries are copied (line 25), the client's are not (lines 46, 48). -/
def UsageState.refOf (s : UsageState) (cid : String) (c : TokenClass) : RuleRef :=
  match Rules.get? (s.server.getD []) c with
  | some _ => .copy
  | none => .client cid c

/-- The entry for a token class is replaced. -/
def Rules.put (rs : Rules) (c : TokenClass) (r : UsageRules) : Rules :=
  rs.map (fun p => if p.1 = c then (p.1, r) else p)

/-- A change of a dictionary, seen wherever it is shared. -/
def UsageState.write (s : UsageState) (ref : RuleRef) (r : UsageRules) : UsageState :=
  match ref with
  | .copy => s
  | .client cid c =>
    match s.clients.get? cid with
    | some rs => { s with clients := s.clients.set cid (rs.put c r) }
    | none => s
  | .default c => { s with defaults := s.defaults.put c r }

/-- `_usage` before the grant's rules are added, session/grant.py:428-430, with its place -/
def UsageState.lookup (s : UsageState) (c : TokenClass) (cid : String) : Except Exc (UsageRules × RuleRef) :=
  let u := (Rules.get? (usageRules s.server (s.clientRules cid)) c).getD {}
  if u.nonempty then .ok (u, s.refOf cid c)
  else
    match Rules.get? s.defaults c with
    | some d => .ok (d, .default c)
    | none => .error .keyError

/-- `get_usage_rules`, session/grant.py:416-436; `grantRules` are the rules of the grant. -/
def getUsageRules (c : TokenClass) (grantRules : Rules) (cid : String) (s : UsageState) :
    Except Exc UsageRules × UsageState :=
  match s.lookup c cid with
  | .error e => (.error e, s)
  | .ok (u, ref) =>
    match Rules.get? grantRules c with
    | none => (.ok u, s)
    | some g => if g.nonempty then (.ok (u.update g), s.write ref (u.update g)) else (.ok u, s)

end OidcOp
