/-
Model of session/token.py: Item, SessionToken and its subclasses.
-/
import Verif.Base.Exc
import Verif.Base.Dict

namespace OidcOp

/-- The `token_class` strings, session/grant.py:55-60 (`TOKEN_MAP`); `other` is any other string. -/
inductive TokenClass where
  | authorizationCode
  | accessToken
  | refreshToken
  | idToken
  | other (name : String)
  deriving DecidableEq, Repr, Inhabited

/-- The `usage_rules` dict of a token, session/token.py:18.  Only the keys the code reads
("max_usage", "supports_minting", "expires_in") are kept; `none` means the key is absent.
String valued `expires_in` (token.py:88) is taken to be already converted to an integer. -/
structure UsageRules where
  maxUsage : Option Int := none
  supportsMinting : Option (List TokenClass) := none
  expiresIn : Option Int := none
  deriving DecidableEq, Repr, Inhabited

/-- Truthiness of a usage rules dict (`if usage_rules:`), oauth2/token.py:61. -/
def UsageRules.nonempty (r : UsageRules) : Bool :=
  r.maxUsage.isSome || r.supportsMinting.isSome || r.expiresIn.isSome

/-- The part of an `Item` that decides whether it is active, session/token.py:12-42.
`maxUsage` is `usage_rules["max_usage"]` when that key is present. -/
structure Item where
  maxUsage : Option Int := none
  used : Nat := 0
  revoked : Bool := false
  notBefore : Int := 0
  expiresAt : Int := 0
  deriving DecidableEq, Repr, Inhabited

/-- `Item.max_usage_reached`, session/token.py:47-51 -/
def Item.maxUsageReached (i : Item) : Bool :=
  match i.maxUsage with
  | some m => decide ((i.used : Int) ≥ m)
  | none => false

/-- `Item.is_active(now)`, session/token.py:53-71.  `clock` is the value of `utc_time_sans_frac()`;
the argument `now = 0` means "use the clock". -/
def Item.isActive (i : Item) (clock : Int) (now : Int := 0) : Bool :=
  if i.maxUsageReached then false
  else if i.revoked then false
  else
    let now := if now == 0 then clock else now
    if i.notBefore != 0 && decide (now < i.notBefore) then false
    else if i.expiresAt != 0 && decide (now > i.expiresAt) then false
    else true

/-- A `SessionToken` instance, session/token.py:77-130.  The Python class of the instance
(AuthorizationCode, AccessToken, ...) is determined by `cls` because `Grant.mint_token` is the only
place that creates one (session/grant.py:289, 309).  `claims`, `resources`, `id` and `name` are not
kept: nothing modelled reads them. -/
structure Token where
  cls : TokenClass
  value : String
  basedOn : Option String := none
  rules : UsageRules := {}
  issuedAt : Int := 0
  expiresAt : Int := 0
  notBefore : Int := 0
  revoked : Bool := false
  used : Nat := 0
  scope : List String := []
  tokenType : String := "bearer"
  deriving DecidableEq, Repr, Inhabited

/-- A token seen as an `Item`. -/
def Token.item (t : Token) : Item :=
  { maxUsage := t.rules.maxUsage, used := t.used, revoked := t.revoked,
    notBefore := t.notBefore, expiresAt := t.expiresAt }

/-- `SessionToken.is_active()`, inherited, session/token.py:53-71 -/
def Token.isActive (t : Token) (clock : Int) (now : Int := 0) : Bool := t.item.isActive clock now

/-- `Item.revoke`, session/token.py:73-74 -/
def Token.revoke (t : Token) : Token := { t with revoked := true }

/-- `SessionToken.register_usage`, session/token.py:135-136 -/
def Token.registerUsage (t : Token) : Token := { t with used := t.used + 1 }

/-- `SessionToken.has_been_used`, session/token.py:138-139 -/
def Token.hasBeenUsed (t : Token) : Bool := t.used != 0

/-- `SessionToken.supports_minting`, session/token.py:141-146 -/
def Token.supportsMintingOf (t : Token) (c : TokenClass) : Bool :=
  match t.rules.supportsMinting with
  | none => false
  | some l => decide (c ∈ l)

/-- `set_defaults`: AuthorizationCode session/token.py:193-201, RefreshToken 205-207, no-op for the
others (132-133).  In Python the dict is changed in place, so the caller's dict (normally the grant's
rules for the class) sees the defaults as well.  Rules are values here; since the same defaults are
applied again at each mint the difference cannot be observed through the modelled functions. -/
def setDefaults (c : TokenClass) (r : UsageRules) : UsageRules :=
  match c with
  | .authorizationCode =>
    { r with
      supportsMinting := match r.supportsMinting with
        | none => some [.accessToken, .refreshToken, .idToken]
        | some l => some l
      maxUsage := some 1 }
  | .refreshToken =>
    { r with
      supportsMinting := match r.supportsMinting with
        | none => some [.accessToken, .refreshToken]
        | some l => some l }
  | _ => r

/-- The constructor call of session/grant.py:309-315: `SessionToken.__init__`
(session/token.py:94-130) with `expires_in = expires_at = 0`, `used = 0`, `revoked = False`. -/
def newToken (clock : Int) (c : TokenClass) (value : String) (basedOn : Option String)
    (rules : Option UsageRules) (scope : List String) (tokenType : String) : Token :=
  { cls := c, value := value, basedOn := basedOn,
    rules := setDefaults c (rules.getD {}),
    issuedAt := clock, scope := scope, tokenType := tokenType }

end OidcOp
