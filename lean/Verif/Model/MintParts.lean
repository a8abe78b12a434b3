/-
The minting of a token cut into the two parts between which another thread can run: the checks and the making of the
value, and the appending to the grant.
-/
import Verif.Model.Grant

namespace OidcOp

/-- `Grant.mint_token` up to the call of the token handler, session/grant.py:274-346: the new token, which is not yet in the grant. -/
def Grant.mintPrepare (g : Grant) (clock : Int) (c : TokenClass) (basedOn : Option Token)
    (rules : Option UsageRules) (scope : Option (List String)) (tokenType : String)
    (handler : Except Exc String) : Except Exc (Option Token) :=
  if g.isActive clock = false then .ok none
  else
    let guard : Except Exc (Option String) :=
      match basedOn with
      | some b =>
        if b.supportsMintingOf c = false then .error .mintingNotAllowed
        else if b.isActive clock = false then .error .mintingNotAllowed
        else .ok (some b.value)
      | none => .ok none
    match guard with
    | .error e => .error e
    | .ok ref =>
      let rules := rules.or (g.rulesFor c)
      if c.known = false then .error .valueError
      else
        let sc : Except Exc (List String) := match scope with
          | some s => .ok s
          | none => match basedOn with
            | some b => g.findScopeTok b
            | none => .ok g.scope
        match sc with
        | .error e => .error e
        | .ok s =>
          match handler with
          | .error e => .error e
          | .ok v =>
            let ttype := if c = .accessToken ∧ tokenType ≠ "" then tokenType else "bearer"
            .ok (some (newToken clock c v ref rules s ttype))

/-- The rest of `Grant.mint_token`, session/grant.py:351-353. -/
def Grant.mintAppend (g : Grant) (t : Token) : Grant :=
  { g with issuedToken := g.issuedToken ++ [t], used := g.used + 1 }

/-- A grant that several threads work with.  `waiting` are the tokens of threads that are about to append them, `n` is the number of
values that have been made. -/
structure MWorld where
  g : Grant := {}
  now : Int := 0
  n : Nat := 0
  waiting : List Token := []
  deriving DecidableEq, Repr, Inhabited

/-- What threads do with a grant. -/
inductive MOp where
  /-- a thread runs `mint_token` up to the appending; it holds the token with value `base` as `based_on` -/
  | prepare (c : TokenClass) (base : Option String) (rules : Option UsageRules) (scope : Option (List String)) (tokenType : String)
  /-- the `j`-th of the waiting threads appends its token -/
  | append (j : Nat)
  /-- `token.register_usage()` -/
  | use (v : String)
  /-- `grant.revoke_token(value, based_on, recursive)` -/
  | revoke (value basedOn : String) (recursive : Bool)
  /-- time passes -/
  | tick (d : Nat)

/-- One step: `Grant.mint_token` in its two parts (session/grant.py:250-353), `SessionToken.register_usage` (session/token.py:135-136)
and `Grant.revoke_token` (session/grant.py:361-377) as a whole.  `mk` are the values that the token handler makes. -/
def mstep (mk : Nat → String) (m : MWorld) : MOp → MWorld
  | .prepare c none rules scope tt =>
    match m.g.mintPrepare m.now c none rules scope tt (.ok (mk m.n)) with
    | .ok (some t) => { m with n := m.n + 1, waiting := m.waiting ++ [t] }
    | _ => { m with n := m.n + 1 }
  | .prepare c (some v) rules scope tt =>
    match m.g.getToken v with
    | none => m
    | some b =>
      match m.g.mintPrepare m.now c (some b) rules scope tt (.ok (mk m.n)) with
      | .ok (some t) => { m with n := m.n + 1, waiting := m.waiting ++ [t] }
      | _ => { m with n := m.n + 1 }
  | .append j =>
    match m.waiting[j]? with
    | none => m
    | some t => { m with g := m.g.mintAppend t, waiting := m.waiting.eraseIdx j }
  | .use v => { m with g := m.g.updateToken v Token.registerUsage }
  | .revoke value basedOn recursive =>
    match m.g.revokeToken value basedOn recursive with
    | .ok g' => { m with g := g' }
    | .error _ => m
  | .tick d => { m with now := m.now + d }

/-- The state after any sequence of steps. -/
def mrun (mk : Nat → String) (m : MWorld) (ops : List MOp) : MWorld := ops.foldl (mstep mk) m

end OidcOp
