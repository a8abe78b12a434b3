/-
Revocation when the interpreter's stack is finite (C95).  The recursions of Model/Grant.lean are given as much depth as there are
tokens; here the depth is what the interpreter has left, and what was done before it ran out stays done.
-/
import Verif.Model.TokenEndpoint

namespace OidcOp

/-- A `for` loop over positions of the list of tokens; an exception ends it and leaves the tokens as they are. -/
def loopTokens (f : Nat → List Token → Except Exc Unit × List Token) : List Nat → List Token → Except Exc Unit × List Token
  | [], ts => (.ok (), ts)
  | i :: l, ts =>
    match f i ts with
    | (.ok _, ts') => loopTokens f l ts'
    | (.error e, ts') => (.error e, ts')

/-- The body of the loop, session/grant.py:374-377, for the token at a position; `value` and `based_on` are read from the list as
it was at the start, as in `revokeTokensFuel`. -/
def revokeChild (ts : List Token) (v : String) (again : String → List Token → Except Exc Unit × List Token) (i : Nat)
    (acc : List Token) : Except Exc Unit × List Token :=
  match ts[i]? with
  | none => (.ok (), acc)
  | some t => if t.basedOn = some v then again t.value (markAt acc i) else (.ok (), acc)

/-- `Grant.revoke_token(based_on=v)`, session/grant.py:361-377, with room for `limit` nested calls; `v` is not empty.  The stack
also holds the frames of the caller: `limit` is what they leave of `sys.getrecursionlimit()`. -/
def revokeLimited : (limit : Nat) → (v : String) → List Token → Except Exc Unit × List Token
  | 0, _, ts => (.error .recursionError, ts)
  | n + 1, v, ts => loopTokens (revokeChild ts v (revokeLimited n)) (List.range ts.length) ts

/-- What `post_parse_request` does with a code that was used before, oidc/token.py:184-187, with room for `limit` nested calls. -/
def replayLimited (limit : Nat) (code : String) : SE Grant PRes := fun g =>
  match revokeLimited limit code g.issuedToken with
  | (.ok _, ts) => (.ok (.err "invalid_grant"), { g with issuedToken := ts })
  | (.error e, ts) => (.error e, { g with issuedToken := ts })

end OidcOp
