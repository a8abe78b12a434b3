/-
The provider with threads in the middle of code exchanges and of refreshes at the same time.
-/
import Verif.Model.RefreshThreads

namespace OidcOp

/-- The provider with threads in the middle of code exchanges (`codes`) and of refreshes (`refreshes`). -/
structure XWorld where
  w : World := {}
  codes : List Pending := []
  refreshes : List Pending := []
  deriving DecidableEq, Repr, Inhabited

/-- What happens to the provider, with code exchanges and refreshes in two parts. -/
inductive XOp where
  | whole (op : WOp)
  /-- a thread runs the first part of a code exchange for parsed request number `i` -/
  | code (i : Nat) (kw : Option Bool)
  /-- the `j`-th suspended code exchange runs to the end -/
  | codeEnd (j : Nat)
  /-- a thread runs the first part of a refresh for parsed request number `i` -/
  | refresh (i : Nat) (kw : Option Bool)
  /-- the `j`-th suspended refresh runs to the end -/
  | refreshEnd (j : Nat)

/-- One step: `AccessTokenHelper.process_request` (oauth2/token.py:100-192, oidc/token.py:25-159) and
`RefreshTokenHelper.process_request` (oauth2/token.py:231-310, oidc/token.py:203-304) in two parts each, as in `tstep` and `fstep`,
and anything else as a whole. -/
def xstep (E : Env) (x : XWorld) : XOp → XWorld
  | .whole op => { x with w := step E x.w op }
  | .code i kw =>
    let t := tstep E ⟨x.w, x.codes⟩ (.start i kw)
    { x with w := t.w, codes := t.pending }
  | .codeEnd j =>
    let t := tstep E ⟨x.w, x.codes⟩ (.finish j)
    { x with w := t.w, codes := t.pending }
  | .refresh i kw =>
    let t := fstep E ⟨x.w, x.refreshes⟩ (.start i kw)
    { x with w := t.w, refreshes := t.pending }
  | .refreshEnd j =>
    let t := fstep E ⟨x.w, x.refreshes⟩ (.finish j)
    { x with w := t.w, refreshes := t.pending }

/-- The state after a history with threads. -/
def xrun (E : Env) (x : XWorld) (ops : List XOp) : XWorld := ops.foldl (xstep E) x

end OidcOp
