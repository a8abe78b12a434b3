/-
The code exchange cut into the two parts between which another thread can run: minting, and registering
the use of the code.
-/
import Verif.Model.World

namespace OidcOp

/-- A code exchange in a thread between its two parts. -/
structure Pending where
  sess : Sess
  code : String
  req : TokenReq
  resp : TokenResp
  deriving DecidableEq, Repr, Inhabited

/-- The provider with threads in the middle of a code exchange. -/
structure TWorld where
  w : World := {}
  pending : List Pending := []
  deriving DecidableEq, Repr, Inhabited

/-- What happens to the provider, now with code exchanges in two parts. -/
inductive TOp where
  | whole (op : WOp)
  /-- a thread runs the first part for parsed request number `i` -/
  | start (i : Nat) (kw : Option Bool)
  /-- the `j`-th suspended thread runs to the end -/
  | finish (j : Nat)

/-- First part at the endpoint, as in `tokenHelper`; only requests with an authorization code. -/
def threadStart (E : Env) (t : TWorld) (kw : Option Bool) (req : TokenReq) : TWorld :=
  match req.code with
  | none => t
  | some code =>
    let v := spaceToPlus code
    match sessionByToken E t.w v with
    | .error _ => t
    | .ok s =>
      match codeMint E.cfg (minter E s.sid) t.w.now kw s.client req v ⟨s.grant, t.w.n⟩ with
      | (.ok (.ready r), gs) => { w := t.w.commit s gs, pending := t.pending ++ [⟨s, v, req, r⟩] }
      | (_, gs) => { t with w := t.w.commit s gs }

/-- Second part at the endpoint: the code token that the first part holds is the object in the grant, whatever
happened to the grant in between; then as in `tokenProcess`. -/
def threadFinish (E : Env) (t : TWorld) (p : Pending) : World :=
  match t.w.st.obj p.sess.ref with
  | some (.grant g) =>
    let w' := { t.w with st := t.w.st.put p.sess.ref (.grant (g.updateToken p.code Token.registerUsage)) }
    match p.resp.accessToken with
    | none => w'
    | some a =>
      match sessionByToken E w' a with
      | .error _ => w'
      | .ok _ => { w' with log := w'.log ++ [.token p.sess.ref p.sess.client false p.code p.req p.resp] }
  | _ => t.w

/-- One step with threads. -/
def tstep (E : Env) (t : TWorld) : TOp → TWorld
  | .whole op => { t with w := step E t.w op }
  | .start i kw =>
    match t.w.pool[i]? with
    | some req => if req.grantType = some "authorization_code" then threadStart E t kw req else t
    | none => t
  | .finish j =>
    match t.pending[j]? with
    | none => t
    | some p => { w := threadFinish E t p, pending := t.pending.eraseIdx j }

/-- The state after a history with threads. -/
def trun (E : Env) (t : TWorld) (ops : List TOp) : TWorld := ops.foldl (tstep E) t

end OidcOp
