/-
The refreshing of tokens cut into the two parts between which another thread can run: minting, and registering the
use of the refresh token and revoking it.
-/
import Verif.Model.Threads

namespace OidcOp

/-- The part of `RefreshTokenHelper.process_request` up to `token.register_usage()`, oauth2/token.py:243-294,
oidc/token.py:212-289: as in `refreshProcess`. -/
def refreshMint (cfg : TokenCfg) (mk : Minter) (clock : Int) (kw : Option Bool) (sessClient : String)
    (req : TokenReq) (v : String) : SE GS MRes := do
  match req.clientId with
  | none => SE.raise .keyError
  | some reqClient =>
    if sessClient ≠ reqClient then return .err "invalid_grant"
    else do
      let ttype ← dpopStep cfg.dpopAdvertised req
      let s ← SE.get
      match s.g.getToken v with
      | none => SE.raise .attributeError
      | some tok =>
        let found ← SE.ofExcept (s.g.findScope tok.basedOn)
        let scope := req.scope.getD found
        let at' ← mintEP mk clock .accessToken (some tok) (some scope) ttype
        match tok.rules.supportsMinting with
        | none => SE.raise .typeError
        | some mints =>
          let rt ← mintRefresh mk clock tok scope
            (decide (TokenClass.refreshToken ∈ mints) && issueRefresh cfg.flavor kw scope)
          let idt ← mintIdToken mk clock tok (some scope)
            (decide (cfg.flavor = .oidc ∧ TokenClass.idToken ∈ mints ∧ "openid" ∈ scope))
          match idt with
          | none => return .err "invalid_request"
          | some idv =>
            return .ready
              { tokenType := ttype, scope := scope, accessToken := some at'.value,
                expiresIn := expiresInOf clock at', refreshToken := rt, idToken := idv }

/-- The rest on the grant: `token.register_usage()` and `token.revoke()` when rotation is in force, oauth2/token.py:296-308,
oidc/token.py:290-302. -/
def refreshEnd (cfg : TokenCfg) (req : TokenReq) (v : String) (g : Grant) : Grant :=
  if revokeRefreshFor cfg req.clientId then (g.updateToken v Token.registerUsage).updateToken v Token.revoke
  else g.updateToken v Token.registerUsage

/-- The provider with threads in the middle of a refresh; `Pending.code` is the refresh token. -/
structure FWorld where
  w : World := {}
  pending : List Pending := []
  deriving DecidableEq, Repr, Inhabited

/-- What happens to the provider, now with refreshes in two parts. -/
inductive FOp where
  | whole (op : WOp)
  /-- a thread runs the first part for parsed request number `i` -/
  | start (i : Nat) (kw : Option Bool)
  /-- the `j`-th suspended thread runs to the end -/
  | finish (j : Nat)

/-- First part at the endpoint, as in `tokenHelper` (oauth2/token.py:236-243, 442-452); only requests with a refresh token. -/
def refreshStart (E : Env) (t : FWorld) (kw : Option Bool) (req : TokenReq) : FWorld :=
  match req.refreshToken with
  | none => t
  | some v =>
    match sessionByToken E t.w v with
    | .error _ => t
    | .ok s =>
      match refreshMint E.cfg (minter E s.sid) t.w.now kw s.client req v ⟨s.grant, t.w.n⟩ with
      | (.ok (.ready r), gs) => { w := t.w.commit s gs, pending := t.pending ++ [⟨s, v, req, r⟩] }
      | (_, gs) => { t with w := t.w.commit s gs }

/-- Second part at the endpoint: the token that the first part holds is the object in the grant, whatever happened to the
grant in between; then as in `tokenProcess` (oauth2/token.py:453-490). -/
def refreshFinish (E : Env) (t : FWorld) (p : Pending) : World :=
  match t.w.st.obj p.sess.ref with
  | some (.grant g) =>
    let w' := { t.w with st := t.w.st.put p.sess.ref (.grant (refreshEnd E.cfg p.req p.code g)) }
    match p.resp.accessToken with
    | none => w'
    | some a =>
      match sessionByToken E w' a with
      | .error _ => w'
      | .ok _ => { w' with log := w'.log ++ [.token p.sess.ref p.sess.client true p.code p.req p.resp] }
  | _ => t.w

/-- One step with threads. -/
def fstep (E : Env) (t : FWorld) : FOp → FWorld
  | .whole op => { t with w := step E t.w op }
  | .start i kw =>
    match t.w.pool[i]? with
    | some req => if req.grantType = some "refresh_token" then refreshStart E t kw req else t
    | none => t
  | .finish j =>
    match t.pending[j]? with
    | none => t
    | some p => { w := refreshFinish E t p, pending := t.pending.eraseIdx j }

/-- The state after a history with threads. -/
def frun (E : Env) (t : FWorld) (ops : List FOp) : FWorld := ops.foldl (fstep E) t

end OidcOp
