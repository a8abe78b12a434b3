/-
C15, C16, C25 and C130 when code exchanges and refreshes of different threads interleave with each other.
-/
import Verif.Model.AllThreads
import Verif.Props.SpentThreads

namespace OidcOp
open Spec

/-- What a thread adds to the log: responses, either to refreshes (`b`) or to code exchanges, and nothing else. -/
def Adds (b : Bool) (log log' : List Event) : Prop :=
  ∃ l, log' = log ++ l ∧ ∀ e ∈ l, ∃ ref client v req resp, e = .token ref client b v req resp

theorem Adds.same {b : Bool} {log : List Event} : Adds b log log := ⟨[], by simp, by simp⟩

theorem tstep_adds {E : Env} {t : TWorld} {op : TOp} (h : ∀ o, op ≠ .whole o) : Adds false t.w.log (tstep E t op).w.log := by
  cases op with
  | whole o => exact absurd rfl (h o)
  | start i kw =>
    show Adds false t.w.log (match t.w.pool[i]? with
      | some req => if req.grantType = some "authorization_code" then threadStart E t kw req else t
      | none => t).w.log
    split
    · split
      · unfold threadStart
        split
        · exact .same
        · simp only []
          split
          · exact .same
          · split <;> exact .same
      · exact .same
    · exact .same
  | finish j =>
    show Adds false t.w.log (match t.pending[j]? with
      | none => t
      | some p => { w := threadFinish E t p, pending := t.pending.eraseIdx j }).w.log
    split
    · exact .same
    · unfold threadFinish
      split
      · simp only []
        split
        · exact .same
        · split
          · exact .same
          · exact ⟨_, rfl, by simp⟩
      · exact .same

theorem fstep_adds {E : Env} {t : FWorld} {op : FOp} (h : ∀ o, op ≠ .whole o) : Adds true t.w.log (fstep E t op).w.log := by
  cases op with
  | whole o => exact absurd rfl (h o)
  | start i kw =>
    show Adds true t.w.log (match t.w.pool[i]? with
      | some req => if req.grantType = some "refresh_token" then refreshStart E t kw req else t
      | none => t).w.log
    split
    · split
      · unfold refreshStart
        split
        · exact .same
        · split
          · exact .same
          · split <;> exact .same
      · exact .same
    · exact .same
  | finish j =>
    show Adds true t.w.log (match t.pending[j]? with
      | none => t
      | some p => { w := refreshFinish E t p, pending := t.pending.eraseIdx j }).w.log
    split
    · exact .same
    · unfold refreshFinish
      split
      · simp only []
        split
        · exact .same
        · split
          · exact .same
          · exact ⟨_, rfl, by simp⟩
      · exact .same

theorem adds_codes {log log' : List Event} (h : Adds true log log') (v : String) :
    log'.countP (isCodeResponse v) = log.countP (isCodeResponse v) := by
  obtain ⟨l, rfl, hl⟩ := h
  have : l.countP (isCodeResponse v) = 0 := List.countP_eq_zero.2 fun e he => by
    obtain ⟨ref, client, v', req, resp, rfl⟩ := hl e he
    simp [isCodeResponse]
  rw [List.countP_append, this, Nat.add_zero]

theorem adds_refreshes {log log' : List Event} (h : Adds false log log') (v : String) :
    log'.countP (isRefreshResponse v) = log.countP (isRefreshResponse v) := by
  obtain ⟨l, rfl, hl⟩ := h
  have : l.countP (isRefreshResponse v) = 0 := List.countP_eq_zero.2 fun e he => by
    obtain ⟨ref, client, v', req, resp, rfl⟩ := hl e he
    simp [isRefreshResponse]
  rw [List.countP_append, this, Nat.add_zero]

theorem adds_rotated {cfg : TokenCfg} {log log' : List Event} (h : Adds false log log') {v : String} (hr : Rotated cfg log' v) :
    Rotated cfg log v := by
  obtain ⟨l, rfl, hl⟩ := h
  obtain ⟨ref, client, req, resp, h1, h2⟩ := hr
  rcases List.mem_append.1 h1 with h1 | h1
  · exact ⟨ref, client, req, resp, h1, h2⟩
  · obtain ⟨_, _, _, _, _, e⟩ := hl _ h1
    cases e

/-- Invariant of the provider with threads of both sorts. -/
structure XInv (E : Env) (x : XWorld) : Prop where
  code : TInv E ⟨x.w, x.codes⟩
  refresh : FInv E ⟨x.w, x.refreshes⟩

theorem xinv_init (E : Env) (now : Int) : XInv E { w := { now := now } } := ⟨tinv_init E now, finv_init E now⟩

/-- What a step does: it is a sequence of atomic steps, the invariant is kept, and for codes that are used and refresh tokens that
are gone the number of answers plus the number of threads about to answer does not grow. -/
theorem xstep_spec {E : Env} {x : XWorld} (h : XInv E x) (op : XOp) :
    Chain E (fun _ => True) x.w.core (xstep E x op).w.core ∧ XInv E (xstep E x op) ∧
    (∀ v, CodeUsed v x.w.core →
      (xstep E x op).w.log.countP (isCodeResponse v) + (xstep E x op).codes.countP (Pending.aboutTo v) ≤
      x.w.log.countP (isCodeResponse v) + x.codes.countP (Pending.aboutTo v)) ∧
    (∀ v, Gone v x.w.core →
      (xstep E x op).w.log.countP (isRefreshResponse v) + (xstep E x op).refreshes.countP (fun p => p.code == v) ≤
      x.w.log.countP (isRefreshResponse v) + x.refreshes.countP (fun p => p.code == v)) := by
  have code : ∀ op' : TOp, (∀ o, op' ≠ .whole o) →
      Chain E (fun _ => True) x.w.core (tstep E ⟨x.w, x.codes⟩ op').w.core ∧
      XInv E { x with w := (tstep E ⟨x.w, x.codes⟩ op').w, codes := (tstep E ⟨x.w, x.codes⟩ op').pending } ∧
      (∀ v, CodeUsed v x.w.core →
        (tstep E ⟨x.w, x.codes⟩ op').w.log.countP (isCodeResponse v) +
          (tstep E ⟨x.w, x.codes⟩ op').pending.countP (Pending.aboutTo v) ≤
        x.w.log.countP (isCodeResponse v) + x.codes.countP (Pending.aboutTo v)) ∧
      (∀ v, Gone v x.w.core →
        (tstep E ⟨x.w, x.codes⟩ op').w.log.countP (isRefreshResponse v) + x.refreshes.countP (fun p => p.code == v) ≤
        x.w.log.countP (isRefreshResponse v) + x.refreshes.countP (fun p => p.code == v)) := by
    intro op' hop
    have hc := tstep_chain h.code op'
    obtain ⟨h1, h2, h3⟩ := tstep_spec h.code op'
    have ha := tstep_adds (E := E) (t := ⟨x.w, x.codes⟩) hop
    refine ⟨hc, ⟨h1, ⟨h1.w, fun p hp => fpend_chain hc (h.refresh.pend p hp), fun v hv => ?_⟩⟩, h3, fun v _ => ?_⟩
    · exact (h.refresh.gone v (adds_rotated ha hv)).mono hc
    · exact Nat.le_of_eq (congrArg (· + _) (adds_refreshes ha v))
  have refr : ∀ op' : FOp, (∀ o, op' ≠ .whole o) →
      Chain E (fun _ => True) x.w.core (fstep E ⟨x.w, x.refreshes⟩ op').w.core ∧
      XInv E { x with w := (fstep E ⟨x.w, x.refreshes⟩ op').w, refreshes := (fstep E ⟨x.w, x.refreshes⟩ op').pending } ∧
      (∀ v, CodeUsed v x.w.core →
        (fstep E ⟨x.w, x.refreshes⟩ op').w.log.countP (isCodeResponse v) + x.codes.countP (Pending.aboutTo v) ≤
        x.w.log.countP (isCodeResponse v) + x.codes.countP (Pending.aboutTo v)) ∧
      (∀ v, Gone v x.w.core →
        (fstep E ⟨x.w, x.refreshes⟩ op').w.log.countP (isRefreshResponse v) +
          (fstep E ⟨x.w, x.refreshes⟩ op').pending.countP (fun p => p.code == v) ≤
        x.w.log.countP (isRefreshResponse v) + x.refreshes.countP (fun p => p.code == v)) := by
    intro op' hop
    have hc := fstep_chain h.refresh op'
    obtain ⟨h1, h2, h3⟩ := fstep_spec h.refresh op'
    have ha := fstep_adds (E := E) (t := ⟨x.w, x.refreshes⟩) hop
    refine ⟨hc, ⟨⟨h1.w, fun p hp => pend_chain hc (h.code.pend p hp), fun v hv => ?_⟩, h1⟩, fun v _ => ?_, h3⟩
    · rw [adds_codes ha v] at hv
      exact (h.code.used v hv).mono hc
    · exact Nat.le_of_eq (congrArg (· + _) (adds_codes ha v))
  cases op with
  | whole op =>
    obtain ⟨h1, _, h3⟩ := tstep_spec h.code (.whole op)
    obtain ⟨h4, _, h6⟩ := fstep_spec h.refresh (.whole op)
    exact ⟨tstep_chain h.code (.whole op), ⟨h1, h4⟩, h3, h6⟩
  | code i kw => exact code (.start i kw) (fun _ => nofun)
  | codeEnd j => exact code (.finish j) (fun _ => nofun)
  | refresh i kw => exact refr (.start i kw) (fun _ => nofun)
  | refreshEnd j => exact refr (.finish j) (fun _ => nofun)

theorem xrun_spec {E : Env} {x : XWorld} (h : XInv E x) (ops : List XOp) :
    Chain E (fun _ => True) x.w.core (xrun E x ops).w.core ∧ XInv E (xrun E x ops) ∧
    (∀ v, CodeUsed v x.w.core →
      (xrun E x ops).w.log.countP (isCodeResponse v) + (xrun E x ops).codes.countP (Pending.aboutTo v) ≤
      x.w.log.countP (isCodeResponse v) + x.codes.countP (Pending.aboutTo v)) ∧
    (∀ v, Gone v x.w.core →
      (xrun E x ops).w.log.countP (isRefreshResponse v) + (xrun E x ops).refreshes.countP (fun p => p.code == v) ≤
      x.w.log.countP (isRefreshResponse v) + x.refreshes.countP (fun p => p.code == v)) := by
  induction ops generalizing x with
  | nil => exact ⟨.refl _, h, fun _ _ => Nat.le_refl _, fun _ _ => Nat.le_refl _⟩
  | cons op rest ih =>
    obtain ⟨h1, h2, h3, h4⟩ := xstep_spec h op
    obtain ⟨h5, h6, h7, h8⟩ := ih h2
    exact ⟨h1.trans h5, h6, fun v hv => Nat.le_trans (h7 v (hv.mono h1)) (h3 v hv),
      fun v hv => Nat.le_trans (h8 v (hv.mono h1)) (h4 v hv)⟩

theorem xrun_append (E : Env) (x : XWorld) (ops ops' : List XOp) : xrun E x (ops ++ ops') = xrun E (xrun E x ops) ops' := by
  simp [xrun, List.foldl_append]

/-- C15 (partial, as `C15_threads_partial`), with refreshes of other threads in between: once a code has been answered, further answers
for it can only come from threads that had made their tokens before. -/
theorem C15_all_threads_partial (E : Env) (now : Int) (ops ops' : List XOp) (v : String)
    (h : 1 ≤ (xrun E { w := { now := now } } ops).w.log.countP (isCodeResponse v)) :
    (xrun E { w := { now := now } } (ops ++ ops')).w.log.countP (isCodeResponse v) ≤
      (xrun E { w := { now := now } } ops).w.log.countP (isCodeResponse v) +
      (xrun E { w := { now := now } } ops).codes.countP (fun p => p.code == v && p.resp.accessToken.isSome) := by
  have hi := (xrun_spec (xinv_init E now) ops).2.1
  have := (xrun_spec hi ops').2.2.1 v (hi.code.used v h)
  rw [xrun_append]
  exact Nat.le_trans (Nat.le_add_right _ _) this

/-- C130 (partial, as `C130_later_partial`), with code exchanges of other threads in between. -/
theorem C130_all_threads_partial (E : Env) (now : Int) (ops ops' : List XOp) (v : String)
    (h : Rotated E.cfg (xrun E { w := { now := now } } ops).w.log v) :
    (xrun E { w := { now := now } } (ops ++ ops')).w.log.countP (isRefreshResponse v) ≤
      (xrun E { w := { now := now } } ops).w.log.countP (isRefreshResponse v) +
      (xrun E { w := { now := now } } ops).refreshes.countP (fun p => p.code == v) := by
  have hi := (xrun_spec (xinv_init E now) ops).2.1
  have := (xrun_spec hi ops').2.2.2 v (hi.refresh.gone v h)
  rw [xrun_append]
  exact Nat.le_trans (Nat.le_add_right _ _) this

/-- C25 (partial, as `C25_spent_token_partial`), with threads of both sorts: a token that is revoked, used up or expired is refused from
then on. -/
theorem C25_all_threads_partial (E : Env) (now : Int) (ops ops' : List XOp) (r i : Nat) (t : Token)
    (ht : TokenAt (xrun E { w := { now := now } } ops).w r i t) (hsp : Spent t (xrun E { w := { now := now } } ops).w.now) :
    Refused E (xrun E { w := { now := now } } (ops ++ ops')).w t.value := by
  have hi := (xrun_spec (xinv_init E now) ops).2.1
  obtain ⟨h1, h2, _⟩ := xrun_spec hi ops'
  rw [← xrun_append] at h1 h2
  exact spent_refused h2.code.w.core h1 ht hsp

/-- C16, with threads of both sorts: after a used code has been presented again every token that is derived from it is revoked for
ever and refused, whoever made it: exchanges and refreshes that were in the middle then, and all that come later. -/
theorem C16_all_threads (E : Env) (now : Int) (before : List XOp) (hfl : E.cfg.flavor = .oidc)
    (client : String) (cl : TClient) (hcl : E.cfg.cdb.get? client = some cl)
    (hallow : ∀ l, cl.grantTypes = some l → "authorization_code" ∈ l)
    (req : TokenReq) (hgt : req.grantType = some "authorization_code") (code : String) (hcode : req.code = some code)
    (s : Sess) (hs : sessionByToken E (xrun E { w := { now := now } } before).w code = .ok s)
    (i : Nat) (t : Token) (hi : s.grant.issuedToken[i]? = some t)
    (hv : t.value = code) (hcls : t.cls = .authorizationCode) (hused : t.used ≠ 0) (after : List XOp) :
    (tokenParse E (xrun E { w := { now := now } } before).w client { req with clientId := some client }).1 =
      .ok (.err "invalid_grant") ∧
    ∃ g, GrantAt (xrun E { w := { now := now } } (before ++ .whole (.parse client req) :: after)).w s.ref g ∧
      ∀ j t', DerivedFrom g.issuedToken code j → g.issuedToken[j]? = some t' → t'.revoked = true ∧
        Refused E (xrun E { w := { now := now } } (before ++ .whole (.parse client req) :: after)).w t'.value := by
  have hti := (xrun_spec (xinv_init E now) before).2.1
  obtain ⟨h0, g', h1, h2, _⟩ := replay_burns hti.code.w hfl hcl hallow hgt hcode hs hi hv hcls hused
  have hti2 := (xstep_spec hti (.whole (.parse client req))).2.1
  obtain ⟨hc, hx, _⟩ := xrun_spec hti2 after
  obtain ⟨g2, h3, h4⟩ := burnt_chain hti2.code.w.core hc h1 h2
  have e : xrun E { w := { now := now } } (before ++ .whole (.parse client req) :: after) =
      xrun E (xstep E (xrun E { w := { now := now } } before) (.whole (.parse client req))) after := by
    simp [xrun, List.foldl_append]
  rw [e]
  refine ⟨h0, g2, grantAt_spec.2 h3, fun j t' hd hj => ⟨h4.line j t' hd hj, ?_⟩⟩
  exact spent_refused hx.code.w.core (.refl _) ⟨_, grantAt_spec.2 h3, hj⟩ (.inl (h4.line j t' hd hj))

/-- C130, with threads of both sorts: a token stays what it is: value, class, scope and base do not change, its count of uses does not
go down, and once revoked it stays revoked. -/
theorem C130_all_threads_never_revived (E : Env) (now : Int) (ops ops' : List XOp) (r i : Nat) (t : Token)
    (ht : TokenAt (xrun E { w := { now := now } } ops).w r i t) :
    ∃ t', TokenAt (xrun E { w := { now := now } } (ops ++ ops')).w r i t' ∧ t'.value = t.value ∧ t'.cls = t.cls ∧
      t'.scope = t.scope ∧ t'.basedOn = t.basedOn ∧ t.used ≤ t'.used ∧ (t.revoked = true → t'.revoked = true) := by
  obtain ⟨g, h1, h2⟩ := ht
  obtain ⟨hc, _⟩ := xrun_spec (xrun_spec (xinv_init E now) ops).2.1 ops'
  obtain ⟨g', t', h3, h4, h5⟩ := tokenAt_later hc (grantAt_spec.1 h1) h2
  obtain ⟨e1, e2, e3, -, e4, -⟩ := static_fields h5.static
  rw [xrun_append]
  exact ⟨t', ⟨g', grantAt_spec.2 h3, h4⟩, e2, e1, e4, e3, h5.used, h5.revoked⟩

/-- C130, with threads of both sorts: no code, access or refresh token has a scope that its grant does not have; no two tokens have the
same value; and what a token is based on is an older token of the same grant. -/
theorem C130_all_threads_tokens (E : Env) (now : Int) (ops : List XOp) (r i : Nat) (g : Grant) (t : Token)
    (hg : GrantAt (xrun E { w := { now := now } } ops).w r g) (ht : g.issuedToken[i]? = some t) :
    (t.cls ≠ .idToken → ∀ x ∈ t.scope, x ∈ g.scope) ∧
    (∀ r' i' t', TokenAt (xrun E { w := { now := now } } ops).w r' i' t' → t'.value = t.value → r' = r ∧ i' = i) ∧
    (∀ v, t.basedOn = some v → ∃ j p, j < i ∧ g.issuedToken[j]? = some p ∧ p.value = v) := by
  have hi := (xrun_spec (xinv_init E now) ops).2.1.code.w.core
  refine ⟨fun hc => hi.scope r g i t (grantAt_spec.1 hg) ht hc, ?_, fun v hv => ?_⟩
  · rintro r' i' t' ⟨g', h1, h2⟩ hv
    exact hi.uniq _ _ _ _ _ _ _ _ (grantAt_spec.1 h1) (grantAt_spec.1 hg) h2 ht hv
  · obtain ⟨j, p, h1, h2, h3, _⟩ := hi.based r g i t v (grantAt_spec.1 hg) ht hv
    exact ⟨j, p, h1, h2, h3⟩

namespace Ex

/-- A code exchange is past minting while another one for the same code is answered; its refresh token is refreshed in a third thread,
which is past minting too. -/
def allRace : List XOp :=
  [.whole (.login "d" "c1" (authzReq "c1") event), .whole (.authorize (sid "c1" 0) (authzReq "c1")),
   .whole (.parse "c1" (codeReq (E.mkVal 1 .authorizationCode (sid "c1" 0)))),
   .whole (.parse "c1" (codeReq (E.mkVal 1 .authorizationCode (sid "c1" 0)))),
   .code 0 none, .code 1 none, .codeEnd 0,
   .whole (.parse "c1" (refreshReq (E.mkVal 3 .refreshToken (sid "c1" 0)) none)), .refresh 2 none]

/-- The hypotheses of the theorems for threads of both sorts, and what becomes of the tokens when the code is presented again and then
both threads go on. -/
example : (xrun E { w := init } allRace).codes.length = 1 ∧ (xrun E { w := init } allRace).refreshes.length = 1 ∧
    (xrun E { w := init } allRace).w.log.countP (isCodeResponse (E.mkVal 1 .authorizationCode (sid "c1" 0))) = 1 ∧
    (sessionByToken E (xrun E { w := init } allRace).w (E.mkVal 1 .authorizationCode (sid "c1" 0))).toOption.map (fun s =>
        (s.ref, s.grant.issuedToken[0]?.map (fun t => (t.value, t.cls, t.used)))) =
      some (2, some (E.mkVal 1 .authorizationCode (sid "c1" 0), .authorizationCode, 1)) ∧
    (((xrun E { w := init } (allRace ++ .whole (.parse "c1" (codeReq (E.mkVal 1 .authorizationCode (sid "c1" 0)))) ::
      [.codeEnd 0, .refreshEnd 0])).w.st.grantAt 2).getD {}).issuedToken.map (fun t => (t.cls, t.revoked)) =
      [(.authorizationCode, false), (.accessToken, true), (.refreshToken, true), (.idToken, true),
       (.accessToken, true), (.refreshToken, true), (.idToken, true),
       (.accessToken, true), (.refreshToken, true), (.idToken, true)] := by
  decide +kernel

end Ex

end OidcOp
