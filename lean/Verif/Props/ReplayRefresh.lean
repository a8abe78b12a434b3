/-
C16: what was derived from a replayed code stays revoked, also when refreshes of different threads interleave.
-/
import Verif.Props.Replay
import Verif.Props.RefreshThreads

namespace OidcOp
open Spec

/-- A step with threads that refresh is a sequence of atomic steps. -/
theorem fstep_chain {E : Env} {t : FWorld} (h : FInv E t) (op : FOp) :
    Chain E (fun _ => True) t.w.core (fstep E t op).w.core := by
  cases op with
  | whole op => exact (step_spec h.w (sidClosed_true E) op (fun _ _ _ => trivial)).1
  | start i kw =>
    have hst : fstep E t (.start i kw) = (match t.w.pool[i]? with
      | some req => if req.grantType = some "refresh_token" then refreshStart E t kw req else t
      | none => t) := rfl
    rw [hst]
    split
    · rename_i req hi
      split
      · rename_i hgt
        have hok := h.w.pool req (List.mem_of_getElem? hi)
        unfold refreshStart
        split
        · exact .refl _
        · rename_i v hv
          obtain ⟨r, g, i0, tk, h1, h2, h3, h4, hsc, _⟩ := hok.refresh v hgt hv
          split
          · exact .refl _
          · rename_i s hs
            have hg := sessionByToken_grantAt hs
            have hsame : ∀ b, s.grant.getToken v = some b → b = tk ∧ s.grant = g ∧ s.ref = r := by
              intro b hb
              obtain ⟨hm, hval⟩ := getToken_mem hb
              obtain ⟨j, hj⟩ := List.getElem?_of_mem hm
              obtain ⟨e1, e2⟩ := h.w.core.uniq _ _ _ _ _ _ _ _ h1 hg h2 hj (h3.trans hval.symm)
              subst e1 e2
              rw [show t.w.core.st = t.w.st from rfl, hg] at h1
              cases h1
              rw [h2] at hj
              cases hj
              exact ⟨rfl, rfl, rfl⟩
            have htri := refreshMint_tri (mk := minter E s.sid) (clock := t.w.now) E.cfg kw s.client req v
              ⟨s.grant, t.w.n⟩ (by
                intro b hb
                obtain ⟨rfl, _, _⟩ := hsame b hb
                exact .inr h4)
              (by
                intro b found hb hf x hx
                obtain ⟨rfl, rfl, rfl⟩ := hsame b hb
                cases hq : req.scope with
                | none => rw [hq] at hx; exact h.w.core.findScope hg h2 hf x hx
                | some sc => rw [hq] at hx; exact hsc sc hq x hx)
            obtain ⟨hm1, _⟩ := htri _ rfl
            cases hcp : refreshMint E.cfg (minter E s.sid) t.w.now kw s.client req v ⟨s.grant, t.w.n⟩ with
            | mk res gs =>
              rw [hcp] at hm1
              obtain ⟨hch, _⟩ := commit_chain (S := fun _ => True) hg hm1 (.inl trivial)
              split
              · rename_i heq; cases heq; exact hch
              · rename_i heq; cases heq; exact hch
      · exact .refl _
    · exact .refl _
  | finish j =>
    have hst : fstep E t (.finish j) = (match t.pending[j]? with
      | none => t
      | some p => { w := refreshFinish E t p, pending := t.pending.eraseIdx j }) := rfl
    rw [hst]
    cases hj : t.pending[j]? with
    | none => exact .refl _
    | some p =>
      obtain ⟨hcid, g, i, b, h1, h2, h3⟩ := h.pend p (List.mem_of_getElem? hj)
      have hobj : t.w.st.obj p.sess.ref = some (.grant g) := grantAt_iff.1 h1
      let w' : World := { t.w with st := t.w.st.put p.sess.ref (.grant (refreshEnd E.cfg p.req p.code g)) }
      have hc : Chain E (fun _ => True) t.w.core w'.core :=
        chain_micros (S := fun _ => True) (sid := "") (c := t.w.core) h1
          (refreshEnd_micros E.cfg p.req p.code g t.w.n) (.inl trivial)
      simp only []
      unfold refreshFinish
      rw [hobj]
      simp only []
      split
      · exact hc
      · split
        · exact hc
        · exact hc

theorem frun_chain {E : Env} {t : FWorld} (h : FInv E t) (ops : List FOp) :
    Chain E (fun _ => True) t.w.core (frun E t ops).w.core := by
  induction ops generalizing t with
  | nil => exact .refl _
  | cons op rest ih => exact (fstep_chain h op).trans (ih (fstep_spec h op).1)

/-- C16, with refreshes of different threads interleaved.  Presenting a used code is answered by invalid_grant, and from then on
every token that is derived from the code is revoked, through however many refreshes: also those of refreshes that were in the middle
when the code was presented, and of those that start later. -/
theorem C16_refresh_threads (E : Env) (now : Int) (before : List FOp) (hfl : E.cfg.flavor = .oidc)
    (client : String) (cl : TClient) (hcl : E.cfg.cdb.get? client = some cl)
    (hallow : ∀ l, cl.grantTypes = some l → "authorization_code" ∈ l)
    (req : TokenReq) (hgt : req.grantType = some "authorization_code") (code : String) (hcode : req.code = some code)
    (s : Sess) (hs : sessionByToken E (frun E { w := { now := now } } before).w code = .ok s)
    (i : Nat) (t : Token) (hi : s.grant.issuedToken[i]? = some t)
    (hv : t.value = code) (hcls : t.cls = .authorizationCode) (hused : t.used ≠ 0) (after : List FOp) :
    (tokenParse E (frun E { w := { now := now } } before).w client { req with clientId := some client }).1 =
      .ok (.err "invalid_grant") ∧
    ∃ g, GrantAt (frun E { w := { now := now } } (before ++ .whole (.parse client req) :: after)).w s.ref g ∧
      ∀ j t', DerivedFrom g.issuedToken code j → g.issuedToken[j]? = some t' → t'.revoked = true := by
  have hti := finv_run (finv_init E now) before
  obtain ⟨h0, g', h1, h2, _⟩ := replay_burns hti.w hfl hcl hallow hgt hcode hs hi hv hcls hused
  have hti2 := (fstep_spec hti (.whole (.parse client req))).1
  obtain ⟨g2, h3, h4⟩ := burnt_chain hti2.w.core (frun_chain hti2 after) h1 h2
  refine ⟨h0, g2, grantAt_spec.2 ?_, h4.line⟩
  rw [show frun E { w := { now := now } } (before ++ .whole (.parse client req) :: after) =
    frun E (fstep E (frun E { w := { now := now } } before) (.whole (.parse client req))) after from by
      simp [frun, List.foldl_append]]
  exact h3

/-- C130, what holds also when a refresh token is answered more than once: a token that is revoked at any time stays revoked,
whatever threads that were in the middle of a refresh do afterwards, and its value, scopes and ancestry stay what they were. -/
theorem C130_never_revived (E : Env) (now : Int) (ops ops' : List FOp) (r i : Nat) (t : Token)
    (ht : TokenAt (frun E { w := { now := now } } ops).w r i t) :
    ∃ t', TokenAt (frun E { w := { now := now } } (ops ++ ops')).w r i t' ∧ t'.value = t.value ∧ t'.cls = t.cls ∧
      t'.scope = t.scope ∧ t'.basedOn = t.basedOn ∧ t.used ≤ t'.used ∧ (t.revoked = true → t'.revoked = true) := by
  obtain ⟨g, h1, h2⟩ := ht
  obtain ⟨g', t', h3, h4, h5⟩ := tokenAt_later (frun_chain (finv_run (finv_init E now) ops) ops') (grantAt_spec.1 h1) h2
  obtain ⟨e1, e2, e3, -, e4, -⟩ := static_fields h5.static
  refine ⟨t', ⟨g', grantAt_spec.2 ?_, h4⟩, e2, e1, e4, e3, h5.used, h5.revoked⟩
  rw [show frun E { w := { now := now } } (ops ++ ops') = frun E (frun E { w := { now := now } } ops) ops' from by
    simp [frun, List.foldl_append]]
  exact h3

/-- C130, scopes: no code, access or refresh token made while refreshes interleave has a scope that its grant does not have, and no two
tokens have the same value. -/
theorem C130_scopes (E : Env) (now : Int) (ops : List FOp) (r i : Nat) (g : Grant) (t : Token)
    (hg : GrantAt (frun E { w := { now := now } } ops).w r g) (ht : g.issuedToken[i]? = some t) :
    (t.cls ≠ .idToken → ∀ x ∈ t.scope, x ∈ g.scope) ∧
    ∀ r' i' t', TokenAt (frun E { w := { now := now } } ops).w r' i' t' → t'.value = t.value → r' = r ∧ i' = i := by
  have hi := (finv_run (finv_init E now) ops).w.core
  refine ⟨fun hc => hi.scope r g i t (grantAt_spec.1 hg) ht hc, ?_⟩
  rintro r' i' t' ⟨g', h1, h2⟩ hv
  exact hi.uniq _ _ _ _ _ _ _ _ (grantAt_spec.1 h1) (grantAt_spec.1 hg) h2 ht hv

namespace Ex

/-- Two threads are in the middle of a refresh, one of them has answered, when the code is presented again; then the other answers. -/
def replayRace : List FOp :=
  refreshRace.take 10

def replayReq : TokenReq := codeReq (E.mkVal 1 .authorizationCode (sid "c2" 0))

/-- The hypotheses of `C16_refresh_threads`, and what becomes of the tokens: those of both refreshes are revoked. -/
example : (sessionByToken E (frun E { w := init } replayRace).w (E.mkVal 1 .authorizationCode (sid "c2" 0))).toOption.map (fun s =>
        (s.ref, s.grant.issuedToken[0]?.map (fun t => (t.value, t.cls, t.used)))) =
      some (2, some (E.mkVal 1 .authorizationCode (sid "c2" 0), .authorizationCode, 1)) ∧
    E.cfg.flavor = .oidc ∧ (E.cfg.cdb.get? "c2").map TClient.grantTypes = some none ∧
    (frun E { w := init } replayRace).pending.length = 1 ∧
    (((frun E { w := init } (replayRace ++ [.whole (.parse "c2" replayReq), .finish 0])).w.st.grantAt 2).getD {}).issuedToken.map
        (fun t => (t.cls, t.revoked)) =
      [(.authorizationCode, false), (.accessToken, true), (.refreshToken, true), (.idToken, true),
       (.accessToken, true), (.refreshToken, true), (.idToken, true),
       (.accessToken, true), (.refreshToken, true), (.idToken, true)] := by
  decide +kernel

end Ex

end OidcOp
