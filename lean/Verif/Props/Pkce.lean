/-
C28: PKCE.
-/
import Verif.Spec.Pkce
import Verif.Lemmas.Origins
import Verif.Props.WorldExamples

namespace OidcOp
open Spec

/-! ### The authorization request -/

theorem essentialFor_iff {P : PkceCfg} {client : String} {own : Option Bool} (h : P.cdb.get? client = some own) :
    P.essentialFor own = true ↔ PkceRequired P client := by
  unfold PkceRequired PkceCfg.essentialFor
  rw [h]
  cases own with
  | none => cases P.essential <;> simp
  | some b => simp

/-- C28, authorization endpoint.  For a registered client a request passes exactly if a challenge is there when PKCE is
required of the client, and a challenge comes with a configured method ("plain" if the request names none); it passes
unchanged but for that default. -/
theorem C28_authorization_request (P : PkceCfg) (client : String) (req : AuthzReq) (hc : P.cdb.get? client ≠ none)
    (req' : AuthzReq) :
    pkceAuthnParse P client req = .ok (.req req') ↔
      req' = { req with codeChallengeMethod := some (req.codeChallengeMethod.getD "plain") } ∧
      ChallengeInOrder P client req' := by
  cases hown : P.cdb.get? client with
  | none => exact absurd hown hc
  | some own =>
    have he := essentialFor_iff hown
    have hval : pkceAuthnParse P client req = if P.essentialFor own && req.codeChallenge.isNone then
        .ok (.err "invalid_request" "Missing required code_challenge")
      else if req.codeChallenge.isSome && !(P.methods.contains (req.codeChallengeMethod.getD "plain")) then
        .ok (.err "invalid_request" "Unsupported code_challenge_method")
      else .ok (.req { req with codeChallengeMethod := some (req.codeChallengeMethod.getD "plain") }) := by
      unfold pkceAuthnParse
      rw [hown]
    rw [hval]
    constructor
    · intro h
      split at h
      · cases h
      · rename_i h1
        split at h
        · cases h
        · rename_i h2
          simp only [Except.ok.injEq, AParse.req.injEq] at h
          subst h
          refine ⟨rfl, fun hr hn => h1 ?_, fun hn => ⟨_, rfl, ?_⟩⟩
          · simp only [] at hn
            rw [he.2 hr, hn]; rfl
          · cases hch : req.codeChallenge with
            | none => exact absurd hch hn
            | some ch =>
              rw [hch] at h2
              simpa using h2
    · rintro ⟨rfl, h1, h2⟩
      simp only [] at h1 h2
      rw [if_neg, if_neg]
      · intro h
        simp only [Bool.and_eq_true, Option.isSome_iff_ne_none] at h
        obtain ⟨m, h3, h4⟩ := h2 h.1
        cases h3
        simp [h4] at h
      · intro h
        simp only [Bool.and_eq_true, Option.isNone_iff_eq_none] at h
        exact h1 (he.1 h.1) h.2

/-! ### The token request -/

theorem ccMethod_transforms {H : CCHash} {m x ch : String} (h : verifyCodeChallenge H x ch m = .ok true) :
    Transforms H m x ch := by
  unfold verifyCodeChallenge at h
  split at h
  · cases h
  · rename_i f hf
    split at h
    · cases h
    · rename_i y hy
      have : y = ch := by simpa using h
      subst this
      unfold ccMethod at hf
      unfold Transforms
      split at hf
      · rename_i e; cases hf; left; refine ⟨e, ?_⟩; cases hy; rfl
      · split at hf
        · rename_i e; cases hf; exact .inr (.inl ⟨e, hy⟩)
        · split at hf
          · rename_i e; cases hf; exact .inr (.inr (.inl ⟨e, hy⟩))
          · split at hf
            · rename_i e; cases hf; exact .inr (.inr (.inr ⟨e, hy⟩))
            · cases hf

theorem transforms_verify {H : CCHash} {m x ch : String} (h : Transforms H m x ch) :
    verifyCodeChallenge H x ch m = .ok true := by
  unfold verifyCodeChallenge ccMethod
  rcases h with ⟨rfl, rfl⟩ | ⟨rfl, h⟩ | ⟨rfl, h⟩ | ⟨rfl, h⟩
  · simp
  · simp [h]
  · simp [h]
  · simp [h]

/-- C28, token endpoint.  A code request whose code belongs to a session passes exactly if it proves possession of
the verifier for that session's authorization request, with the method recorded there. -/
theorem C28_token_request (E : Env) (H : CCHash) (w : World) (req : TokenReq) (code : String) (s : Sess) (ar : AuthzReq)
    (hg : req.grantType ≠ some "refresh_token") (hc : req.code = some code) (hs : sessionByToken E w code = .ok s)
    (ha : s.grant.authzReq = some ar) (req' : TokenReq) :
    pkceTokenParse E H w req = .ok (.req req') ↔ req' = req ∧ Proven H ar req := by
  unfold pkceTokenParse
  simp only [hg, if_false, hc, hs, ha]
  constructor
  · intro h
    split at h
    · rename_i hch
      cases h
      refine ⟨rfl, fun ch h1 => ?_⟩
      rw [hch] at h1; cases h1
    · rename_i ch hch
      split at h
      · cases h
      · rename_i x hx
        split at h
        · cases h
        · rename_i m hm
          split at h
          · cases h
          · rename_i hv
            cases h
            refine ⟨rfl, fun ch' h1 => ?_⟩
            rw [hch] at h1; cases h1
            exact ⟨m, x, hm, hx, ccMethod_transforms hv⟩
          · cases h
  · rintro ⟨rfl, hp⟩
    cases hch : ar.codeChallenge with
    | none => rfl
    | some ch =>
      obtain ⟨m, x, h1, h2, h3⟩ := hp ch hch
      simp only [h2, h1, transforms_verify h3]

/-! ### Histories of a provider with PKCE -/

/-- An accepted token request has changed nothing. -/
theorem tokenParse_accepted {E : Env} {w w' : World} {client : String} {req r : TokenReq}
    (h : tokenParse E w client req = (.ok (.req r), w')) : w' = w := by
  have hcode : ∀ {x : TokenReq}, codeParseW E w x = (.ok (.req r), w') → w' = w := by
    intro x hx
    unfold codeParseW at hx
    split at hx
    · cases hx
    · rename_i code _
      split at hx
      · split at hx <;> cases hx
      · rename_i s hs
        cases hp : codeParse E.cfg w.now x code s.grant with
        | mk res g' =>
          rw [hp] at hx
          simp only [Prod.mk.injEq] at hx
          obtain ⟨rfl, rfl⟩ := hx
          have hg : g' = s.grant := by
            unfold codeParse at hp
            repeat' split at hp
            all_goals (simp only [Prod.mk.injEq] at hp; obtain ⟨h1, h2⟩ := hp; first | exact h2.symm | cases h1)
          subst hg
          simp only [World.commit, if_true]
          rw [put_self (sessionByToken_grantAt hs)]
  unfold tokenParse at h
  repeat' split at h
  all_goals first
    | exact hcode h
    | (simp only [Prod.mk.injEq] at h; exact h.2.symm)

/-- The token request is backed by a code whose authorization request it satisfies. -/
def Backed (H : CCHash) (c : Core) (ref : Option Nat) (v : String) (req : TokenReq) : Prop :=
  ∃ (r : Nat) (g : Grant) (i : Nat) (t : Token) (ar : AuthzReq), c.st.grantAt r = some g ∧
    g.issuedToken[i]? = some t ∧ t.value = v ∧ g.authzReq = some ar ∧ Proven H ar req ∧ ∀ x, ref = some x → x = r

theorem Backed.mono {E : Env} {S : String → Prop} {H : CCHash} {c c' : Core} {ref : Option Nat} {v : String} {req : TokenReq}
    (hc : Chain E S c c') (h : Backed H c ref v req) : Backed H c' ref v req := by
  obtain ⟨r, g, i, t, ar, h1, h2, h3, h4, h5, h6⟩ := h
  obtain ⟨g', h7, h8⟩ := grantLe_chain hc h1
  obtain ⟨t', h9, h10⟩ := h8.tokens i t h2
  exact ⟨r, g', i, t', ar, h7, h9, (static_fields h10.static).2.1.trans h3, by rw [h8.authzReq]; exact h4, h5, h6⟩

structure PInv (E : Env) (H : CCHash) (w : World) : Prop where
  winv : WInv E (fun _ => True) w
  pool : ∀ req ∈ w.pool, req.grantType = some "authorization_code" → ∀ v, req.code = some v → Backed H w.core none v req
  log : ∀ e ∈ w.log, ∀ ref client v req resp, e = .token ref client false v req resp → Backed H w.core (some ref) v req

/-- A step of the plain provider whose pool does not grow. -/
theorem pinv_step {E : Env} {H : CCHash} {w : World} (h : PInv E H w) (op : WOp) (w' : World)
    (hcore : w'.core = (step E w op).core) (hlog : w'.log = (step E w op).log) (hw' : WInv E (fun _ => True) w')
    (hpool : ∀ req ∈ w'.pool, req ∈ w.pool ∨
      (req.grantType = some "authorization_code" → ∀ v, req.code = some v → Backed H w'.core none v req)) :
    PInv E H w' := by
  obtain ⟨hc, hws, hl⟩ := step_spec h.winv (sidClosed_true E) op (fun _ _ _ => trivial)
  rw [← hcore] at hc
  refine ⟨hw', ?_, ?_⟩
  · intro req hr hg v hv
    rcases hpool req hr with h1 | h1
    · exact (h.pool req h1 hg v hv).mono hc
    · exact h1 hg v hv
  · intro e he ref client v req resp heq
    rw [hlog] at he
    rcases hl with h1 | ⟨e', h1, h2⟩
    · rw [h1] at he
      exact (h.log e he _ _ _ _ _ heq).mono hc
    · rw [h1] at he
      rcases List.mem_append.1 he with h3 | h3
      · exact (h.log e h3 _ _ _ _ _ heq).mono hc
      · simp at h3
        subst h3
        subst heq
        rcases h2 with ⟨_, _, _, _, hx, _⟩ | ⟨s, rf', v', req', r', a, hx, hp, ha, hout⟩
        · cases hx
        · cases hx
          have hc0 := (step_spec h.winv (sidClosed_true E) op (fun _ _ _ => trivial)).1
          have hf := tokFacts h.winv (sidClosed_true E) hc0 hp ha hout
          obtain ⟨j, b, b', g2, x1, x2, x3, x4, x5, x6, x7, _⟩ := hf.base
          obtain ⟨gs, hgs, hh, _⟩ := hout.out
          obtain ⟨hgt, hcode, _⟩ := hh rfl
          obtain ⟨r, g, i, t, ar, y1, y2, y3, y4, y5, _⟩ := h.pool req hp hgt v hcode
          obtain ⟨e1, _⟩ := h.winv.core.uniq _ _ _ _ _ _ _ _ y1 hf.before y2 x1 (y3.trans x2.symm)
          have hb : Backed H w.core (some s.ref) v req :=
            ⟨r, g, i, t, ar, y1, y2, y3, y4, y5, fun x hx => by cases hx; exact e1.symm⟩
          exact hb.mono hc

theorem pinv_pstep {E : Env} {H : CCHash} {P : PkceCfg} {w : World} (h : PInv E H w) (op : WOp) :
    PInv E H (pstep E H P w op) := by
  have plain : ∀ op, (∀ client req, op ≠ .parse client req) → PInv E H (step E w op) := by
    intro op hne
    obtain ⟨hc, hws, hl⟩ := step_spec h.winv (sidClosed_true E) op (fun _ _ _ => trivial)
    refine pinv_step h op _ rfl rfl hws ?_
    intro req hr
    rcases pool_step h.winv op req hr with h1 | ⟨c, r0, rfl, _⟩
    · exact .inl h1
    · exact absurd rfl (hne c r0)
  cases op with
  | login u c req ev =>
    show PInv E H (match pkceAuthnParse P c req with
      | .ok (.req req') => step E w (.login u c req' ev)
      | _ => w)
    split
    · exact plain _ (by simp)
    · exact h
  | again u c req ev =>
    show PInv E H (match pkceAuthnParse P c req with
      | .ok (.req req') => step E w (.again u c req' ev)
      | _ => w)
    split
    · exact plain _ (by simp)
    · exact h
  | tick d => exact plain (.tick d) (by simp)
  | addGrant u c g => exact plain (.addGrant u c g) (by simp)
  | authorize sid req => exact plain (.authorize sid req) (by simp)
  | process i kw => exact plain (.process i kw) (by simp)
  | revokeToken sid v rec => exact plain (.revokeToken sid v rec) (by simp)
  | revokeGrant sid => exact plain (.revokeGrant sid) (by simp)
  | revokeClientSession sid => exact plain (.revokeClientSession sid) (by simp)
  | removeSession sid => exact plain (.removeSession sid) (by simp)
  | parse client req =>
    obtain ⟨hc, hws, hl⟩ := step_spec h.winv (sidClosed_true E) (.parse client req) (fun _ _ _ => trivial)
    obtain ⟨t1, t2, t3, t4⟩ := tokenParse_spec E (fun _ => True) w client { req with clientId := some client }
    have hst : step E w (.parse client req) = (match tokenParse E w client { req with clientId := some client } with
      | (.ok (.req r), w') => { w' with pool := w'.pool ++ [r] }
      | (_, w') => w') := rfl
    have hps : pstep E H P w (.parse client req) =
      (match tokenParseP E H w client { req with clientId := some client } with
      | (.ok (.req r), w') => { w' with pool := w'.pool ++ [r] }
      | (_, w') => w') := rfl
    rw [hps]
    unfold tokenParseP
    cases hp : tokenParse E w client { req with clientId := some client } with
    | mk res w1 =>
      rw [hp] at t1 t2 t3 t4 hst
      have hw1 : WInv E (fun _ => True) w1 :=
        ⟨cinv_chain h.winv.core t1, fun rq hr => (h.winv.pool rq (t2 ▸ hr)).chain t1⟩
      have stay : (step E w (.parse client req)).core = w1.core → (step E w (.parse client req)).log = w1.log → PInv E H w1 := by
        intro e1 e2
        exact pinv_step h (.parse client req) w1 e1.symm e2.symm hw1 (fun rq hr => .inl (t2 ▸ hr))
      cases res with
      | error e => exact stay (by rw [hst]) (by rw [hst])
      | ok pr =>
        cases pr with
        | err c => exact stay (by rw [hst]) (by rw [hst])
        | req r =>
          simp only [] at hst
          simp only []
          split
          · rename_i r' w2 hpk
            simp only [Prod.mk.injEq] at hpk
            obtain ⟨hpk, rfl⟩ := hpk
            have hsame : r' = r := by
              unfold pkceTokenParse at hpk
              repeat' split at hpk
              all_goals first
                | (cases hpk; rfl)
                | (cases hpk)
            subst hsame
            refine pinv_step h (.parse client req) _ (by rw [hst]) (by rw [hst]) (by rw [hst] at hws; exact hws) ?_
            intro rq hr
            rcases List.mem_append.1 hr with h5 | h5
            · exact .inl (t2 ▸ h5)
            · right
              simp only [List.mem_cons, List.not_mem_nil, or_false] at h5
              subst h5
              intro hg v hv
              have hww := tokenParse_accepted hp
              have hparsed := t4 rq rfl
              obtain ⟨v', s, t, q1, q2, q3, q4, _⟩ := hparsed.code hg
              rw [hv] at q1; cases q1
              subst hww
              -- what the PKCE function looked at
              have hpk' := hpk
              unfold pkceTokenParse at hpk'
              simp only [hg, hv] at hpk'
              rw [if_neg (by simp)] at hpk'
              rw [q2] at hpk'
              simp only [] at hpk'
              cases ha : s.grant.authzReq with
              | none => rw [ha] at hpk'; cases hpk'
              | some ar =>
                have hpr := (C28_token_request E H w1 rq v s ar (by rw [hg]; simp) hv q2 ha rq).1 hpk
                obtain ⟨hm, hval⟩ := getToken_mem q3
                obtain ⟨i, hi⟩ := List.getElem?_of_mem hm
                exact ⟨s.ref, s.grant, i, t, ar, sessionByToken_grantAt q2, hi, hval, ha, hpr.2, by simp⟩
          · rename_i w2 hne hpk
            simp only [Prod.mk.injEq] at hpk
            obtain ⟨hpk, rfl⟩ := hpk
            exact stay (by rw [hst]; rfl) (by rw [hst])

theorem pinv_prun {E : Env} {H : CCHash} {P : PkceCfg} (ops : List WOp) {w : World} (h : PInv E H w) :
    PInv E H (prun E H P w ops) := by
  induction ops generalizing w with
  | nil => exact h
  | cons op r ih => exact ih (pinv_pstep h op)

theorem pinv_init (E : Env) (H : CCHash) (now : Int) : PInv E H { now := now } :=
  ⟨winv_init E _ now, by simp, by simp⟩

/-- C28.  In every history of a provider with PKCE: a token response for a code was given only to a request that
proves possession of the verifier for the authorization request of the grant that the code belongs to. -/
theorem C28_code_exchange_proves_possession (E : Env) (H : CCHash) (P : PkceCfg) (now : Int) (ops : List WOp)
    (ref : Nat) (client v : String) (req : TokenReq) (resp : TokenResp)
    (h : Event.token ref client false v req resp ∈ (prun E H P { now := now } ops).log) :
    ∃ g t ar, GrantAt (prun E H P { now := now } ops) ref g ∧ t ∈ g.issuedToken ∧ t.value = v ∧
      g.authzReq = some ar ∧ Proven H ar req := by
  obtain ⟨r, g, i, t, ar, h1, h2, h3, h4, h5, h6⟩ := (pinv_prun (P := P) ops (pinv_init E H now)).log _ h _ _ _ _ _ rfl
  have := h6 ref rfl
  subst this
  exact ⟨g, t, ar, grantAt_spec.2 h1, List.mem_of_getElem? h2, h3, h4, h5⟩

theorem pstep_cases {E : Env} {H : CCHash} {P : PkceCfg} (w : World) (op : WOp) :
    (pstep E H P w op = w) ∨ ∃ op', (pstep E H P w op).core = (step E w op').core ∧
      ((∃ u c req ev req', op' = .login u c req' ev ∧ op = .login u c req ev ∧ pkceAuthnParse P c req = .ok (.req req')) ∨
       (∃ u c req ev req', op' = .again u c req' ev ∧ op = .again u c req ev ∧ pkceAuthnParse P c req = .ok (.req req')) ∨
       (op' = op ∧ (∀ u c req ev, op ≠ .login u c req ev ∧ op ≠ .again u c req ev))) := by
  cases op with
  | login u c req ev =>
    show (match pkceAuthnParse P c req with
      | .ok (.req req') => step E w (.login u c req' ev)
      | _ => w) = w ∨ _
    cases hp : pkceAuthnParse P c req with
    | error e => exact .inl rfl
    | ok a =>
      cases a with
      | err _ _ => exact .inl rfl
      | req r =>
        right
        refine ⟨.login u c r ev, ?_, .inl ⟨u, c, req, ev, r, rfl, rfl, hp⟩⟩
        show (match pkceAuthnParse P c req with
          | .ok (.req req') => step E w (.login u c req' ev)
          | _ => w).core = _
        rw [hp]
  | again u c req ev =>
    show (match pkceAuthnParse P c req with
      | .ok (.req req') => step E w (.again u c req' ev)
      | _ => w) = w ∨ _
    cases hp : pkceAuthnParse P c req with
    | error e => exact .inl rfl
    | ok a =>
      cases a with
      | err _ _ => exact .inl rfl
      | req r =>
        right
        refine ⟨.again u c r ev, ?_, .inr (.inl ⟨u, c, req, ev, r, rfl, rfl, hp⟩)⟩
        show (match pkceAuthnParse P c req with
          | .ok (.req req') => step E w (.again u c req' ev)
          | _ => w).core = _
        rw [hp]
  | parse client req =>
    right
    refine ⟨.parse client req, ?_, .inr (.inr ⟨rfl, by simp⟩)⟩
    have hst : step E w (.parse client req) = (match tokenParse E w client { req with clientId := some client } with
      | (.ok (.req r), w') => { w' with pool := w'.pool ++ [r] }
      | (_, w') => w') := rfl
    have hps : pstep E H P w (.parse client req) =
      (match tokenParseP E H w client { req with clientId := some client } with
      | (.ok (.req r), w') => { w' with pool := w'.pool ++ [r] }
      | (_, w') => w') := rfl
    rw [hps, hst]
    unfold tokenParseP
    cases hp : tokenParse E w client { req with clientId := some client } with
    | mk res w1 =>
      cases res with
      | error e => rfl
      | ok pr =>
        cases pr with
        | err c => rfl
        | req r =>
          simp only []
          split
          · rename_i h; simp only [Prod.mk.injEq] at h; obtain ⟨_, rfl⟩ := h; rfl
          · rename_i h; simp only [Prod.mk.injEq] at h; obtain ⟨_, rfl⟩ := h; rfl
  | tick d => exact .inr ⟨.tick d, rfl, .inr (.inr ⟨rfl, by simp⟩)⟩
  | addGrant u c g => exact .inr ⟨.addGrant u c g, rfl, .inr (.inr ⟨rfl, by simp⟩)⟩
  | authorize sid req => exact .inr ⟨.authorize sid req, rfl, .inr (.inr ⟨rfl, by simp⟩)⟩
  | process i kw => exact .inr ⟨.process i kw, rfl, .inr (.inr ⟨rfl, by simp⟩)⟩
  | revokeToken sid v rec => exact .inr ⟨.revokeToken sid v rec, rfl, .inr (.inr ⟨rfl, by simp⟩)⟩
  | revokeGrant sid => exact .inr ⟨.revokeGrant sid, rfl, .inr (.inr ⟨rfl, by simp⟩)⟩
  | revokeClientSession sid => exact .inr ⟨.revokeClientSession sid, rfl, .inr (.inr ⟨rfl, by simp⟩)⟩
  | removeSession sid => exact .inr ⟨.removeSession sid, rfl, .inr (.inr ⟨rfl, by simp⟩)⟩

/-- C28.  In every history of a provider with PKCE in which no grant is made with `add_grant`: every grant is for a
client whose authorization request was in order - with a challenge if PKCE is required of that client, and with a
configured method - so no code exists without. -/
theorem C28_grants_in_order (E : Env) (H : CCHash) (P : PkceCfg) (now : Int) (ops : List WOp)
    (hadd : ∀ u c g, WOp.addGrant u c g ∉ ops) (ref : Nat) (g : Grant)
    (h : GrantAt (prun E H P { now := now } ops) ref g) :
    ∃ ar c, g.authzReq = some ar ∧ ar.clientId = some c ∧ ChallengeInOrder P c ar := by
  have main : ∀ (ops : List WOp) (w : World), PInv E H w → (∀ u c g, WOp.addGrant u c g ∉ ops) →
      (∀ r g, w.st.grantAt r = some g → ∃ ar c, g.authzReq = some ar ∧ ar.clientId = some c ∧ ChallengeInOrder P c ar) →
      ∀ r g, (prun E H P w ops).st.grantAt r = some g →
        ∃ ar c, g.authzReq = some ar ∧ ar.clientId = some c ∧ ChallengeInOrder P c ar := by
    intro ops
    induction ops with
    | nil => intro w _ _ h; exact h
    | cons op rest ih =>
      intro w hw hadd hall
      refine ih (pstep E H P w op) (pinv_pstep hw op) (fun u c g hm => hadd u c g (by simp [hm])) ?_
      intro r g hg
      rcases pstep_cases (E := E) (H := H) (P := P) w op with he | ⟨op', he, hop⟩
      · rw [he] at hg; exact hall r g hg
      · have hg' : (step E w op').st.grantAt r = some g := by
          have : (pstep E H P w op).st = (step E w op').st := congrArg Core.st he
          rw [← this]; exact hg
        rcases origins_step hw.winv (sidClosed_true E) op' (fun _ _ _ => trivial) hg' with ⟨g0, h1, h2⟩ | ⟨g0, h1, h2⟩
        · obtain ⟨ar, c, h3, h4⟩ := hall r g0 h1
          exact ⟨ar, c, by rw [h2.authzReq]; exact h3, h4⟩
        · have hreq : g.authzReq = g0.authzReq := by rcases h2 with rfl | rfl <;> rfl
          rw [hreq]
          have ok : ∀ (req req' : AuthzReq) (c : String), pkceAuthnParse P c req = .ok (.req req') →
              ∃ ar c', some { req' with clientId := some c } = some ar ∧ ar.clientId = some c' ∧ ChallengeInOrder P c' ar := by
            intro req req' c hp
            have hcd : P.cdb.get? c ≠ none := by
              intro hn; unfold pkceAuthnParse at hp; rw [hn] at hp; cases hp
            have := (C28_authorization_request P c req hcd req').1 hp
            exact ⟨_, c, rfl, rfl, this.2⟩
          rcases hop with ⟨u, c, req, ev, req', rfl, _, hp⟩ | ⟨u, c, req, ev, req', rfl, _, hp⟩ | ⟨rfl, hno⟩
          · rcases h1 with ⟨_, _, _, _, hx, rfl⟩ | ⟨_, _, _, _, hx, _⟩ | ⟨_, _, _, hx, _⟩
            · cases hx; exact ok _ _ _ hp
            · cases hx
            · cases hx
          · rcases h1 with ⟨_, _, _, _, hx, _⟩ | ⟨_, _, _, _, hx, rfl⟩ | ⟨_, _, _, hx, _⟩
            · cases hx
            · cases hx; exact ok _ _ _ hp
            · cases hx
          · rcases h1 with ⟨_, _, _, _, hx, _⟩ | ⟨_, _, _, _, hx, _⟩ | ⟨u, c, g1, hx, _⟩
            · exact absurd hx (hno _ _ _ _).1
            · exact absurd hx (hno _ _ _ _).2
            · exact absurd (by rw [hx]; simp) (hadd u c g1)
  exact main ops _ (pinv_init E H now) hadd (by intro r g hg; simp [Store.grantAt] at hg) ref g (grantAt_spec.1 h)

end OidcOp
