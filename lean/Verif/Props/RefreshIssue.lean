/-
C78: refresh tokens are given only when asked for and allowed.
-/
import Verif.Spec.RefreshIssue
import Verif.Props.World
import Verif.Props.WorldExamples
import Mathlib.Data.List.Induction

namespace OidcOp
open Spec

theorem issueRefresh_iff (fl : Flavor) (kw : Option Bool) (sc : List String) :
    issueRefresh fl kw sc = true ↔ RefreshAsked fl kw sc := by
  unfold issueRefresh RefreshAsked
  cases fl <;> rcases kw with _ | _ | _ <;> simp

theorem SE.bind_ok {σ α β : Type} {m : SE σ α} {f : α → SE σ β} {s s'' : σ} {b : β} (h : (m >>= f) s = (.ok b, s'')) :
    ∃ a s', m s = (.ok a, s') ∧ f a s' = (.ok b, s'') := by
  rw [SE.bind_apply] at h
  cases hm : m s with
  | mk r s' =>
    rw [hm] at h
    cases r with
    | error e => simp at h
    | ok a => exact ⟨a, s', rfl, h⟩

theorem dpopStep_scope {en : Bool} {req : TokenReq} {s s' : GS} {t : String} (h : dpopStep en req s = (.ok t, s')) :
    s'.g.scope = s.g.scope := by
  unfold dpopStep at h
  repeat' split at h
  all_goals (cases h; rfl)

theorem codeMint_refresh {cfg : TokenCfg} {mk : Minter} {clock : Int} {kw : Option Bool} {client : String} {req : TokenReq}
    {code : String} {s s' : GS} {r : TokenResp} {x : String}
    (h : codeMint cfg mk clock kw client req code s = (.ok (.ready r), s')) (hx : r.refreshToken = some x) :
    RefreshAsked cfg.flavor kw r.scope ∧ GrantTypeOpen cfg client "refresh_token" := by
  unfold codeMint at h
  cases hq : req.clientId with
  | none => rw [hq] at h; cases h
  | some rc =>
    rw [hq] at h
    simp only [] at h
    by_cases hc : client ≠ rc
    · rw [if_pos hc] at h; cases h
    · rw [if_neg hc] at h
      obtain ⟨sup, s1, h1, h⟩ := SE.bind_ok h
      obtain ⟨tt, s2, h2, h⟩ := SE.bind_ok h
      obtain ⟨s3, s4, h3, h⟩ := SE.bind_ok h
      cases h3
      cases hb : s2.g.getToken code with
      | none => rw [hb] at h; cases h
      | some b =>
        rw [hb] at h
        cases ha : s2.g.authzReq with
        | none => rw [ha] at h; cases h
        | some ar =>
          rw [ha] at h
          simp only [] at h
          obtain ⟨same, s5, h5, h⟩ := SE.bind_ok h
          by_cases hsm : same = false
          · rw [if_pos hsm] at h; cases h
          · rw [if_neg hsm] at h
            obtain ⟨at?, s6, h6, h⟩ := SE.bind_ok h
            obtain ⟨rt?, s7, h7, h⟩ := SE.bind_ok h
            obtain ⟨oi, s8, h8, h⟩ := SE.bind_ok h
            obtain ⟨idt, s9, h9, h⟩ := SE.bind_ok h
            cases idt with
            | none => cases h
            | some idv =>
              cases h
              unfold mintOrSkip at h7
              split at h7
              · rename_i hw
                simp only [decide_eq_true_eq] at hw
                obtain ⟨w1, -, w3⟩ := hw
                refine ⟨(issueRefresh_iff _ _ _).1 w1, ?_⟩
                have hg : grantTypesFor cfg client = .ok sup := by
                  cases hs : grantTypesFor cfg client with
                  | error e => rw [hs] at h1; cases h1
                  | ok l => rw [hs] at h1; cases h1; rfl
                unfold grantTypesFor at hg
                split at hg
                · cases hg
                · rename_i cl hcl
                  cases hg
                  refine ⟨cl, hcl, ?_⟩
                  cases hgt : cl.grantTypes <;> rw [hgt] at w3 <;> exact w3
              · cases h7; cases hx

theorem refreshProcess_refresh {cfg : TokenCfg} {mk : Minter} {clock : Int} {kw : Option Bool} {client : String}
    {req : TokenReq} {v : String} {s s' : GS} {r : TokenResp} {x : String}
    (h : refreshProcess cfg mk clock kw client req v s = (.ok (.resp r), s')) (hx : r.refreshToken = some x) :
    RefreshAsked cfg.flavor kw r.scope := by
  unfold refreshProcess at h
  cases hq : req.clientId with
  | none => rw [hq] at h; cases h
  | some rc =>
    rw [hq] at h
    simp only [] at h
    by_cases hc : client ≠ rc
    · rw [if_pos hc] at h; cases h
    · rw [if_neg hc] at h
      obtain ⟨tt, s2, h2, h⟩ := SE.bind_ok h
      obtain ⟨s3, s4, h3, h⟩ := SE.bind_ok h
      cases h3
      cases hb : s2.g.getToken v with
      | none => rw [hb] at h; cases h
      | some tok =>
        rw [hb] at h
        simp only [] at h
        obtain ⟨found, s5, h5, h⟩ := SE.bind_ok h
        obtain ⟨at', s6, h6, h⟩ := SE.bind_ok h
        cases hm : tok.rules.supportsMinting with
        | none => rw [hm] at h; cases h
        | some mints =>
          rw [hm] at h
          simp only [] at h
          obtain ⟨rt, s7, h7, h⟩ := SE.bind_ok h
          obtain ⟨idt, s8, h8, h⟩ := SE.bind_ok h
          cases idt with
          | none => cases h
          | some idv =>
            simp only [] at h
            obtain ⟨_, s9, h9, h⟩ := SE.bind_ok h
            obtain ⟨_, s10, h10, h⟩ := SE.bind_ok h
            cases h
            unfold mintRefresh at h7
            split at h7
            · rename_i hw
              simp only [Bool.and_eq_true] at hw
              exact (issueRefresh_iff _ _ _).1 hw.2
            · cases h7; cases hx

/-- What `process_request` records with a refresh token. -/
theorem tokenProcess_refresh {E : Env} {w : World} {kw : Option Bool} {req : TokenReq} {ref : Nat} {client v x : String}
    {rf : Bool} {req' : TokenReq} {r : TokenResp}
    (h : (tokenProcess E w kw req).2.log = w.log ++ [.token ref client rf v req' r]) (hx : r.refreshToken = some x) :
    RefreshAsked E.cfg.flavor kw r.scope ∧ (rf = false → GrantTypeOpen E.cfg client "refresh_token") := by
  have key : ∀ r0 s rf' v' w', tokenHelper E w kw req = (.ok (.resp r0, some (s, rf', v')), w') →
      w'.log = w.log ∧ (r0.refreshToken = some x → RefreshAsked E.cfg.flavor kw r0.scope ∧
        (rf' = false → GrantTypeOpen E.cfg s.client "refresh_token")) := by
    intro r0 s rf' v' w' hh
    unfold tokenHelper at hh
    split at hh
    · cases hh
    · split at hh
      · split at hh
        · cases hh
        · simp only [] at hh
          split at hh
          · cases hh
          · rename_i code _ s1 hs
            split at hh
            · rename_i y gs hcp
              cases hh
              refine ⟨rfl, fun hx0 => ?_⟩
              unfold codeProcess at hcp
              obtain ⟨m, s2, h1, h2⟩ := SE.bind_ok hcp
              cases m with
              | err c => cases h2
              | ready r1 =>
                cases h2
                obtain ⟨a, b⟩ := codeMint_refresh h1 hx0
                exact ⟨a, fun _ => b⟩
            · cases hh
      · split at hh
        · split at hh
          · cases hh
          · split at hh
            · cases hh
            · rename_i v0 _ s1 hs
              split at hh
              · rename_i y gs hcp
                cases hh
                exact ⟨rfl, fun hx0 => ⟨refreshProcess_refresh hcp hx0, by simp⟩⟩
              · cases hh
        · cases hh
  have hlog : ∀ res w', tokenHelper E w kw req = (res, w') → w'.log = w.log := by
    intro res w' hh
    unfold tokenHelper at hh
    simp only [] at hh
    repeat' split at hh
    all_goals (cases hh; rfl)
  unfold tokenProcess at h
  split at h
  · rename_i e w' hh
    have := hlog _ _ hh
    split at h <;> · simp only [this] at h; exact absurd h (by simp)
  · rename_i c o w' hh
    have := hlog _ _ hh
    simp only [this] at h; exact absurd h (by simp)
  · rename_i r0 w' hh
    have := hlog _ _ hh
    simp only [this] at h; exact absurd h (by simp)
  · rename_i r0 s rf' v' w' hh
    obtain ⟨k1, k2⟩ := key _ _ _ _ _ hh
    split at h
    · simp only [k1] at h; exact absurd h (by simp)
    · split at h
      · simp only [k1] at h; exact absurd h (by simp)
      · simp only [k1, List.append_cancel_left_eq, List.cons.injEq, Event.token.injEq, and_true] at h
        obtain ⟨-, e2, e3, -, -, e6⟩ := h
        subst e2 e3 e6
        exact k2 hx

/-- Every answer of a history was given by one of its steps. -/
theorem answer_step (E : Env) (now : Int) (ops : List WOp) (e : Event) (he : e ∈ (run E { now := now } ops).log) :
    ∃ pre op post, ops = pre ++ op :: post ∧
      (step E (run E { now := now } pre) op).log = (run E { now := now } pre).log ++ [e] := by
  induction ops using List.reverseRecOn with
  | nil => simp [run] at he
  | append_singleton ops op ih =>
    have hr : run E { now := now } (ops ++ [op]) = step E (run E { now := now } ops) op := by simp [run]
    have hw := winv_reachable (E := E) (w := run E { now := now } ops) ⟨now, ops, rfl⟩
    obtain ⟨-, -, h3⟩ := step_spec hw (sidClosed_true E) op (fun _ _ _ => trivial)
    have old : e ∈ (run E { now := now } ops).log → ∃ pre op' post, ops ++ [op] = pre ++ op' :: post ∧
        (step E (run E { now := now } pre) op').log = (run E { now := now } pre).log ++ [e] := fun h => by
      obtain ⟨pre, op', post, h1, h2⟩ := ih h
      exact ⟨pre, op', post ++ [op], by rw [h1]; simp, h2⟩
    rw [hr] at he
    rcases h3 with h3 | ⟨e', h3, -⟩
    · rw [h3] at he; exact old he
    · rw [h3, List.mem_append, List.mem_singleton] at he
      rcases he with he | he
      · exact old he
      · exact ⟨ops, op, [], rfl, by rw [he]; exact h3⟩

/-- A parsed request belongs to a client that may use its grant type. -/
def Entitled (E : Env) (req : TokenReq) : Prop :=
  ∃ c gt cl, req.clientId = some c ∧ req.grantType = some gt ∧ E.cfg.cdb.get? c = some cl ∧ grantTypeRefused cl gt = false

theorem codeParseW_same {E : Env} {w : World} {req r : TokenReq} {w' : World} {c : String} (hc : req.clientId = some c)
    (h : codeParseW E w req = (.ok (.req r), w')) : r = req := by
  unfold codeParseW at h
  split at h
  · cases h
  · split at h
    · split at h <;> cases h
    · simp only [Prod.mk.injEq] at h
      obtain ⟨h, -⟩ := h
      unfold codeParse at h
      rw [hc] at h
      simp only [] at h
      repeat' split at h
      all_goals first | (cases h; done) | (cases h; rfl)

theorem refreshParseW_same {E : Env} {w : World} {req r : TokenReq} (h : refreshParseW E w req = .ok (.req r)) : r = req := by
  unfold refreshParseW refreshParse at h
  repeat' split at h
  all_goals first | (cases h; done) | (cases h; rfl)

theorem tokenParse_entitled {E : Env} {w : World} {req r : TokenReq} {w' : World} {c : String} (hc : req.clientId = some c)
    (h : tokenParse E w c req = (.ok (.req r), w')) : Entitled E r := by
  unfold tokenParse at h
  split at h
  · cases h
  · rename_i gt hgt
    split at h
    · cases h
    · rename_i cl hcl
      split at h
      · cases h
      · rename_i hgr
        have hgr : grantTypeRefused cl gt = false := by simpa using hgr
        split at h
        · have := codeParseW_same hc h
          subst this
          exact ⟨c, gt, cl, hc, hgt, hcl, hgr⟩
        · split at h
          · simp only [Prod.mk.injEq] at h
            have := refreshParseW_same h.1
            subst this
            exact ⟨c, gt, cl, hc, hgt, hcl, hgr⟩
          · cases h

theorem pool_entitled (E : Env) (now : Int) (ops : List WOp) :
    ∀ req ∈ (run E { now := now } ops).pool, Entitled E req := by
  induction ops using List.reverseRecOn with
  | nil => intro req h; simp [run] at h
  | append_singleton ops op ih =>
    have hr : run E { now := now } (ops ++ [op]) = step E (run E { now := now } ops) op := by simp [run]
    have hw := winv_reachable (E := E) (w := run E { now := now } ops) ⟨now, ops, rfl⟩
    rw [hr]
    generalize run E { now := now } ops = w at *
    have same : ∀ w' : World, w'.pool = w.pool → ∀ req ∈ w'.pool, Entitled E req := fun w' h req hm => ih req (h ▸ hm)
    cases op with
    | tick d => exact ih
    | login u c req ev => exact ih
    | again u c req ev => exact ih
    | addGrant u c g => exact ih
    | authorize sid req => exact same _ (authzPart2_spec E (fun _ => True) w sid trivial req).2.1
    | parse client req =>
      intro req' hm
      simp only [step] at hm
      have h2 := (tokenParse_spec E (fun _ => True) w client { req with clientId := some client }).2.1
      split at hm
      · rename_i r w' hp
        rw [hp] at h2
        simp only [List.mem_append, List.mem_singleton] at hm
        rcases hm with hm | hm
        · exact same _ h2 _ hm
        · subst hm; exact tokenParse_entitled rfl hp
      · rename_i r w' _ hp
        rw [hp] at h2
        exact same _ h2 _ hm
    | process i kw =>
      intro req' hm
      simp only [step] at hm
      split at hm
      · exact ih _ hm
      · rename_i req hi
        exact same _ (tokenProcess_spec hw (sidClosed_true E) kw (List.mem_of_getElem? hi)).2.1 _ hm
    | revokeToken sid v rec => exact same _ (revokeTokenW_chain E (fun _ => True) w sid v rec).2.1
    | revokeGrant sid =>
      refine same _ ?_
      simp only [step, revokeGrantW]
      repeat' split
      all_goals rfl
    | revokeClientSession sid =>
      refine same _ ?_
      simp only [step, revokeClientSessionW]
      repeat' split
      all_goals rfl
    | removeSession sid =>
      refine same _ ?_
      simp only [step, removeSessionW]
      repeat' split
      all_goals rfl

/-- C78. Whenever, in any history, a token response has a refresh token: it was asked for; the code or refresh token that
was presented has usage rules that allow minting refresh tokens; and the client may use the grant type. -/
theorem C78_only_when_allowed (E : Env) (now : Int) (ops : List WOp) (ref : Nat) (client : String) (rf : Bool) (v : String)
    (req : TokenReq) (r : TokenResp) (he : .token ref client rf v req r ∈ (run E { now := now } ops).log)
    (x : String) (hx : r.refreshToken = some x) :
    ∃ pre i kw post, ops = pre ++ .process i kw :: post ∧ RefreshAsked E.cfg.flavor kw r.scope ∧
      (∃ j t, TokenAt (run E { now := now } pre) ref j t ∧ t.value = v ∧
        ∃ l, t.rules.supportsMinting = some l ∧ .refreshToken ∈ l) ∧
      (rf = false → GrantTypeOpen E.cfg client "refresh_token") := by
  obtain ⟨pre, op, post, hops, hlog⟩ := answer_step E now ops _ he
  have hw := winv_reachable (E := E) (w := run E { now := now } pre) ⟨now, pre, rfl⟩
  obtain ⟨hc, -, h3⟩ := step_spec hw (sidClosed_true E) op (fun _ _ _ => trivial)
  rcases h3 with h3 | ⟨e', h3, hne⟩
  · rw [h3] at hlog; simp at hlog
  · have : e' = .token ref client rf v req r := by rw [h3] at hlog; simpa using hlog
    subst this
    rcases hne with ⟨_, _, _, _, h, _⟩ | ⟨s, rf', v', req', r', a, he', hp, ha, hout⟩
    · cases h
    · cases he'
      cases op with
      | process i kw =>
        refine ⟨pre, i, kw, post, hops, ?_⟩
        simp only [step] at hlog
        cases hi : (run E { now := now } pre).pool[i]? with
        | none => rw [hi] at hlog; simp at hlog
        | some rq =>
          rw [hi] at hlog
          obtain ⟨h4, h5⟩ := tokenProcess_refresh hlog hx
          refine ⟨h4, ?_, h5⟩
          have hat := sessionByToken_grantAt hout.sess
          obtain ⟨gs, hgs, hf, ht⟩ := hout.out
          have fin : ∀ b, s.grant.getToken v = some b → MayMint b .refreshToken →
              ∃ j t, TokenAt (run E { now := now } pre) s.ref j t ∧ t.value = v ∧
                ∃ l, t.rules.supportsMinting = some l ∧ .refreshToken ∈ l := by
            intro b hb hm
            obtain ⟨h6, h7⟩ := getToken_mem hb
            obtain ⟨j, hj⟩ := List.getElem?_of_mem h6
            exact ⟨j, b, ⟨s.grant, grantAt_spec.2 hat, hj⟩, h7, hm⟩
          cases rf with
          | false =>
            obtain ⟨-, -, hco⟩ := hf rfl
            obtain ⟨b, b', h6, -, -, -, h7, -⟩ := hco.base
            exact fin b h6 (h7 x hx).2.2
          | true =>
            obtain ⟨-, -, hro⟩ := ht rfl
            obtain ⟨b, b', _, _, h6, -, -, -, -, -, -, -, h7, -⟩ := hro.base
            exact fin b h6 (h7 x hx).2
      | parse c rq =>
        exfalso
        have h2 := (tokenParse_spec E (fun _ => True) (run E { now := now } pre) c { rq with clientId := some c }).2.2.1
        simp only [step] at hlog
        split at hlog
        · rename_i hp
          rw [hp] at h2
          simp only [] at h2 hlog
          rw [h2] at hlog; simp at hlog
        · rename_i hp
          rw [hp] at h2
          simp only [] at h2 hlog
          rw [h2] at hlog; simp at hlog
      | authorize sid rq =>
        exfalso
        rcases (authzPart2_spec E (fun _ => True) (run E { now := now } pre) sid trivial rq).2.2 with h | ⟨_, _, _, h, _⟩
        · simp only [step] at hlog; rw [h] at hlog; simp at hlog
        · simp only [step] at hlog; rw [h] at hlog; simp at hlog
      | tick d => simp [step] at hlog
      | login u c req ev => simp [step, authzCreateSession] at hlog
      | again u c req ev => simp [step, authzCreateGrant] at hlog
      | addGrant u c g => simp [step] at hlog
      | revokeToken sid v rec =>
        have := (revokeTokenW_chain E (fun _ => True) (run E { now := now } pre) sid v rec).2.2
        simp only [step] at hlog; rw [this] at hlog; simp at hlog
      | revokeGrant sid =>
        exfalso
        simp only [step, revokeGrantW] at hlog
        repeat' split at hlog
        all_goals simp at hlog
      | revokeClientSession sid =>
        exfalso
        simp only [step, revokeClientSessionW] at hlog
        repeat' split at hlog
        all_goals simp at hlog
      | removeSession sid =>
        exfalso
        simp only [step, removeSessionW] at hlog
        repeat' split at hlog
        all_goals simp at hlog

/-- C78. As long as the server does not override it, the OpenID Connect token endpoint gives refresh tokens only with
responses whose scope has `offline_access`, -/
theorem C78_offline_access (E : Env) (now : Int) (ops : List WOp) (hno : NoOverride ops) (ref : Nat) (client : String)
    (rf : Bool) (v : String) (req : TokenReq) (r : TokenResp)
    (he : .token ref client rf v req r ∈ (run E { now := now } ops).log) (hx : r.refreshToken ≠ none) :
    E.cfg.flavor = .oidc ∧ "offline_access" ∈ r.scope := by
  obtain ⟨x, hx⟩ := Option.ne_none_iff_exists'.1 hx
  obtain ⟨pre, i, kw, post, hops, h1, -⟩ := C78_only_when_allowed E now ops ref client rf v req r he x hx
  have := hno i kw (by rw [hops]; simp)
  subst this
  rcases h1 with h1 | h1
  · cases h1
  · exact h1.2

/-- and the plain OAuth2 one gives none at all. -/
theorem C78_oauth2_none (E : Env) (now : Int) (ops : List WOp) (hno : NoOverride ops) (hf : E.cfg.flavor = .oauth2)
    (ref : Nat) (client : String) (rf : Bool) (v : String) (req : TokenReq) (r : TokenResp)
    (he : .token ref client rf v req r ∈ (run E { now := now } ops).log) : r.refreshToken = none := by
  cases hr : r.refreshToken with
  | none => rfl
  | some x =>
    have := (C78_offline_access E now ops hno ref client rf v req r he (by simp [hr])).1
    rw [hf] at this
    cases this

/-- C78. A client that has its own list of grant types gets token responses only for the grant types on its list. -/
theorem C78_grant_type (E : Env) (now : Int) (ops : List WOp) (ref : Nat) (client : String) (rf : Bool) (v : String)
    (req : TokenReq) (r : TokenResp) (he : .token ref client rf v req r ∈ (run E { now := now } ops).log) :
    ∃ cl, E.cfg.cdb.get? client = some cl ∧ ∀ l, cl.grantTypes = some l →
      (if rf then "refresh_token" else "authorization_code") ∈ l := by
  obtain ⟨pre, op, post, hops, hlog⟩ := answer_step E now ops _ he
  have hw := winv_reachable (E := E) (w := run E { now := now } pre) ⟨now, pre, rfl⟩
  obtain ⟨hc, -, h3⟩ := step_spec hw (sidClosed_true E) op (fun _ _ _ => trivial)
  rcases h3 with h3 | ⟨e', h3, hne⟩
  · rw [h3] at hlog; simp at hlog
  · have : e' = .token ref client rf v req r := by rw [h3] at hlog; simpa using hlog
    subst this
    rcases hne with ⟨_, _, _, _, h, _⟩ | ⟨s, rf', v', req', r', a, he', hp, ha, hout⟩
    · cases h
    · cases he'
      obtain ⟨c, gt, cl, e1, e2, e3, e4⟩ := pool_entitled E now pre _ hp
      obtain ⟨gs, hgs, hf, ht⟩ := hout.out
      have key : req.clientId = some s.client ∧
          req.grantType = some (if rf then "refresh_token" else "authorization_code") := by
        cases rf with
        | false => obtain ⟨a, -, b⟩ := hf rfl; exact ⟨b.client, a⟩
        | true => obtain ⟨a, -, b⟩ := ht rfl; exact ⟨b.client, a⟩
      rw [key.1] at e1
      rw [key.2] at e2
      cases e1
      cases e2
      refine ⟨cl, e3, fun l hl => ?_⟩
      unfold grantTypeRefused at e4
      rw [hl] at e4
      simpa using e4

end OidcOp

namespace OidcOp.Ex
open OidcOp Spec

/-- Whether a token response has a refresh token. -/
def withRefresh : Event → Bool
  | .token _ _ _ _ _ r => r.refreshToken.isSome && decide ("offline_access" ∈ r.scope)
  | _ => false

/-- The history of one code exchange has a response with a refresh token, and the server overrode nothing. -/
example : NoOverride (start "c1") ∧ (run E init (start "c1")).log.any withRefresh = true :=
  ⟨by intro i kw h; simp [start] at h; exact h.2, by decide +kernel⟩

/-- Without `offline_access` the same history has a token response without a refresh token. -/
def online : List WOp :=
  [.login "d" "c1" { authzReq "c1" with scope := some ["openid"] } event,
   .authorize (sid "c1" 0) { authzReq "c1" with scope := some ["openid"] },
   .parse "c1" (codeReq (E.mkVal 1 .authorizationCode (sid "c1" 0))), .process 0 none]

example : (run E init online).log.length = 2 ∧ (run E init online).log.any withRefresh = false := by decide +kernel

/-- The server's `issue_refresh` counts, with and without `offline_access`. -/
example : (run E init (online.dropLast ++ [.process 0 (some true)])).log.any (fun e => match e with
    | .token _ _ _ _ _ r => r.refreshToken.isSome
    | _ => false) = true := by decide +kernel

example : (run E init ((start "c1").dropLast ++ [.process 0 (some false)])).log.length = 2 ∧
    (run E init ((start "c1").dropLast ++ [.process 0 (some false)])).log.any withRefresh = false := by decide +kernel

end OidcOp.Ex
