/-
C125: a client that refreshes in time stays served, however often it does.
-/
import Verif.Spec.Staying
import Verif.Props.CodeFlow
import Verif.Props.Depth
import Verif.Props.Resource

namespace OidcOp
open Spec

/-- What remains of `HoldsRefresh` from one refresh to the next: all but the ends of the token and of the grant. -/
structure Holding (E : Env) (w : World) (s : Sess) (t : Token) (sc : List String) : Prop where
  leads : sessionByToken E w t.value = .ok s
  held : t ∈ s.grant.issuedToken
  cls : t.cls = .refreshToken
  alive : t.revoked = false ∧ (∀ k, t.rules.maxUsage = some k → (t.used : Int) < k) ∧ (t.notBefore ≠ 0 → t.notBefore ≤ w.now)
  grant : s.grant.revoked = false ∧ (s.grant.notBefore ≠ 0 → s.grant.notBefore ≤ w.now)
  unlimited : s.grant.maxUsage = none
  mints : ∃ l, t.rules.supportsMinting = some l ∧ TokenClass.accessToken ∈ l ∧ TokenClass.refreshToken ∈ l
  scope : t.scope = sc
  base : EffScope s.grant t.basedOn sc

theorem run_reachable {E : Env} {w : World} (hw : Reachable E w) (ops : List WOp) : Reachable E (run E w ops) := by
  obtain ⟨now, ops', h⟩ := hw
  exact ⟨now, ops' ++ ops, by rw [h]; simp [run]⟩

theorem run_now {E : Env} {w : World} (hw : Reachable E w) (ops : List WOp) : w.now ≤ (run E w ops).now := by
  induction ops generalizing w with
  | nil => exact Int.le_refl _
  | cons op ops ih =>
    have h1 := step_now E hw op
    have h2 := ih (w := step E w op) (run_reachable hw [op])
    exact Int.le_trans h1 h2

/-- One round. -/
theorem holding_round {E : Env} {w : World} (hw : Reachable E w) {s : Sess} {t : Token} {sc : List String} (h : Holding E w s t sc)
    (hopen : NotExcluded E.cfg s.client "refresh_token") (hask : RefreshAsked E.cfg.flavor none sc) (hne : sc ≠ [])
    (hlives : AccessLives s.grant.usageRules)
    (hprop : ∀ restr, s.grant.claims.get? "userinfo" = some restr → restr.keys.Nodup ∧ ∀ k spec, (k, spec) ∈ restr → ProperSpec spec)
    {ev : AuthnEvent} (hev : s.grant.authnEvent = some ev) {ops : List WOp} (hc : ComesInTime E t.value w ops) :
    ∃ (ref : Nat) (q : TokenReq) (r : TokenResp) (a v' : String) (g' : Grant) (t' : Token),
      (refreshed E s.client t.value w ops).log = (run E w ops).log ++ [.token ref s.client true t.value q r] ∧
      r.accessToken = some a ∧ r.refreshToken = some v' ∧ r.scope = sc ∧
      ((refreshed E s.client t.value w ops).now ≤ ev.validUntil → ∀ db, ∃ info,
        userinfoProcess E (some db) (refreshed E s.client t.value w ops) a = .ok (.claims info s.client) ∧
          info.get? "sub" = some (.str s.grant.sub)) ∧
      t'.value = v' ∧ Holding E (refreshed E s.client t.value w ops) { s with grant := g' } t' sc ∧ Reachable E (refreshed E s.client t.value w ops) ∧
      g'.usageRules = s.grant.usageRules ∧ g'.claims = s.grant.claims ∧ g'.authnEvent = s.grant.authnEvent ∧ g'.sub = s.grant.sub := by
  have hw1 := run_reachable hw ops
  have hnow1 := run_now hw ops
  have hs1 : sessionByToken E (run E w ops) t.value = .ok s := by rw [hc.same]; exact h.leads
  have htok := hc.token s h.leads t h.held rfl
  have hgr := hc.grant s h.leads
  obtain ⟨hh, hread⟩ := hc.handlers s h.leads
  have hw2 : Reachable E (refreshed E s.client t.value w ops) := run_reachable hw1 _
  unfold refreshed at hw2 ⊢
  generalize run E w ops = w1 at *
  obtain ⟨i, hi⟩ := List.getElem?_of_mem h.held
  obtain ⟨l, hl, hla, hlr⟩ := h.mints
  have hlive : Live w1 s i t l := by
    refine ⟨hi, ⟨h.alive.1, h.alive.2.1, fun hx => Int.le_trans (h.alive.2.2 hx) hnow1, htok⟩,
      ⟨h.grant.1, ?_, fun hx => Int.le_trans (h.grant.2 hx) hnow1, hgr⟩, h.unlimited, hl, hla⟩
    intro k hk
    have : s.grant.maxUsage = some k := hk
    rw [h.unlimited] at this; cases this
  have hagain : refreshAgain E.cfg none l sc = true := by
    unfold refreshAgain
    rw [Bool.and_eq_true, decide_eq_true_eq, issueRefresh_iff]
    exact ⟨hlr, hask⟩
  obtain ⟨r, gs, t1, idt, hrun, hra, hrs, hrr, -, hts, k1, -, hidt, hn, hg, k2, k3, k4, k5, k6, k7⟩ :=
    refresh_run E w1 hw1 none (refreshWith t.value) t.value s i t l sc rfl hopen rfl hs1 hlive rfl h.cls h.base
      (fun _ hx => by cases hx) hh
  simp only [refreshWith, Option.getD_none, hagain, if_true] at hts hrr hrs
  have hf := madeToken_fields w1.now s.grant .refreshToken t (E.mkVal (w1.n + 1) .refreshToken s.sid) sc ""
  generalize hnx : nextRefresh w1.now s.grant t (E.mkVal (w1.n + 1) .refreshToken s.sid) sc = nx at hts
  have hsplit : ∃ ts', gs.g.issuedToken = ts' ++ t1 :: ([nx] ++ idt) ∧ ∃ t', t' ∈ ts' ∧ t'.value = t.value ∧ t'.scope = t.scope := by
    rw [hts]
    have e1 : modifyFirst t.value Token.registerUsage (s.grant.issuedToken ++ t1 :: ([nx] ++ idt)) =
        modifyFirst t.value Token.registerUsage s.grant.issuedToken ++ t1 :: ([nx] ++ idt) := modifyFirst_append ⟨t, h.held, rfl⟩
    obtain ⟨t', ht', hor⟩ := modifyFirst_keeps (v := t.value) (f := Token.registerUsage) h.held
    have hv' : t'.value = t.value ∧ t'.scope = t.scope := by rcases hor with rfl | rfl <;> exact ⟨rfl, rfl⟩
    unfold afterRefresh
    cases revokeRefreshFor E.cfg (some s.client) with
    | false =>
      simp only [Bool.false_eq_true, if_false]
      exact ⟨_, e1, t', ht', hv'⟩
    | true =>
      simp only [if_true]
      rw [e1, modifyFirst_append ⟨t', ht', hv'.1⟩]
      obtain ⟨t'', ht'', hor'⟩ := modifyFirst_keeps (v := t.value) (f := Token.revoke) ht'
      refine ⟨_, rfl, t'', ht'', ?_⟩
      rcases hor' with rfl | rfl <;> exact hv'
  obtain ⟨ts', hts', t', ht', hv', hsc'⟩ := hsplit
  have hn' : nx.cls = .refreshToken ∧ nx.value = E.mkVal (w1.n + 1) .refreshToken s.sid ∧ nx.basedOn = some t.value ∧ nx.scope = sc ∧
      nx.used = 0 ∧ nx.revoked = false ∧ nx.notBefore = 0 ∧ nx.rules = t.rules := by
    subst hnx
    exact ⟨hf.1, hf.2.1, hf.2.2.1, hf.2.2.2.1, hf.2.2.2.2.1, hf.2.2.2.2.2.1, hf.2.2.2.2.2.2.1, rfl⟩
  obtain ⟨n1, n2, n3, n4, n5, n6, n7, n8⟩ := hn'
  have hw1' : HandlersWork E { w1 with pool := w1.pool ++ [{ refreshWith t.value with clientId := some s.client }] } s :=
    ⟨hh.make, hh.read, hh.named, hh.plain, hh.own⟩
  have hsess : ∀ {x : String}, E.info x w1.now = .ok (some s.sid) →
      sessionByToken E (run E w1 [.parse s.client (refreshWith t.value), .process w1.pool.length none]) x = .ok { s with grant := gs.g } := by
    intro x hx
    rw [hrun]
    exact commit_session (w := { w1 with pool := w1.pool ++ [{ refreshWith t.value with clientId := some s.client }] }) hs1 hw1' gs hx
  have hnow : (run E w1 [.parse s.client (refreshWith t.value), .process w1.pool.length none]).now = w1.now := by rw [hrun]; rfl
  have hgf : gs.g.usageRules = s.grant.usageRules ∧ gs.g.claims = s.grant.claims ∧ gs.g.authnEvent = s.grant.authnEvent ∧
      gs.g.sub = s.grant.sub ∧ gs.g.revoked = s.grant.revoked ∧ gs.g.notBefore = s.grant.notBefore ∧ gs.g.maxUsage = s.grant.maxUsage := by
    rw [hg]; exact ⟨rfl, rfl, rfl, rfl, rfl, rfl, rfl⟩
  obtain ⟨f1, f2, f3, f4, f5, f6, f7⟩ := hgf
  have hacc := hsess (hh.read w1.n (Nat.le_refl _))
  refine ⟨s.ref, _, r, _, _, gs.g, nx, by rw [hrun], hra, hrr, hrs, ?_, n2, ?_, hw2, f1, f2, f3, f4⟩
  · intro hval db
    obtain ⟨info, hinfo, -⟩ := C45_live_token_answered E db _ hw2 _ _ hacc t1 (by show t1 ∈ gs.g.issuedToken; rw [hts']; simp) k1 k2
      (by rw [hnow]; exact access_active hlives k3 k4 k5 k6 k7) ev (by show gs.g.authnEvent = _; rw [f3]; exact hev) hval
      (by
        intro restr kk spec hr hk
        have hr' : gs.g.claims.get? "userinfo" = some restr := hr
        rw [f2] at hr'
        exact (hprop restr hr').2 kk spec hk)
      (by
        intro restr hr
        have hr' : gs.g.claims.get? "userinfo" = some restr := hr
        rw [f2] at hr'
        exact (hprop restr hr').1)
    refine ⟨info, hinfo, ?_⟩
    obtain ⟨s', -, ev', hs', -, -, -, hev', -, hi', -⟩ := userinfo_session hinfo
    rw [hacc] at hs'
    cases hs'
    obtain ⟨-, -, hsub, -⟩ := userinfoClaims_spec hev' hi'
    rw [hsub, show ({ s with grant := gs.g } : Sess).grant.sub = s.grant.sub from f4]
  · refine ⟨by rw [n2]; exact hsess (hread _ (by omega)), by show nx ∈ gs.g.issuedToken; rw [hts']; simp, n1,
      ⟨n6, ?_, fun hx => absurd n7 hx⟩, ⟨f5.trans h.grant.1, fun hx => ?_⟩, f7.trans h.unlimited, ⟨l, by rw [n8]; exact hl, hla, hlr⟩, n4, ?_⟩
    · intro k hk
      rw [n8] at hk
      have := h.alive.2.1 k hk
      rw [n5]
      omega
    · have hx' : gs.g.notBefore ≠ 0 := hx
      rw [f6] at hx'
      show gs.g.notBefore ≤ _
      rw [f6, hnow]
      exact Int.le_trans (h.grant.2 hx') hnow1
    · show EffScope gs.g nx.basedOn sc
      rw [n3, ← hv']
      have : t'.scope = sc := hsc'.trans h.scope
      rw [← this]
      exact .own (by rw [hts']; simp [ht']) (by rw [this]; exact hne)

/-- C125.  In any state that the provider can be in, a client holds a live refresh token of a session.  It comes again and again to
refresh, each time with the refresh token of the last response, before it and the grant have ended; whatever happens in between, as
long as nothing is done to this session.  Then each time, however often it comes, it is given an access token and a refresh token with
the scope it had; and as long as the login lives the user info endpoint has claims about the user for the access token. -/
theorem C125_stays_served (E : Env) (w : World) (hw : Reachable E w) (s : Sess) (t : Token) (sc : List String)
    (h : HoldsRefresh E w s t sc) (hopen : NotExcluded E.cfg s.client "refresh_token") (hask : RefreshAsked E.cfg.flavor none sc)
    (hlives : AccessLives s.grant.usageRules)
    (hprop : ∀ restr, s.grant.claims.get? "userinfo" = some restr → restr.keys.Nodup ∧ ∀ k spec, (k, spec) ∈ restr → ProperSpec spec)
    (ev : AuthnEvent) (hev : s.grant.authnEvent = some ev) (rounds : List (List WOp))
    (hc : KeepsComing E s.client w t.value rounds) : KeepsBeingServed E s.client sc ev s.grant.sub w t.value rounds := by
  have hne : sc ≠ [] := by
    rintro rfl
    rcases hask with h | ⟨-, -, h⟩ <;> cases h
  have h0 : Holding E w s t sc := ⟨h.leads, h.held, h.cls, ⟨h.active.1, h.active.2.1, h.active.2.2.1⟩, ⟨h.grant.1, h.grant.2.2.1⟩,
    h.unlimited, h.mints, h.scope, h.base⟩
  clear h
  induction rounds generalizing w s t with
  | nil => exact .done
  | cons ops rest ih =>
    cases hc with
    | round hin hrest =>
      obtain ⟨ref, q, r, a, v', g', t', h1, h2, h3, h4, h5, rfl, h7, h8, f1, f2, f3, f4⟩ :=
        holding_round hw h0 hopen hask hne hlives hprop hev hin
      refine .round h1 h2 h3 h4 h5 ?_
      have := ih _ h8 { s with grant := g' } t' hopen (by show AccessLives g'.usageRules; rw [f1]; exact hlives)
        (by show ∀ restr, g'.claims.get? "userinfo" = _ → _; rw [f2]; exact hprop) (by show g'.authnEvent = _; rw [f3]; exact hev)
        (hrest ref q r _ (by rw [h1]; simp) h3) h7
      rw [show ({ s with grant := g' } : Sess).grant.sub = s.grant.sub from f4] at this
      exact this

/-- A refresh token that is not used up from the beginning is active when it is made. -/
theorem refresh_active {g : Grant} {t : Token} {now : Int} (hl : RefreshLives g.usageRules) (hu : t.used = 0) (hr : t.revoked = false)
    (hb : t.notBefore = 0) (he : t.expiresAt = endOf now (g.rulesFor .refreshToken))
    (hru : t.rules = setDefaults .refreshToken ((g.rulesFor .refreshToken).getD {})) : ItemActive t.item now := by
  refine ⟨hr, ?_, fun h => absurd hb h, ?_⟩
  · intro k hk
    have hk' : t.rules.maxUsage = some k := hk
    show (t.used : Int) < k
    rw [hu]
    rw [hru] at hk'
    cases hx : g.rulesFor .refreshToken with
    | none => rw [hx] at hk'; cases hk'
    | some r =>
      rw [hx] at hk'
      exact hl.uses r k (by rw [lookup_rulesFor, hx]) hk'
  · intro h
    have he' : t.item.expiresAt = endOf now (g.rulesFor .refreshToken) := he
    rw [he'] at h ⊢
    unfold endOf at h ⊢
    cases hx : expIn (g.rulesFor .refreshToken) with
    | none => rw [hx] at h; exact absurd rfl h
    | some x =>
      rw [hx] at h
      simp only [] at h ⊢
      by_cases h0 : x = 0
      · rw [if_pos h0] at h; exact absurd rfl h
      · rw [if_neg h0]
        have : 0 ≤ x := by
          apply hl.life
          unfold expIn at hx
          cases hq : g.rulesFor .refreshToken with
          | none => rw [hq] at hx; cases hx; exact .inr ⟨.inl (by rw [lookup_rulesFor, hq]), rfl⟩
          | some r =>
            rw [hq] at hx
            simp only [] at hx
            by_cases hn : r.nonempty = true
            · rw [if_pos hn] at hx
              exact .inl ⟨r, by rw [lookup_rulesFor, hq], hx⟩
            · rw [if_neg hn] at hx
              cases hx
              refine .inr ⟨.inr ?_, rfl⟩
              rw [lookup_rulesFor, hq]
              obtain ⟨a, b, e⟩ := r
              unfold UsageRules.nonempty at hn
              simp at hn
              obtain ⟨⟨rfl, rfl⟩, rfl⟩ := hn
              rfl
        omega

/-- C125, from the login on, for names as in C68.  After any history of the provider a login page is there for a request for a code, and
a user logs in on it; the code is exchanged as in C121, for tokens one of which is a refresh token.  Then, however often the client comes to
refresh, each time before the refresh token and the grant have ended, and whatever happens in between, it is given an access token and a
refresh token with the scope that was asked for in the beginning; and as long as the login lives the user info endpoint has claims about
the user for the access token. -/
theorem C125_from_login (p : Prov) (U : String → Prop) (hn : Names p U) (now : Int) (ops later : List POp) (i : Nat) (user client : String)
    (hf : ∀ op ∈ ops ++ .loggedIn i user :: later, FairP p U op) (s0 s1 s2 : PState) (h0 : s0 = provHistory p now ops)
    (h1 : s1 = provHistory p now (ops ++ [.loggedIn i user])) (h2 : s2 = provHistory p now (ops ++ .loggedIn i user :: later))
    (req : AuthzReq) (m : AuthnMethod) (hpage : s0.pending[i]? = some (req, m)) (hc : req.clientId = some client)
    (hrt : req.responseType = ["code"]) (asked : List String) (hasked : req.scope = some asked)
    (hdel : p.E.deliverable req = true) (hcl : ClaimsWork p.E) (hh : HandlersDo p.E s2.w.now)
    (hread : ∀ k sid, p.E.info (p.E.mkVal k .refreshToken sid) s2.w.now = .ok (some sid))
    (hexp : ∀ n, p.E.authz.expiresIn = some n → 0 ≤ n) (hopen : NotExcluded p.E.cfg client "authorization_code")
    (hopen2 : NotExcluded p.E.cfg client "refresh_token") (hopen3 : GrantTypeOpen p.E.cfg client "refresh_token")
    (mints : List TokenClass) (hm : ExchangedFor (p.E.authz.rulesOf (some client)) mints) (hat : TokenClass.accessToken ∈ mints)
    (hrf : TokenClass.refreshToken ∈ mints) (hask : RefreshAsked p.E.cfg.flavor none asked)
    (hlives : AccessLives (p.E.authz.rulesOf (some client))) (hrl : RefreshLives (p.E.authz.rulesOf (some client)))
    (hrm : RefreshedFor (p.E.authz.rulesOf (some client))) :
    ∃ ref code r, s1.w.log = s0.w.log ++ [.authz ref client r] ∧ r.code = some code ∧
      (found s2.w.st (.gra user client (p.E.uuid s0.w.n)) = found s1.w.st (.gra user client (p.E.uuid s0.w.n)) → InTime p.E client m s0.w.now s2.w.now →
        ∀ treq, GoesWith p req code treq → ∀ s3,
          s3 = provHistory p now (ops ++ .loggedIn i user :: later ++ [.token client treq, .redeem s2.w.pool.length none]) →
          ∃ ref' r' v, s3.w.log = s2.w.log ++ [.token ref' client false code { treq with clientId := some client } r'] ∧
            r'.refreshToken = some v ∧ r'.scope = asked ∧
            ∀ rounds, KeepsComing p.E client s3.w v rounds →
              KeepsBeingServed p.E client asked (loginEvent m s0.w.now user) (p.E.subOf user req) s3.w v rounds) := by
  have hu : U user := hf (.loggedIn i user) (by simp)
  have hinv0 := pinv_history hn (passing_vetted p (names_ne hn)) now ops (fun o ho => hf o (by simp [ho]))
  rw [← h0] at hinv0
  obtain ⟨sid, ref, r, g, hgood, hsid, hlog, hr0, -, hr2, hr3, hr4, -, -, hfound, hcg⟩ :=
    login_flow hn hinv0 hpage hu hc (by rw [hrt]; decide) (by rw [hrt]; intro x hx; simp at hx; exact .inl hx) hasked hdel hcl hh.make hexp
  have hs1 : s1 = provStep p s0 (.loggedIn i user) := by rw [h1, codeHistory_snoc, h0]
  rw [← hs1] at hlog hfound
  have hiss := hr4 (by rw [hrt]; decide)
  obtain ⟨k, t, hcode, -⟩ := id hiss
  rw [hcode] at hiss
  have hne : asked ≠ [] := by
    rintro rfl
    rcases hask with h | ⟨-, -, h⟩ <;> cases h
  refine ⟨ref, _, r, hlog, hcode, ?_⟩
  intro hsame hin treq hgo s3 hs3
  rw [hfound] at hsame
  obtain ⟨ref', r', a, info, e1, e2, e3, e4, -, -, -, hreach, hnow3, e5⟩ :=
    flow_exchange' hn hf hu hgood hsid h2 hasked hcl hh hopen hm hat hlives hsame hcg hin hiss hgo none [] hs3
  obtain ⟨v, hv⟩ := Option.isSome_iff_exists.1 (e4.2 ⟨hask, hrf, hopen3⟩)
  obtain ⟨n, g', t2, rfl, q0, q1, q2, q3, q4, q5, q6, q7, q8, f1, f2, f3, f4, f5, f6, f7, f8, hs⟩ := e5 v hv
  refine ⟨ref', r', _, e1, hv, e3, ?_⟩
  intro rounds hk
  obtain ⟨b1, b2⟩ := q8 hne
  obtain ⟨csid, cg, hcl2⟩ := hcg.claims
  have hs := hs (hread _ _)
  rw [← q2] at hs hk ⊢
  have hact : ItemActive t2.item s3.w.now := by
    rw [hnow3]; exact refresh_active (g := g) (by rw [hcg.rules]; exact hrl) q3 q4 q5 q6 q7
  have := C125_stays_served p.E s3.w hreach ⟨sid, user, client, p.E.uuid s0.w.n, ref', g'⟩ t2 asked
    ⟨hs, q0, q1, hact, ?_, by show g'.maxUsage = none; rw [f7]; exact hcg.unlimited, ?_, b1, b2⟩ hopen2 hask
    (by show AccessLives g'.usageRules; rw [f1, hcg.rules]; exact hlives)
    (by
      intro restr hr
      rw [show (Sess.mk sid user client (p.E.uuid s0.w.n) ref' g').grant.claims = g.claims from f2] at hr
      exact hcl.proper _ _ _ _ _ hcl2 hr)
    (loginEvent m s0.w.now user) (by show g'.authnEvent = _; rw [f3]; exact hcg.event) rounds hk
  · rw [show (Sess.mk sid user client (p.E.uuid s0.w.n) ref' g').grant.sub = p.E.subOf user req from f4.trans hcg.sub] at this
    exact this
  · refine ⟨f5.trans hcg.revoked, ?_, fun h => absurd (f6.trans hcg.notBefore) h, ?_⟩
    · intro k hk
      have : g'.maxUsage = some k := hk
      rw [f7, hcg.unlimited] at this; cases this
    · intro h
      have h7 : (Sess.mk sid user client (p.E.uuid s0.w.n) ref' g').grant.item.expiresAt = _ := f8.trans hcg.ends
      rw [h7] at h ⊢
      cases he : p.E.authz.expiresIn with
      | none => rw [he] at h; exact absurd rfl h
      | some x => rw [hnow3]; exact hin.grant x he
  · rw [q7]
    have hlk : g.rulesFor .refreshToken = (p.E.authz.rulesOf (some client)).lookup .refreshToken := by rw [← lookup_rulesFor, hcg.rules]
    rw [hlk]
    cases hx : (p.E.authz.rulesOf (some client)).lookup .refreshToken with
    | none => exact ⟨_, rfl, by decide, by decide⟩
    | some rr =>
      cases hy : rr.supportsMinting with
      | none => exact ⟨[.accessToken, .refreshToken], by simp [setDefaults, hy], by decide, by decide⟩
      | some l => exact ⟨l, by simp [setDefaults, hy], hrm rr l hx hy⟩

namespace Ex

/-- Half an hour; then a login at another client, and nearly a day. -/
def twoRounds : List (List WOp) := [[.tick 1800], [.login "d" "c2" (authzReq "c2") event, .tick 86000]]

instance (x : Item) (now : Int) : Decidable (NotEnded x now) := inferInstanceAs (Decidable (_ → _))

theorem comes_in_time {w : World} {v : String} {ops : List WOp} {s : Sess} (hs : sessionByToken E w v = .ok s)
    (same : sessionByToken E (run E w ops) v = .ok s) (ht : ∀ t ∈ s.grant.issuedToken, t.value = v → NotEnded t.item (run E w ops).now)
    (hg : NotEnded s.grant.item (run E w ops).now) (h1 : s.sid = sid "c1" 0) (h2 : s.user = "d") : ComesInTime E v w ops := by
  refine ⟨by rw [same, hs], ?_, ?_, ?_⟩
  · intro s' hs'; rw [hs] at hs'; cases hs'; exact ht
  · intro s' hs'; rw [hs] at hs'; cases hs'; exact hg
  · intro s' hs'; rw [hs] at hs'; cases hs'
    exact ⟨works h1 h2, fun k _ => info_val _ _ _ _⟩

/-- The state after the first round, and its session. -/
def round1 : World := refreshed E "c1" (E.mkVal 3 .refreshToken (sid "c1" 0)) (run E init (start "c1")) [.tick 1800]

def sess2 : Sess := { sess1 with grant := (round1.st.grantAt 2).getD {} }

/-- C125: the client is served both times. -/
example : KeepsBeingServed E "c1" ["openid", "email", "offline_access"] event "d" (run E init (start "c1"))
    (E.mkVal 3 .refreshToken (sid "c1" 0)) twoRounds := by
  have hval : refresh1.value = E.mkVal 3 .refreshToken (sid "c1" 0) := by decide +kernel
  have hsub : sess1.grant.sub = "d" := by decide +kernel
  have h := C125_stays_served E (run E init (start "c1")) ⟨1000, start "c1", rfl⟩ sess1 refresh1 ["openid", "email", "offline_access"]
    ⟨by rw [hval]; exact sess1_ok, by decide +kernel, by decide +kernel, live1.active, live1.grant, live1.unlimited,
      ⟨_, live1.rules, by decide, by decide⟩, by decide +kernel, eff1⟩
    ⟨{}, by decide +kernel, fun _ h => by cases h⟩ (.inr ⟨rfl, by decide +kernel, by decide⟩)
    (by
      have : sess1.grant.usageRules = [(.authorizationCode, { supportsMinting := some [.accessToken, .refreshToken, .idToken], expiresIn := some 300 }),
          (.accessToken, { expiresIn := some 600 }),
          (.refreshToken, { supportsMinting := some [.accessToken, .refreshToken, .idToken], expiresIn := some 86400 })] := by decide +kernel
      rw [this]
      refine ⟨fun n h => ?_, fun r k h1 h2 => ?_⟩
      · rcases h with ⟨r, h1, h2⟩ | ⟨h1 | h1, -⟩
        · cases h1; cases h2; decide
        · cases h1
        · cases h1
      · cases h1; cases h2)
    (by
      intro restr hr
      rw [show sess1.grant.claims = [] from by decide +kernel] at hr
      cases hr)
    event (by decide +kernel) twoRounds ?_
  · rw [hval, hsub] at h; exact h
  · rw [hval]
    refine .round (comes_in_time sess1_ok (by decide +kernel) (by decide +kernel) (by decide +kernel) rfl rfl) ?_
    intro ref q r v' hlast hr
    have hl : ∃ x, (refreshed E "c1" (E.mkVal 3 .refreshToken (sid "c1" 0)) (run E init (start "c1")) [.tick 1800]).log.getLast? = some x ∧
        (match x with
          | .token _ _ _ _ _ r => r.refreshToken
          | _ => none) = some (E.mkVal 6 .refreshToken (sid "c1" 0)) := by
      refine ⟨_, List.getLast?_eq_some_getLast (by decide +kernel), by decide +kernel⟩
    obtain ⟨x, hx, hx'⟩ := hl
    rw [show sess1.client = "c1" from rfl, hx] at hlast
    cases hlast
    rw [show r.refreshToken = _ from hx'] at hr
    cases hr
    exact .round (comes_in_time (s := sess2) (by decide +kernel) (by decide +kernel) (by decide +kernel) (by decide +kernel) rfl rfl)
      (fun _ _ _ _ _ _ => .done)

/-- The state after the code of `begun` is exchanged, and its session. -/
def exchanged : World := (provHistory prov 1000 (begun ++ .loggedIn 0 "d" :: meanwhile ++
  [.token "c1" (codeReq (E.mkVal 1 .authorizationCode (sid "c1" 0))), .redeem 0 none])).w

def sess3 : Sess := { sess1 with grant := (exchanged.st.grantAt 2).getD {} }

theorem refresh_lives : RefreshLives (E.authz.rulesOf (some "c1")) := by
  refine ⟨fun n h => ?_, fun r k h1 h2 => ?_⟩
  · rcases h with ⟨r, h1, h2⟩ | ⟨h1 | h1, -⟩
    · cases h1; cases h2; decide
    · cases h1
    · cases h1
  · cases h1; cases h2

/-- C125, from the login on: the client comes half an hour after the exchange and is served. -/
example : ∃ ref r' v, exchanged.log.getLast? = some (.token ref "c1" false (E.mkVal 1 .authorizationCode (sid "c1" 0))
      { codeReq (E.mkVal 1 .authorizationCode (sid "c1" 0)) with clientId := some "c1" } r') ∧ r'.refreshToken = some v ∧
    KeepsBeingServed E "c1" ["openid", "email", "offline_access"] (loginEvent { acr := "password" } 1000 "d") "d" exchanged v [[.tick 1800]] := by
  obtain ⟨ref, code, r, h1, h2, h3⟩ := C125_from_login prov isD names_prov 1000 begun meanwhile 0 "d" "c1" fair_meanwhile _ _ _
    rfl rfl rfl (authzReq "c1") { acr := "password" } (by decide +kernel) rfl rfl _ rfl rfl claimsWork (handlersDo _)
    (fun _ _ => info_val _ _ _ _) (fun n h => by cases h) ⟨{}, by decide +kernel, fun _ h => by cases h⟩
    ⟨{}, by decide +kernel, fun _ h => by cases h⟩ ⟨{}, by decide +kernel, by decide +kernel⟩ [.accessToken, .refreshToken, .idToken]
    (.inl ⟨_, rfl, rfl⟩) (by decide) (by decide) (.inr ⟨rfl, by decide +kernel, by decide⟩) lives refresh_lives
    (fun r l h1 h2 => by cases h1; cases h2; decide)
  have hlog : (provHistory prov 1000 (begun ++ [.loggedIn 0 "d"])).w.log = (provHistory prov 1000 begun).w.log ++
      [.authz 2 "c1" { state := some "s", scope := some ["openid", "email", "offline_access"], code := some (E.mkVal 1 .authorizationCode (sid "c1" 0)) }] := by
    decide +kernel
  rw [hlog] at h1
  have h1' := List.append_cancel_left h1
  cases h1'
  cases h2
  have hpool : (provHistory prov 1000 (begun ++ .loggedIn 0 "d" :: meanwhile)).w.pool.length = 0 := by decide +kernel
  have hnow : (provHistory prov 1000 (begun ++ .loggedIn 0 "d" :: meanwhile)).w.now = 1205 := by decide +kernel
  have hnow0 : (provHistory prov 1000 begun).w.now = 1000 := by decide +kernel
  have hin : InTime E "c1" { acr := "password" } (provHistory prov 1000 begun).w.now
      (provHistory prov 1000 (begun ++ .loggedIn 0 "d" :: meanwhile)).w.now := by
    rw [hnow, hnow0]
    refine ⟨fun n h _ => ?_, fun n h => (by cases h), fun n h => ?_⟩
    · obtain ⟨r, h1, h2⟩ := h
      cases h1; cases h2; decide
    · rcases h with ⟨-, rfl⟩ | ⟨h, -⟩
      · decide
      · cases h
  obtain ⟨ref', r', v, g1, g2, g3, g4⟩ := h3 (by decide +kernel) hin (codeReq (E.mkVal 1 .authorizationCode (sid "c1" 0)))
    ⟨rfl, rfl, rfl, fun H P h => by cases h⟩ _ rfl
  rw [hpool] at g1 g4
  change exchanged.log = _ at g1
  change ∀ rounds, KeepsComing E "c1" exchanged v rounds → _ at g4
  rw [hnow0] at g4
  have hl : ∃ x, exchanged.log.getLast? = some x ∧
      (match x with
        | .token _ _ _ _ _ r => r.refreshToken
        | _ => none) = some (E.mkVal 5 .refreshToken (sid "c1" 0)) := by
    refine ⟨_, List.getLast?_eq_some_getLast (by decide +kernel), by decide +kernel⟩
  obtain ⟨x, hx, hx'⟩ := hl
  have hx2 := hx
  rw [g1] at hx2
  simp at hx2
  subst hx2
  rw [show r'.refreshToken = _ from hx'] at g2
  cases g2
  refine ⟨ref', r', _, hx, hx', g4 _ (.round (comes_in_time (s := sess3) ?_ ?_ ?_ ?_ rfl rfl) (fun _ _ _ _ _ _ => .done))⟩
  · decide +kernel
  · decide +kernel
  · decide +kernel
  · decide +kernel

end Ex

end OidcOp
