/-
A live code or refresh token is honoured (C94).
-/
import Verif.Spec.Honoured
import Verif.Lemmas.Honoured
import Verif.Lemmas.Dpop
import Verif.Lemmas.Database
import Verif.Props.World
import Verif.Props.WorldExamples

namespace OidcOp
open Spec

theorem put_same {st : Store} {r : Nat} {g : Grant} (h : st.grantAt r = some g) : st.put r (.grant g) = st := by
  have h1 := grantAt_iff.1 h
  unfold Store.put
  cases st with
  | mk heap db =>
    simp only [Store.mk.injEq, and_true]
    simp only [] at h1
    obtain ⟨hlt, he⟩ := List.getElem?_eq_some_iff.1 h1
    rw [← he]
    exact List.set_getElem_self hlt

theorem commit_self {w : World} {s : Sess} (h : w.st.grantAt s.ref = some s.grant) : w.commit s ⟨s.grant, w.n⟩ = w := by
  unfold World.commit
  simp only [if_true]
  rw [put_same h]

theorem key_ne {k u c : String} (h : ';' ∉ k.toList) : k ≠ key2 u c := by
  rintro rfl
  exact h (by simp [key2])

theorem key_ne' {k u c g : String} (h : ';' ∉ k.toList) : k ≠ key3 u c g := by
  rintro rfl
  exact h (by simp [key3])

/-- Storing another grant in the place of one, and naming it once more, does not change what a path leads to. -/
theorem lookup_putGrant {st : Store} {r : Nat} {g g' : Grant} (h : st.grantAt r = some g) (k : String) :
    (st.put r (.grant g')).lookup k =
      match st.lookup k with
      | none => none
      | some (x, o) => some (x, if x = r then .grant g' else o) := by
  have h1 := grantAt_iff.1 h
  have hlt := (List.getElem?_eq_some_iff.1 h1).1
  unfold Store.lookup Store.put Store.obj
  simp only []
  cases hx : st.db.get? k with
  | none => rfl
  | some x =>
    simp only []
    by_cases hr : x = r
    · subst hr
      rw [List.getElem?_set_self hlt, h1]
      simp
    · rw [List.getElem?_set_ne (fun h => hr h.symm)]
      cases st.heap[x]? with
      | none => rfl
      | some o => simp [hr]

theorem dbGet_put {st : Store} {r : Nat} {g g' : Grant} (h : st.grantAt r = some g) {u c gid : String} {x : Nat}
    (hd : dbGet ⟨u, some c, some gid⟩ st = .ok x) : dbGet ⟨u, some c, some gid⟩ (st.put r (.grant g')) = .ok x := by
  have hg := grantAt_iff.1 h
  have keep : ∀ k y o, st.lookup k = some (y, o) → ∃ o', (st.put r (.grant g')).lookup k = some (y, o') ∧ subordinateOf o' = subordinateOf o := by
    intro k y o hk
    rw [lookup_putGrant h, hk]
    simp only []
    refine ⟨_, rfl, ?_⟩
    split
    · rename_i he
      subst he
      have := (lookup_eq _ _ _ _).1 hk
      rw [hg] at this
      cases this.2
      rfl
    · rfl
  unfold dbGet at hd ⊢
  simp only [] at hd ⊢
  split at hd
  · cases hd
  · rename_i y o hy
    obtain ⟨o', h1, h2⟩ := keep _ _ _ hy
    rw [h1]
    simp only [h2]
    split at hd
    · cases hd
    · rename_i sub hs
      split at hd
      · cases hd
      · rename_i hm
        rw [if_neg hm]
        split at hd
        · cases hd
        · rename_i y2 o2 hy2
          obtain ⟨o2', h3, h4⟩ := keep _ _ _ hy2
          rw [h3]
          simp only [h4]
          split at hd
          · cases hd
          · rename_i sub2 hs2
            split at hd
            · cases hd
            · rename_i hm2
              rw [if_neg hm2]
              split at hd
              · cases hd
              · rename_i y3 o3 hy3
                obtain ⟨o3', h5, _⟩ := keep _ _ _ hy3
                rw [h5]
                exact hd

theorem dbGet_bind {st : Store} {u c gid k : String} {r : Nat} (h1 : k ≠ u) (h2 : k ≠ key2 u c) (h3 : k ≠ key3 u c gid) :
    dbGet ⟨u, some c, some gid⟩ (st.bind k r) = dbGet ⟨u, some c, some gid⟩ st := by
  unfold dbGet
  simp only [lookup_bind_ne _ _ h1, lookup_bind_ne _ _ h2, lookup_bind_ne _ _ h3]

/-- After the tokens are minted the new access token leads to the same session. -/
theorem commit_session {E : Env} {w : World} {s : Sess} {v : String} (hs : sessionByToken E w v = .ok s) (hh : HandlersWork E w s)
    (gs : GS) {a : String} (ha : E.info a w.now = .ok (some s.sid)) :
    sessionByToken E (w.commit s gs) a = .ok { s with grant := gs.g } := by
  obtain ⟨sid, _, hso⟩ := sessionByToken_spec hs
  obtain ⟨h1, h2, h3, h4⟩ := sessionOf_spec hso
  unfold sessionByToken
  rw [show (w.commit s gs).now = w.now from rfl, ha]
  simp only [truthyStr, if_neg hh.named]
  unfold compatibleSid
  rw [unpackSessionKey_clean hh.plain]
  simp only []
  have hd : dbGet ⟨s.user, some s.client, some s.gid⟩ (w.commit s gs).st = .ok s.ref := by
    have := dbGet_put (g' := gs.g) h1 h4
    unfold World.commit
    simp only []
    split
    · exact this
    · show dbGet _ ((w.st.put s.ref (.grant gs.g)).bind s.sid s.ref) = _
      rw [dbGet_bind hh.own (key_ne hh.plain) (key_ne' hh.plain)]
      exact this
  have hg := grantAt_iff.1 (commit_grantAt h1 gs)
  unfold sessionOf
  rw [h2] at *
  rw [h3]
  simp only [hd]
  rw [show (w.commit s gs).st.obj s.ref = (w.commit s gs).st.heap[s.ref]? from rfl, hg]

theorem minter_works {E : Env} {w : World} {s : Sess} (h : HandlersWork E w s) :
    ∀ k c, w.n ≤ k → c.known = true → minter E s.sid k c = .ok (E.mkVal k c s.sid) := by
  intro k c hk hc
  unfold minter
  rw [h.make k c hk hc]

theorem live_openGrant {w : World} {s : Sess} {i : Nat} {t : Token} {mints : List TokenClass} (h : Live w s i t mints) :
    OpenGrant s.grant w.now := ⟨(isActive_clock_iff _ _).2 h.grant, h.unlimited⟩

theorem process_refresh {E : Env} {w : World} {kw : Option Bool} {q : TokenReq} {v a : String} {s s' : Sess} {r : TokenResp} {gs : GS}
    (hgt : q.grantType = some "refresh_token") (hv : q.refreshToken = some v) (hs : sessionByToken E w v = .ok s)
    (hr : refreshProcess E.cfg (minter E s.sid) w.now kw s.client q v ⟨s.grant, w.n⟩ = (.ok (.resp r), gs))
    (ha : r.accessToken = some a) (hs' : sessionByToken E (w.commit s gs) a = .ok s') :
    tokenProcess E w kw q = (.ok (.resp r), { w.commit s gs with log := w.log ++ [.token s.ref s.client true v q r] }) := by
  unfold tokenProcess tokenHelper
  simp only [hgt, if_neg (show ¬ ("refresh_token" = "authorization_code") by decide), if_true, hv, hs, hr, ha, hs']
  rfl

theorem process_code {E : Env} {w : World} {kw : Option Bool} {q : TokenReq} {v a : String} {s s' : Sess} {r : TokenResp} {gs : GS}
    (hgt : q.grantType = some "authorization_code") (hv : q.code = some v) (hp : spaceToPlus v = v)
    (hs : sessionByToken E w v = .ok s)
    (hr : codeProcess E.cfg (minter E s.sid) w.now kw s.client q v ⟨s.grant, w.n⟩ = (.ok (.resp r), gs))
    (ha : r.accessToken = some a) (hs' : sessionByToken E (w.commit s gs) a = .ok s') :
    tokenProcess E w kw q = (.ok (.resp r), { w.commit s gs with log := w.log ++ [.token s.ref s.client false v q r] }) := by
  unfold tokenProcess tokenHelper
  simp only [hgt, if_true, hv, hp, hs, hr, ha, hs']
  rfl

/-- The whole of a refresh with a live token: the state it leads to. -/
theorem refresh_run (E : Env) (w : World) (hw : Reachable E w) (kw : Option Bool) (req : TokenReq) (v : String)
    (s : Sess) (i : Nat) (t : Token) (mints : List TokenClass) (found : List String)
    (hgt : req.grantType = some "refresh_token") (hopen : NotExcluded E.cfg s.client "refresh_token")
    (hv : req.refreshToken = some v) (hs : sessionByToken E w v = .ok s) (hl : Live w s i t mints) (htv : t.value = v)
    (hcls : t.cls = .refreshToken) (hfound : EffScope s.grant t.basedOn found)
    (hsub : ∀ sc, req.scope = some sc → ∀ x ∈ sc, x ∈ found) (hh : HandlersWork E w s) :
    ∃ (r : TokenResp) (gs : GS) (t1 : Token) (idt : List Token),
      run E w [.parse s.client req, .process w.pool.length kw] =
        { ({ w with pool := w.pool ++ [{ req with clientId := some s.client }] } : World).commit s gs with
          log := w.log ++ [.token s.ref s.client true v { req with clientId := some s.client } r] } ∧
      r.accessToken = some (E.mkVal w.n .accessToken s.sid) ∧ r.scope = req.scope.getD found ∧
      r.refreshToken = (if refreshAgain E.cfg kw mints (req.scope.getD found) then some (E.mkVal (w.n + 1) .refreshToken s.sid) else none) ∧
      r.idToken.isSome = refreshIdt E.cfg mints (req.scope.getD found) ∧
      gs.g.issuedToken = afterRefresh (revokeRefreshFor E.cfg (some s.client)) v (s.grant.issuedToken ++ t1 ::
        ((if refreshAgain E.cfg kw mints (req.scope.getD found) then
          [nextRefresh w.now s.grant t (E.mkVal (w.n + 1) .refreshToken s.sid) (req.scope.getD found)] else []) ++ idt)) ∧
      t1.value = E.mkVal w.n .accessToken s.sid ∧ t1.basedOn = some v ∧ (∀ t ∈ idt, t.cls = .idToken) ∧ w.n < gs.n ∧
      gs.g = { s.grant with dpopJkt := gs.g.dpopJkt, issuedToken := gs.g.issuedToken, used := gs.g.used } ∧
      t1.cls = .accessToken ∧ t1.used = 0 ∧ t1.revoked = false ∧ t1.notBefore = 0 ∧
      t1.expiresAt = endOf w.now (s.grant.rulesFor .accessToken) ∧ t1.rules = (s.grant.rulesFor .accessToken).getD {} := by
  have hwi := (winv_reachable hw).core
  have hg := sessionByToken_grantAt hs
  have hget : s.grant.getToken v = some t := by
    have := hwi.getToken (r := s.ref) hg hl.held
    rw [htv] at this; exact this
  -- the request is accepted
  have hparse : (tokenParse E w s.client { req with clientId := some s.client }).1 =
      .ok (.req { req with clientId := some s.client }) :=
    (C21_refresh_accepted_iff E w hw s.client { req with clientId := some s.client } { req with clientId := some s.client } hgt).2
      ⟨rfl, hopen, v, s, i, t, hv, hs, grantAt_iff.1 hg, hl.held, htv, hcls, hl.active, fun sc h => ⟨found, hfound, hsub sc h⟩⟩
  have hsame : (tokenParse E w s.client { req with clientId := some s.client }).2 = w := by
    unfold tokenParse
    simp only [hgt]
    split
    · rfl
    · split
      · rfl
      · simp only [if_neg (show ¬ ("refresh_token" = "authorization_code") by decide), if_true]
  have hstep : step E w (.parse s.client req) = { w with pool := w.pool ++ [{ req with clientId := some s.client }] } := by
    unfold step
    cases hp : tokenParse E w s.client { req with clientId := some s.client } with
    | mk a b =>
      have h1 : a = .ok (.req { req with clientId := some s.client }) := by rw [← hparse, hp]
      have h2 : b = w := by rw [← hsame, hp]
      subst h1 h2
      simp only [hp]
  -- it is processed
  obtain ⟨sc', hfs⟩ := ((C18_ancestry E w hw).2.2 s.ref s.grant t (grantAt_iff.1 hg) (List.mem_of_getElem? hl.held)).2
  have : sc' = found := effScope_unique (hwi.distinct (r := s.ref) hg) (hwi.effScope (r := s.ref) hg hl.held hfs) hfound
  subst this
  have hok := refreshProcess_ok (cfg := E.cfg) (kw := kw) (req := { req with clientId := some s.client }) (n := w.n) rfl hget (live_openGrant hl)
    ((isActive_clock_iff _ _).2 hl.active) hl.rules hl.access hfs rfl (minter_works hh)
  obtain ⟨r, gs, t1, idt, hr, hra, hrest⟩ := hok
  have hs' : sessionByToken E { w with pool := w.pool ++ [{ req with clientId := some s.client }] } v = .ok s := hs
  have hh' : HandlersWork E { w with pool := w.pool ++ [{ req with clientId := some s.client }] } s := ⟨hh.make, hh.read, hh.named, hh.plain, hh.own⟩
  have hn' := commit_session hs' hh' gs (hh.read w.n (Nat.le_refl _))
  refine ⟨r, gs, t1, idt, ?_, hra, hrest⟩
  simp only [run, List.foldl_cons, List.foldl_nil]
  rw [hstep]
  unfold step
  simp only [List.getElem?_concat_length]
  rw [process_refresh (q := { req with clientId := some s.client }) hgt hv hs' hr hra hn']

/-- C94. A refresh token that is live, presented by its client, is honoured: the request is accepted, and its processing gives
an access token that works, with the requested scope, or the scope the refresh token carries; a new refresh token and an ID
token come along exactly when they are asked for and the refresh token may be turned into them. -/
theorem C94_refresh_honoured (E : Env) (w : World) (hw : Reachable E w) (kw : Option Bool) (req : TokenReq) (v : String)
    (s : Sess) (i : Nat) (t : Token) (mints : List TokenClass) (found : List String)
    (hgt : req.grantType = some "refresh_token") (hopen : NotExcluded E.cfg s.client "refresh_token")
    (hv : req.refreshToken = some v) (hs : sessionByToken E w v = .ok s) (hl : Live w s i t mints) (htv : t.value = v)
    (hcls : t.cls = .refreshToken) (hfound : EffScope s.grant t.basedOn found)
    (hsub : ∀ sc, req.scope = some sc → ∀ x ∈ sc, x ∈ found) (hh : HandlersWork E w s) :
    ∃ r, (run E w [.parse s.client req, .process w.pool.length kw]).log =
        w.log ++ [.token s.ref s.client true v { req with clientId := some s.client } r] ∧
      Usable E w s r ∧ r.scope = req.scope.getD found ∧
      (r.refreshToken.isSome = true ↔ RefreshAsked E.cfg.flavor kw r.scope ∧ TokenClass.refreshToken ∈ mints) ∧
      (r.idToken.isSome = true ↔ E.cfg.flavor = .oidc ∧ "openid" ∈ r.scope ∧ TokenClass.idToken ∈ mints) := by
  obtain ⟨r, gs, t1, idt, hrun, hra, hrs, hrr, hri, _⟩ :=
    refresh_run E w hw kw req v s i t mints found hgt hopen hv hs hl htv hcls hfound hsub hh
  refine ⟨r, by rw [hrun], ⟨_, hra, hh.read _ (Nat.le_refl _)⟩, hrs, ?_, ?_⟩
  · rw [hrr, hrs]
    have : refreshAgain E.cfg kw mints (req.scope.getD found) = true ↔
        RefreshAsked E.cfg.flavor kw (req.scope.getD found) ∧ TokenClass.refreshToken ∈ mints := by
      unfold refreshAgain
      rw [Bool.and_eq_true, decide_eq_true_eq, issueRefresh_iff, and_comm]
    rw [← this]
    cases refreshAgain E.cfg kw mints (req.scope.getD found) <;> simp
  · rw [hri, hrs]
    unfold refreshIdt
    simp only [decide_eq_true_eq]
    exact and_congr Iff.rfl And.comm

/-- The whole of a code exchange with a live code: the state it leads to. -/
theorem code_run (E : Env) (w : World) (hw : Reachable E w) (kw : Option Bool) (req : TokenReq) (v : String)
    (s : Sess) (i : Nat) (t : Token) (mints : List TokenClass) (ar : AuthzReq) (asked : List String)
    (hgt : req.grantType = some "authorization_code") (hopen : NotExcluded E.cfg s.client "authorization_code")
    (hv : req.code = some v) (hs : sessionByToken E w v = .ok s) (hl : Live w s i t mints) (htv : t.value = v)
    (hcls : t.cls = .authorizationCode) (har : s.grant.authzReq = some ar) (hasked : ar.scope = some asked)
    (hred : ar.redirectUri = none ∨ req.redirectUri = ar.redirectUri) (hh : HandlersWork E w s) :
    tokenParse E w s.client { req with clientId := some s.client } = (.ok (.req { req with clientId := some s.client }), w) ∧
    ∃ (r : TokenResp) (gs : GS) (new : List Token) (t1 : Token) (rest : List Token),
      step E { w with pool := w.pool ++ [{ req with clientId := some s.client }] } (.process w.pool.length kw) =
        { ({ w with pool := w.pool ++ [{ req with clientId := some s.client }] } : World).commit s gs with
          log := w.log ++ [.token s.ref s.client false v { req with clientId := some s.client } r] } ∧
      r.accessToken = some (E.mkVal w.n .accessToken s.sid) ∧ r.scope = s.grant.scope ∧
      (r.refreshToken.isSome = true ↔ RefreshAsked E.cfg.flavor kw r.scope ∧ TokenClass.refreshToken ∈ mints ∧
        GrantTypeOpen E.cfg s.client "refresh_token") ∧
      (r.idToken.isSome = true ↔ E.cfg.flavor = .oidc ∧ "openid" ∈ asked ∧ TokenClass.idToken ∈ mints) ∧
      new = t1 :: rest ∧ t1.cls = .accessToken ∧ t1.value = E.mkVal w.n .accessToken s.sid ∧ t1.used = 0 ∧
      t1.revoked = false ∧ t1.notBefore = 0 ∧ t1.expiresAt = endOf w.now (s.grant.rulesFor .accessToken) ∧
      t1.rules = (s.grant.rulesFor .accessToken).getD {} ∧
      gs.g = ({ s.grant with dpopJkt := gs.g.dpopJkt, issuedToken := s.grant.issuedToken ++ new, used := gs.g.used } : Grant).updateToken
        v Token.registerUsage ∧
      (∀ x, r.refreshToken = some x → ∃ t2 ∈ new, t2.cls = .refreshToken ∧ t2.value = x ∧ x = E.mkVal (w.n + 1) .refreshToken s.sid ∧
        t2.basedOn = some v ∧ (t.scope ≠ [] → t2.scope = t.scope) ∧ t2.used = 0 ∧ t2.revoked = false ∧ t2.notBefore = 0 ∧
        t2.expiresAt = endOf w.now (s.grant.rulesFor .refreshToken) ∧
        t2.rules = setDefaults .refreshToken ((s.grant.rulesFor .refreshToken).getD {})) := by
  have hwi := (winv_reachable hw).core
  have hg := sessionByToken_grantAt hs
  have hget : s.grant.getToken v = some t := by
    have := hwi.getToken (r := s.ref) hg hl.held
    rw [htv] at this; exact this
  have hact : t.isActive w.now = true := (isActive_clock_iff _ _).2 hl.active
  have hused : t.used = 0 := by
    have h1 := hwi.once s.ref s.grant i t hg hl.held hcls
    have h2 := hl.active.2.1 1 h1
    have h3 : (t.used : Int) < 1 := h2
    omega
  have hplus : spaceToPlus v = v := by
    obtain ⟨k, sid, _, hm, _⟩ := hwi.prov s.ref s.grant i t hg hl.held
    rw [← htv]; exact hm.plus
  obtain ⟨cl, hcl, hex⟩ := hopen
  have hr0 : grantTypeRefused cl "authorization_code" = false := by
    unfold grantTypeRefused
    split
    · rename_i l hl'; simpa using hex l hl'
    · rfl
  have hparse : tokenParse E w s.client { req with clientId := some s.client } =
      (.ok (.req { req with clientId := some s.client }), w) := by
    unfold tokenParse
    simp only [hgt, hcl, hr0, Bool.false_eq_true, if_false, if_true]
    unfold codeParseW
    simp only [hv, hs]
    unfold codeParse
    simp only [hget, hcls, hused, ne_eq, not_true_eq_false, and_false, if_false, hact, Bool.true_eq_false]
    rw [commit_self hg]
  have hsup : grantTypesFor E.cfg s.client = .ok (cl.grantTypes.getD E.cfg.providerGrantTypes) := by
    unfold grantTypesFor; rw [hcl]
  have hrc : redirectCheck ar { req with clientId := some s.client } = .ok true := by
    unfold redirectCheck
    cases hu : ar.redirectUri with
    | none => rfl
    | some u =>
      rw [hu] at hred
      rcases hred with h | h
      · cases h
      · simp only [h, decide_true]
  have hiw : idTokenWanted E.cfg.flavor ar mints =
      .ok (decide (E.cfg.flavor = .oidc ∧ "openid" ∈ asked ∧ TokenClass.idToken ∈ mints)) := by
    unfold idTokenWanted
    cases E.cfg.flavor with
    | oauth2 => simp
    | oidc => simp [hasked]
  have hok := codeProcess_ok (cfg := E.cfg) (kw := kw) (req := { req with clientId := some s.client }) (n := w.n) rfl hsup
    (ancestry_reachable hwi hg) hl.held htv (live_openGrant hl) hact hl.rules hl.access har hrc hiw (minter_works hh)
  obtain ⟨r, gs, new, hr, hra, hrs, hrr, hri, ⟨t1, rest, hnew, k1, k2, k3, k4, k5, k6, k7⟩, hgs, _, hrf⟩ := hok
  have hs' : sessionByToken E { w with pool := w.pool ++ [{ req with clientId := some s.client }] } v = .ok s := hs
  have hh' : HandlersWork E { w with pool := w.pool ++ [{ req with clientId := some s.client }] } s := ⟨hh.make, hh.read, hh.named, hh.plain, hh.own⟩
  have hn' := commit_session hs' hh' gs (hh.read w.n (Nat.le_refl _))
  refine ⟨hparse, r, gs, new, t1, rest, ?_, hra, hrs, ?_, ?_, hnew, k1, k2, k3, k4, k5, k6, k7, hgs, ?_⟩
  · unfold step
    simp only [List.getElem?_concat_length]
    rw [process_code (q := { req with clientId := some s.client }) hgt hv hplus hs' hr hra hn']
  · rw [hrr, hrs]
    have : codeRefresh E.cfg kw mints s.grant.scope (cl.grantTypes.getD E.cfg.providerGrantTypes) = true ↔
        RefreshAsked E.cfg.flavor kw s.grant.scope ∧ TokenClass.refreshToken ∈ mints ∧
          GrantTypeOpen E.cfg s.client "refresh_token" := by
      unfold codeRefresh
      rw [decide_eq_true_eq, issueRefresh_iff]
      refine and_congr Iff.rfl (and_congr Iff.rfl ?_)
      unfold GrantTypeOpen
      rw [hcl]
      simp only [Option.some.injEq, exists_eq_left']
      cases cl.grantTypes <;> rfl
    rw [← this]
    cases codeRefresh E.cfg kw mints s.grant.scope (cl.grantTypes.getD E.cfg.providerGrantTypes) <;> simp
  · rw [hri]
    simp only [decide_eq_true_eq]
  · intro x hx
    rw [hrr] at hx
    by_cases hcr : codeRefresh E.cfg kw mints s.grant.scope (cl.grantTypes.getD E.cfg.providerGrantTypes) = true
    · rw [if_pos hcr] at hx
      cases hx
      obtain ⟨t2, q0, q1, q2, q3, q4⟩ := hrf hcr
      exact ⟨t2, q0, q1, q2, rfl, by rw [q3, htv], q4⟩
    · rw [if_neg hcr] at hx; cases hx

/-- C94. A code that is live, presented by its client with the redirect URI of the authorization request, is honoured: the
request is accepted, and its processing gives an access token that works, with the scope of the grant; a refresh token and an
ID token come along exactly when they are asked for and the code may be turned into them. -/
theorem C94_code_honoured (E : Env) (w : World) (hw : Reachable E w) (kw : Option Bool) (req : TokenReq) (v : String)
    (s : Sess) (i : Nat) (t : Token) (mints : List TokenClass) (ar : AuthzReq) (asked : List String)
    (hgt : req.grantType = some "authorization_code") (hopen : NotExcluded E.cfg s.client "authorization_code")
    (hv : req.code = some v) (hs : sessionByToken E w v = .ok s) (hl : Live w s i t mints) (htv : t.value = v)
    (hcls : t.cls = .authorizationCode) (har : s.grant.authzReq = some ar) (hasked : ar.scope = some asked)
    (hred : ar.redirectUri = none ∨ req.redirectUri = ar.redirectUri) (hh : HandlersWork E w s) :
    ∃ r, (run E w [.parse s.client req, .process w.pool.length kw]).log =
        w.log ++ [.token s.ref s.client false v { req with clientId := some s.client } r] ∧
      Usable E w s r ∧ r.scope = s.grant.scope ∧
      (r.refreshToken.isSome = true ↔ RefreshAsked E.cfg.flavor kw r.scope ∧ TokenClass.refreshToken ∈ mints ∧
        GrantTypeOpen E.cfg s.client "refresh_token") ∧
      (r.idToken.isSome = true ↔ E.cfg.flavor = .oidc ∧ "openid" ∈ asked ∧ TokenClass.idToken ∈ mints) := by
  obtain ⟨hparse, r, gs, new, t1, rest, hrun, hra, hrs, hrr, hri, _⟩ :=
    code_run E w hw kw req v s i t mints ar asked hgt hopen hv hs hl htv hcls har hasked hred hh
  refine ⟨r, ?_, ⟨_, hra, hh.read _ (Nat.le_refl _)⟩, hrs, hrr, hri⟩
  simp only [run, List.foldl_cons, List.foldl_nil]
  have hstep : step E w (.parse s.client req) = { w with pool := w.pool ++ [{ req with clientId := some s.client }] } := by
    unfold step
    simp only [hparse]
  rw [hstep, hrun]

/-! ### The theorems are about something -/

namespace Ex

theorem works {w : World} {s : Sess} (hs : s.sid = sid "c1" 0) (hu : s.user = "d") : HandlersWork E w s := by
  refine ⟨fun _ _ _ _ => rfl, fun k _ => ?_, ?_, ?_, ?_⟩
  · show info (String.ofList (val k .accessToken s.sid)) = _
    unfold info
    rw [String.toList_ofList, inside_val]
    simp
  · rw [hs]; decide +kernel
  · rw [hs]; decide +kernel
  · rw [hs, hu]; decide +kernel

/-- The session after the code exchange. -/
def sess1 : Sess := { sid := sid "c1" 0, user := "d", client := "c1", gid := E.uuid 0, ref := 2, grant := grant1 "c1" }

def refresh1 : Token := ((grant1 "c1").issuedToken[2]?).getD default

theorem sess1_ok : sessionByToken E (run E init (start "c1")) (E.mkVal 3 .refreshToken (sid "c1" 0)) = .ok sess1 := by
  decide +kernel

theorem live1 : Live (run E init (start "c1")) sess1 2 refresh1 [.accessToken, .refreshToken, .idToken] := by
  refine ⟨by decide +kernel, (isActive_clock_iff _ _).1 ?_, (isActive_clock_iff _ _).1 ?_, ?_, ?_, ?_⟩ <;> decide +kernel

theorem eff1 : EffScope sess1.grant refresh1.basedOn ["openid", "email", "offline_access"] := by
  have h : refresh1.basedOn = some (((grant1 "c1").issuedToken[0]?).getD default).value := by decide +kernel
  rw [h]
  have h2 : (((grant1 "c1").issuedToken[0]?).getD default).scope = ["openid", "email", "offline_access"] := by decide +kernel
  rw [← h2]
  exact .own (by decide +kernel) (by decide +kernel)

/-- C94: the refresh token of the first exchange is honoured, with a new refresh token and an ID token. -/
example : ∃ r, (run E (run E init (start "c1")) [.parse "c1" (refreshReq (E.mkVal 3 .refreshToken (sid "c1" 0)) none),
      .process (run E init (start "c1")).pool.length none]).log =
      (run E init (start "c1")).log ++ [.token 2 "c1" true (E.mkVal 3 .refreshToken (sid "c1" 0))
        { refreshReq (E.mkVal 3 .refreshToken (sid "c1" 0)) none with clientId := some "c1" } r] ∧
    r.scope = ["openid", "email", "offline_access"] ∧ r.refreshToken.isSome = true ∧ r.idToken.isSome = true := by
  obtain ⟨r, h1, _, h2, h3, h4⟩ := C94_refresh_honoured E _ ⟨1000, start "c1", rfl⟩ none
    (refreshReq (E.mkVal 3 .refreshToken (sid "c1" 0)) none) _ sess1 2 refresh1 _ _ rfl
    ⟨{}, by decide +kernel, fun _ h => by cases h⟩ rfl sess1_ok live1 (by decide +kernel) (by decide +kernel) eff1
    (fun _ h => by cases h) (works rfl rfl)
  refine ⟨r, h1, h2, h3.2 ⟨.inr ⟨rfl, by decide +kernel, ?_⟩, by decide⟩, h4.2 ⟨by decide +kernel, ?_, by decide⟩⟩
  · rw [h2]; decide
  · rw [h2]; decide

/-- The state with a code that has not been presented. -/
def asked0 : World := run E init [.login "d" "c1" (authzReq "c1") event, .authorize (sid "c1" 0) (authzReq "c1"), .tick 5]

def sess0 : Sess :=
  { sid := sid "c1" 0, user := "d", client := "c1", gid := E.uuid 0, ref := 2, grant := (asked0.st.grantAt 2).getD {} }

/-- C94: the code of the first authorization response is honoured. -/
example : ∃ r, (run E asked0 [.parse "c1" (codeReq (E.mkVal 1 .authorizationCode (sid "c1" 0))), .process asked0.pool.length none]).log =
      asked0.log ++ [.token 2 "c1" false (E.mkVal 1 .authorizationCode (sid "c1" 0))
        { codeReq (E.mkVal 1 .authorizationCode (sid "c1" 0)) with clientId := some "c1" } r] ∧
    r.scope = ["openid", "email", "offline_access"] ∧ r.refreshToken.isSome = true ∧ r.idToken.isSome = true := by
  obtain ⟨r, h1, _, h2, h3, h4⟩ := C94_code_honoured E asked0 ⟨1000, _, rfl⟩ none
    (codeReq (E.mkVal 1 .authorizationCode (sid "c1" 0))) _ sess0 0 ((sess0.grant.issuedToken[0]?).getD default)
    [.accessToken, .refreshToken, .idToken] (authzReq "c1") ["openid", "email", "offline_access"] rfl
    ⟨{}, by decide +kernel, fun _ h => by cases h⟩ rfl (by decide +kernel)
    ⟨by decide +kernel, (isActive_clock_iff _ _).1 (by decide +kernel), (isActive_clock_iff _ _).1 (by decide +kernel),
      by decide +kernel, by decide +kernel, by decide⟩ (by decide +kernel) (by decide +kernel) (by decide +kernel) (by decide +kernel)
    (.inr (by decide +kernel)) (works rfl rfl)
  have hsc : sess0.grant.scope = ["openid", "email", "offline_access"] := by decide +kernel
  refine ⟨r, h1, h2.trans hsc, h3.2 ⟨.inr ⟨rfl, by decide +kernel, ?_⟩, by decide, {}, by decide +kernel, by decide +kernel⟩,
    h4.2 ⟨by decide +kernel, by decide, by decide⟩⟩
  rw [h2, hsc]; decide

end Ex

end OidcOp
