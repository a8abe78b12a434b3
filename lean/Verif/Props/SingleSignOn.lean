/-
C120: whoever is logged in is not asked to log in again.
-/
import Verif.Props.LoginLife
import Verif.Spec.SingleSignOn

namespace OidcOp
open Spec

/-- What a request needs besides an authentication. -/
theorem processAuthz_bare {L : LoginCfg} {E : Env} {w : World} {req : AuthzReq} {hint : List String} {r : ProcRes}
    (h : (processAuthz L E w req hint [] none).1 = .ok r) :
    ∃ c m, req.clientId = some c ∧ L.scopes.cdb.has c = true ∧ checkUnknownScopes L.scopes c req.scope = .ok () ∧
      pickMethod L.broker hint req = .ok m ∧ req.redirectUri.isNone = false ∧
      r = (if promptHas req "none" then .loginRequired else .loginPage m) := by
  unfold processAuthz at h
  cases hc : req.clientId with
  | none => rw [hc] at h; cases h
  | some c =>
    rw [hc] at h
    simp only [] at h
    by_cases hd : L.scopes.cdb.has c = true
    · rw [if_neg (by simp [hd])] at h
      cases hs : checkUnknownScopes L.scopes c req.scope with
      | error e => rw [hs] at h; cases h
      | ok _ =>
        rw [hs] at h
        simp only [] at h
        cases hm : pickMethod L.broker hint req with
        | error e => rw [hm] at h; cases h
        | ok m =>
          rw [hm] at h
          have hset : setupAuth E L.loads m w req [] none =
              if req.redirectUri.isNone then (.error .keyError, w) else (.ok (askLogin req), w) := rfl
          simp only [hset] at h
          cases hr : req.redirectUri.isNone with
          | true => rw [hr] at h; cases h
          | false =>
            rw [hr] at h
            refine ⟨c, m, rfl, hd, hs, rfl, rfl, ?_⟩
            unfold askLogin at h
            cases hp : promptHas req "none" with
            | true => rw [hp] at h; cases h; rfl
            | false => rw [hp] at h; cases h; rfl
    · rw [if_pos (by simpa using hd)] at h; cases h

theorem processAuthz_of {L : LoginCfg} {E : Env} {w : World} {req : AuthzReq} {hint : List String} {c : String} {m : AuthnMethod}
    (hc : req.clientId = some c) (hd : L.scopes.cdb.has c = true) (hs : checkUnknownScopes L.scopes c req.scope = .ok ())
    (hm : pickMethod L.broker hint req = .ok m) (cookies : List SessionCookie) (ru : Option (Option String)) :
    processAuthz L E w req hint cookies ru = (match setupAuth E L.loads m w req cookies ru with
      | (.error e, w') => (.error e, w')
      | (.ok .login, w') => (.ok (.loginPage m), w')
      | (.ok .loginRequired, w') => (.ok .loginRequired, w')
      | (.ok (.session sid user), w') => (.ok (.part2 sid user (cookieOf E w' sid req)), authzPart2 E w' sid req)) := by
  unfold processAuthz
  rw [hc]
  simp only []
  rw [if_neg (by simp [hd]), hs]
  simp only [hm]
  rcases setupAuth E L.loads m w req cookies ru with ⟨_ | (_ | _ | _), w'⟩ <;> rfl

/-- The cookies that are for other clients are passed over. -/
theorem cookieInfo_skip {E : Env} {U : String → Prop} {c : String} {pre rest : List SessionCookie}
    (hsid : ∀ k ∈ pre, SidFor E U k.sid) (hpre : ∀ k ∈ pre, ∀ u, ¬ CookieFor E k u c) :
    cookieInfo E (some c) (pre ++ rest) = cookieInfo E (some c) rest := by
  induction pre with
  | nil => rfl
  | cons k ks ih =>
    have ih' := ih (fun k hk => hsid k (List.mem_cons_of_mem _ hk)) (fun k hk => hpre k (List.mem_cons_of_mem _ hk))
    obtain ⟨n, u', c', g', hgood, hke⟩ := hsid k List.mem_cons_self
    have hd := E.decrypt_enc n u' c' g' hgood.2.1 hgood.2.2.1 hgood.2.2.2
    rw [← hke] at hd
    have hne : c' ≠ c := fun he => hpre k List.mem_cons_self u' ⟨g', by rw [hd, he]⟩
    rw [List.cons_append, cookieInfo]
    simp only [hd]
    rw [if_pos (by simpa using hne), ih']

theorem cookieInfo_first {E : Env} {U : String → Prop} {c u g : String} {cookies : List SessionCookie} {k : SessionCookie}
    (hsid : ∀ k ∈ cookies, SidFor E U k.sid) (hf : FirstFor E cookies k c) (hd : E.decrypt k.sid = .ok [u, c, g]) :
    cookieInfo E (some c) cookies = .ok (some ({ uid := some u, sid := some k.sid }, k.timestamp)) := by
  obtain ⟨pre, post, rfl, -, hpre⟩ := hf
  rw [cookieInfo_skip (fun k' hk => hsid k' (by simp [hk])) hpre, cookieInfo]
  simp only [hd]
  rw [if_neg (by simp)]

/-- The session behind a session id that is found in the database. -/
theorem sessionOf_found {E : Env} {st : Store} {sid u c g : String} {gr : Grant} (hd : E.decrypt sid = .ok [u, c, g])
    (hf : found st (.gra u c g) = some (.grant gr)) : ∃ r, sessionOf E st sid = .ok ⟨sid, u, c, g, r, gr⟩ := by
  have hf' : (match dbGet ⟨u, some c, some g⟩ st with
    | .ok r => st.obj r
    | .error _ => none) = some (.grant gr) := hf
  unfold sessionOf
  rw [hd]
  simp only []
  cases hg : dbGet ⟨u, some c, some g⟩ st with
  | error e => rw [hg] at hf'; cases hf'
  | ok r =>
    rw [hg] at hf'
    simp only [] at hf'
    refine ⟨r, ?_⟩
    simp only [hf']

/-- A new grant is found under its session id. -/
theorem grant_made {E : Env} {U : String → Prop} {w : World} (hi : DbInv U w.st) {u c : String} {g : Grant}
    (hg : (SKey.gra u c g.id).Good U) {n : Nat} :
    ∃ x, (createGrant u c g w.st).1 = .ok x ∧
      ∃ r, sessionOf E (createGrant u c g w.st).2 (E.encSid n [u, c, g.id]) = .ok ⟨E.encSid n [u, c, g.id], u, c, g.id, r, g⟩ := by
  obtain ⟨s', he, hi', -, -, hv⟩ := createGrant_outside hi hg
  rw [he]
  refine ⟨_, rfl, sessionOf_found (E.decrypt_enc n u c g.id hg.2.1 hg.2.2.1 hg.2.2.2) ?_⟩
  rw [found_view hi' hg, hv]
  rfl

theorem isValid_iff {ev : AuthnEvent} {now : Int} : ev.isValid now = true ↔ now < ev.validUntil := by
  unfold AuthnEvent.isValid
  simp

/-- What the setup comes to with a cookie for the client whose session is in the database. -/
theorem setup_first {E : Env} {U : String → Prop} (hplain : ∀ u, U u → PlainName u) {loads : List Nat → Except Exc Identity}
    {m : AuthnMethod} {w : World} {req : AuthzReq} {cookies : List SessionCookie} {ru : Option (Option String)}
    (hsid : ∀ k ∈ cookies, SidFor E U k.sid) {k : SessionCookie} {u c : String} {g : Grant}
    (hf : FirstFor E cookies k c) (hs : SessionIs E w k u c g) (hc : req.clientId = some c)
    (hr : req.redirectUri.isNone = false) (hne : k.sid ≠ "") :
    setupAuth E loads m w req cookies ru =
      if maxAgeOf req ≠ 0 ∧ w.now > k.timestamp + maxAgeOf req then (.ok (askLogin req), w)
      else if g.isActive w.now = false then (.ok (askLogin req), w)
      else if promptHas req "login" then (.ok .login, w)
      else if ru.isSome ∧ ru ≠ some (some u) then (.ok (askLogin req), w)
      else reuseSession E w req u k.sid := by
  obtain ⟨gid, hd, hfound⟩ := hs
  have hk : k ∈ cookies := by obtain ⟨pre, post, rfl, -⟩ := hf; simp
  have hb : b64d u.toList = .ok none := b64d_plain (plainCookies_of hplain hsid k hk u _ hd)
  obtain ⟨r, hso⟩ := sessionOf_found hd hfound
  unfold setupAuth findIdentity authenticatedAs
  rw [hc, cookieInfo_first hsid hf hd]
  simp only []
  by_cases hage : maxAgeOf req ≠ 0 ∧ w.now > k.timestamp + maxAgeOf req
  · rw [if_pos hage, if_pos hage]
    simp only [hr, Bool.false_eq_true, if_false]
  · rw [if_neg hage, if_neg hage]
    have ht : truthyStr (some k.sid) = some k.sid := by simp [truthyStr, hne]
    simp only [unwrapIdentity, hb, checkIdentity, ht, hso]
    by_cases hact : g.isActive w.now = false
    · rw [if_pos hact, if_pos hact]
      simp only [hr, Bool.false_eq_true, if_false]
    · rw [if_neg hact, if_neg hact]
      simp only [hr, Bool.false_eq_true, if_false]

/-- The setup with cookies for other clients only. -/
theorem setup_none {E : Env} {U : String → Prop} {loads : List Nat → Except Exc Identity} {m : AuthnMethod} {w : World}
    {req : AuthzReq} {cookies : List SessionCookie} {ru : Option (Option String)} (hsid : ∀ k ∈ cookies, SidFor E U k.sid)
    {c : String} (hc : req.clientId = some c) (hno : ∀ k ∈ cookies, ∀ u, ¬ CookieFor E k u c)
    (hr : req.redirectUri.isNone = false) : setupAuth E loads m w req cookies ru = (.ok (askLogin req), w) := by
  have h := cookieInfo_skip (rest := []) hsid hno
  rw [List.append_nil] at h
  unfold setupAuth findIdentity authenticatedAs
  rw [hc, h]
  simp only [cookieInfo, hr, Bool.false_eq_true, if_false]

theorem pick_sidFor {p : Prov} {U : String → Prop} {Q : String → AuthzReq → Prop} {s : PState} (hinv : ProvInv p U Q s)
    (is : List Nat) : ∀ k ∈ pickCookies s is, SidFor p.E U k.sid := by
  intro k hk
  unfold pickCookies at hk
  rw [List.mem_filterMap] at hk
  obtain ⟨i, _, hi⟩ := hk
  exact hinv.cookies k (List.mem_of_getElem? hi)

/-- Reuse of a session that counts. -/
theorem reuse_counts {E : Env} {U : String → Prop} {w : World} (hi : DbInv U w.st) {req : AuthzReq} {k : SessionCookie}
    {u c : String} {g : Grant} (hs : SessionIs E w k u c g) (hU : U u ∧ CleanId u ∧ CleanId c) (hc : req.clientId = some c)
    (hact : g.isActive w.now = true) (hev : StillCounts g w.now) :
    ∃ sid w', reuseSession E w req u k.sid = (.ok (.session sid u), w') := by
  obtain ⟨gid, hd, hfound⟩ := hs
  obtain ⟨r, hso⟩ := sessionOf_found hd hfound
  obtain ⟨ev, he, hv⟩ := hev
  unfold reuseSession
  rw [hd]
  simp only []
  rw [if_neg (by simp [hc]), hso]
  simp only []
  rw [if_neg (by simp [hact])]
  by_cases hq : some req ≠ g.authzReq
  · rw [if_pos hq, he]
    simp only []
    rw [if_neg (by rw [isValid_iff.2 hv]; simp)]
    obtain ⟨x, h1, r', h2⟩ := grant_made (E := E) (n := w.n) (w := w) hi (u := u) (c := c)
      (g := newGrant E w u { req with clientId := some c } ev []) ⟨hU.1, hU.2.1, hU.2.2, E.uuid_clean w.n⟩
    rw [h1]
    simp only []
    unfold finishSetup eventOf
    have h3 : sessionOf E (authzCreateGrant E w u c req ev).st (E.encSid w.n [u, c, E.uuid w.n]) = .ok _ := h2
    rw [h3]
    have h4 : (newGrant E w u { req with clientId := some c } ev []).authnEvent = some ev := rfl
    simp only [h4]
    have h5 : ev.isValid (authzCreateGrant E w u c req ev).now = true := isValid_iff.2 hv
    rw [h5]
    exact ⟨_, _, rfl⟩
  · rw [if_neg hq]
    unfold finishSetup eventOf
    rw [hso]
    simp only [he]
    rw [isValid_iff.2 hv]
    exact ⟨_, _, rfl⟩

/-- C120, for names as in C68.  After any history: a request that would get a login page, or be told that one is needed, is sent
with a session cookie for its client.  The session is in the database and active, its login still counts, the request does not ask
for a new login nor for another user, and the cookie is young enough for it.  Then the request gets its answer, as one of the user
of the cookie, and nobody is asked to log in. -/
theorem C120_not_asked_again_partial (p : Prov) (U : String → Prop) (hn : Names p U) (now : Int) (ops : List POp)
    (hf : ∀ op ∈ ops, FairP p U op) (req : AuthzReq) (hint : List String) (is : List Nat) (ru : Option (Option String))
    (r : ProcRes) (hbare : (processAuthz p.L p.E (provHistory p now ops).w req hint [] none).1 = .ok r)
    (k : SessionCookie) (user client : String) (g : Grant) (hc : req.clientId = some client)
    (hk : FirstFor p.E (pickCookies (provHistory p now ops) is) k client) (hne : k.sid ≠ "")
    (hs : SessionIs p.E (provHistory p now ops).w k user client g)
    (hact : ItemActive g.item (provHistory p now ops).w.now) (hev : StillCounts g (provHistory p now ops).w.now)
    (hpr : ¬ Prompts req "login") (hu : NobodyElse ru user) (hage : YoungEnough req k (provHistory p now ops).w.now) :
    ∃ sid ck w', processAuthz p.L p.E (provHistory p now ops).w req hint (pickCookies (provHistory p now ops) is) ru =
      (.ok (.part2 sid user ck), w') := by
  have hinv := pinv_history hn (passing_vetted p (names_ne hn)) now ops hf
  generalize provHistory p now ops = s at *
  obtain ⟨c, m, h1, h2, h3, h4, h5, -⟩ := processAuthz_bare hbare
  rw [hc] at h1; cases h1
  rw [processAuthz_of hc h2 h3 h4]
  have hsid := pick_sidFor hinv is
  have hU : U user ∧ CleanId user ∧ CleanId client := by
    obtain ⟨gid, hd, -⟩ := hs
    have hmem : k ∈ pickCookies s is := by obtain ⟨pre, post, he, -⟩ := hk; rw [he]; simp
    obtain ⟨n, u', c', g', hgood, hke⟩ := hsid k hmem
    rw [hke, p.E.decrypt_enc n u' c' g' hgood.2.1 hgood.2.2.1 hgood.2.2.2] at hd
    cases hd
    exact ⟨hgood.1, hgood.2.1, hgood.2.2.1⟩
  have hact' : g.isActive s.w.now = true := (isActive_clock_iff ..).2 hact
  obtain ⟨sid, w', hre⟩ := reuse_counts hinv.world.hinv.inv hs hU hc hact' hev
  have hset : setupAuth p.E p.L.loads m s.w req (pickCookies s is) ru = (.ok (.session sid user), w') := by
    rw [setup_first (fun u hu => (hn.users u hu).2) hsid hk hs hc h5 hne, if_neg, if_neg (by simp [hact']), if_neg, if_neg, hre]
    · rintro ⟨h6, h7⟩
      cases ru with
      | none => cases h6
      | some x => exact h7 (congrArg some (hu x rfl))
    · rw [promptHas_iff]; exact hpr
    · rintro ⟨h6, h7⟩
      unfold maxAgeOf at h6 h7
      cases hup : req.upmAnswer with
      | true => rw [hup] at h6; exact h6 rfl
      | false =>
        rw [hup] at h6 h7
        cases ha : req.maxAge with
        | none => rw [ha] at h6; exact h6 rfl
        | some a =>
          rw [ha] at h7
          have := hage a ha
          simp only [Bool.false_eq_true, if_false, Option.getD_some] at h7
          omega
  rw [hset]
  exact ⟨_, _, _, rfl⟩

/-- C120, who is asked.  In the same setting, the answer is the one without any cookies, a login page or that a login is needed: if no
cookie is for a session with the client; if the session of the first one that is has been revoked, has expired or is used up; if
this cookie is too old for the request; and if the request asks for another user. -/
theorem C120_asked_again_partial (p : Prov) (U : String → Prop) (hn : Names p U) (now : Int) (ops : List POp)
    (hf : ∀ op ∈ ops, FairP p U op) (req : AuthzReq) (hint : List String) (is : List Nat) (ru : Option (Option String))
    (r : ProcRes) (hbare : (processAuthz p.L p.E (provHistory p now ops).w req hint [] none).1 = .ok r)
    (client : String) (hc : req.clientId = some client) (hpr : ¬ Prompts req "login")
    (h : (∀ k ∈ pickCookies (provHistory p now ops) is, ∀ u, ¬ CookieFor p.E k u client) ∨
      ∃ k user g, FirstFor p.E (pickCookies (provHistory p now ops) is) k client ∧ k.sid ≠ "" ∧
        SessionIs p.E (provHistory p now ops).w k user client g ∧
        (¬ ItemActive g.item (provHistory p now ops).w.now ∨ ¬ NobodyElse ru user ∨
          (req.upmAnswer = false ∧ ∃ a, req.maxAge = some a ∧ a ≠ 0 ∧ k.timestamp + a < (provHistory p now ops).w.now))) :
    (processAuthz p.L p.E (provHistory p now ops).w req hint (pickCookies (provHistory p now ops) is) ru).1 = .ok r := by
  have hinv := pinv_history hn (passing_vetted p (names_ne hn)) now ops hf
  generalize provHistory p now ops = s at *
  obtain ⟨c, m, h1, h2, h3, h4, h5, hr⟩ := processAuthz_bare hbare
  rw [hc] at h1; cases h1
  rw [processAuthz_of hc h2 h3 h4]
  have hsid := pick_sidFor hinv is
  have hset : setupAuth p.E p.L.loads m s.w req (pickCookies s is) ru = (.ok (askLogin req), s.w) := by
    rcases h with h | ⟨k, user, g, hk, hne, hs, h⟩
    · exact setup_none hsid hc h h5
    · rw [setup_first (fun u hu => (hn.users u hu).2) hsid hk hs hc h5 hne]
      by_cases c1 : maxAgeOf req ≠ 0 ∧ s.w.now > k.timestamp + maxAgeOf req
      · rw [if_pos c1]
      · rw [if_neg c1]
        by_cases c2 : g.isActive s.w.now = false
        · rw [if_pos c2]
        · rw [if_neg c2, if_neg (by rw [promptHas_iff]; exact hpr)]
          have c3 : ru.isSome ∧ ru ≠ some (some user) := by
            rcases h with h | h | ⟨h6, a, h7, h8, h9⟩
            · refine absurd ?_ c2
              show g.item.isActive s.w.now = false
              simpa using mt (isActive_clock_iff ..).1 h
            · cases ru with
              | none => exact absurd (fun u hu => nomatch hu) h
              | some x =>
                refine ⟨rfl, fun he => h ?_⟩
                intro u hu
                cases hu; cases he; rfl
            · refine absurd ⟨?_, ?_⟩ c1 <;> simp only [maxAgeOf, h6, h7, Bool.false_eq_true, if_false, Option.getD_some]
              · exact h8
              · omega
          rw [if_pos c3]
  rw [hset, hr]
  unfold askLogin
  cases promptHas req "none" <;> rfl

/-- C120, a new login.  In the same setting, with a session that is active: a login page is what the answer is if the request asks
for a new login and the cookie is young enough, and also if the login of the session no longer counts. -/
theorem C120_new_login_partial (p : Prov) (U : String → Prop) (hn : Names p U) (now : Int) (ops : List POp)
    (hf : ∀ op ∈ ops, FairP p U op) (req : AuthzReq) (hint : List String) (is : List Nat) (ru : Option (Option String))
    (r : ProcRes) (hbare : (processAuthz p.L p.E (provHistory p now ops).w req hint [] none).1 = .ok r)
    (k : SessionCookie) (user client : String) (g : Grant) (hc : req.clientId = some client)
    (hk : FirstFor p.E (pickCookies (provHistory p now ops) is) k client) (hne : k.sid ≠ "")
    (hs : SessionIs p.E (provHistory p now ops).w k user client g)
    (hact : ItemActive g.item (provHistory p now ops).w.now) (hage : YoungEnough req k (provHistory p now ops).w.now)
    (h : Prompts req "login" ∨
      (NobodyElse ru user ∧ ∃ ev, g.authnEvent = some ev ∧ ev.validUntil ≤ (provHistory p now ops).w.now)) :
    ∃ m, (processAuthz p.L p.E (provHistory p now ops).w req hint (pickCookies (provHistory p now ops) is) ru).1 =
      .ok (.loginPage m) := by
  have hinv := pinv_history hn (passing_vetted p (names_ne hn)) now ops hf
  generalize provHistory p now ops = s at *
  obtain ⟨c, m, h1, h2, h3, h4, h5, hr⟩ := processAuthz_bare hbare
  rw [hc] at h1; cases h1
  rw [processAuthz_of hc h2 h3 h4]
  have hsid := pick_sidFor hinv is
  have hact' : g.isActive s.w.now = true := (isActive_clock_iff ..).2 hact
  have hset : setupAuth p.E p.L.loads m s.w req (pickCookies s is) ru = (.ok .login, s.w) := by
    rw [setup_first (fun u hu => (hn.users u hu).2) hsid hk hs hc h5 hne, if_neg, if_neg (by simp [hact'])]
    · by_cases hp : promptHas req "login" = true
      · rw [if_pos hp]
      · rw [if_neg hp]
        rcases h with h | ⟨hu, ev, he, hv⟩
        · exact absurd ((promptHas_iff ..).2 h) hp
        · rw [if_neg]
          · obtain ⟨gid, hd, hfound⟩ := hs
            obtain ⟨r', hso⟩ := sessionOf_found hd hfound
            have hnv : ev.isValid s.w.now = false := by
              cases hx : ev.isValid s.w.now with
              | false => rfl
              | true => have := isValid_iff.1 hx; omega
            unfold reuseSession
            rw [hd]
            simp only []
            rw [if_neg (by simp [hc]), hso]
            simp only []
            rw [if_neg (by simp [hact'])]
            by_cases hq : some req ≠ g.authzReq
            · rw [if_pos hq, he]
              simp only []
              rw [if_pos hnv]
            · rw [if_neg hq]
              unfold finishSetup eventOf
              rw [hso]
              simp only [he]
              rw [hnv]
              rfl
          · rintro ⟨h6, h7⟩
            cases ru with
            | none => cases h6
            | some x => exact h7 (congrArg some (hu x rfl))
    · rintro ⟨h6, h7⟩
      unfold maxAgeOf at h6 h7
      cases hup : req.upmAnswer with
      | true => rw [hup] at h6; exact h6 rfl
      | false =>
        rw [hup] at h6 h7
        cases ha : req.maxAge with
        | none => rw [ha] at h6; exact h6 rfl
        | some a =>
          rw [ha] at h7
          have := hage a ha
          simp only [Bool.false_eq_true, if_false, Option.getD_some] at h7
          omega
  rw [hset]
  exact ⟨m, rfl⟩

namespace Ex

/-- Single sign-on does not happen: the user has logged in for one client, and is asked again for another. -/
theorem C120_other_client_refuted :
    (provHistory prov 1000 (session.take 2)).logins.map (fun x => (x.user, x.req.clientId)) = [("d", some "c1")] ∧
    (processAuthz prov.L prov.E (provHistory prov 1000 (session.take 2)).w { authzReq "c2" with redirectUri := some "https://rp2/cb" } []
      (pickCookies (provHistory prov 1000 (session.take 2)) [0]) none).1 = .ok (.loginPage { acr := "password" }) := by
  decide +kernel

/-- After a session has been removed, the user of its cookie is not asked to log in: the request ends in an exception. -/
theorem C120_removed_refuted :
    (processAuthz prov.L prov.E (provHistory prov 1000 (session.take 2 ++ [.removeSession (sid "c1" 0)])).w (authzReq "c1") []
      (pickCookies (provHistory prov 1000 (session.take 2 ++ [.removeSession (sid "c1" 0)])) [0]) none).1 = .error .keyError ∧
    (processAuthz prov.L prov.E (provHistory prov 1000 (session.take 2 ++ [.removeSession (sid "c1" 0)])).w (authzReq "c1") []
      [] none).1 = .ok (.loginPage { acr := "password" }) := by
  decide +kernel

/-- Three quarters of an hour after the login the user is not asked again, whether the request is the same or a new one; with the
session revoked, after an hour and with prompt "login" they are. -/
example :
    let at' := fun (more : List POp) (req : AuthzReq) =>
      match (processAuthz prov.L prov.E (provHistory prov 1000 (session.take 2 ++ more)).w req []
        (pickCookies (provHistory prov 1000 (session.take 2 ++ more)) [0]) none).1 with
      | .ok (.part2 _ u _) => some u
      | _ => none
    at' [.tick 2700] (authzReq "c1") = some "d" ∧ at' [.tick 2700] { authzReq "c1" with state := some "t" } = some "d" ∧
    at' [.tick 2700, .revokeGrant (sid "c1" 0)] (authzReq "c1") = none ∧ at' [.tick 3600] (authzReq "c1") = none ∧
    at' [.tick 2700] { authzReq "c1" with prompt := some ["login"] } = none := by
  decide +kernel

/-- The hypotheses of the first theorem hold then. -/
example : ∃ k g, (provHistory prov 1000 (session.take 2 ++ [.tick 2700])).cookies = [k] ∧ k.sid ≠ "" ∧
    FirstFor prov.E (pickCookies (provHistory prov 1000 (session.take 2 ++ [.tick 2700])) [0]) k "c1" ∧
    SessionIs prov.E (provHistory prov 1000 (session.take 2 ++ [.tick 2700])).w k "d" "c1" g ∧
    ItemActive g.item 3700 ∧ StillCounts g 3700 ∧ (provHistory prov 1000 (session.take 2 ++ [.tick 2700])).w.now = 3700 ∧
    (processAuthz prov.L prov.E (provHistory prov 1000 (session.take 2 ++ [.tick 2700])).w (authzReq "c1") [] [] none).1 =
      .ok (.loginPage { acr := "password" }) := by
  refine ⟨⟨sid "c1" 0, 1000⟩, ((provHistory prov 1000 (session.take 2 ++ [.tick 2700])).w.st.heap.filterMap (fun o => match o with
      | .grant g => some g
      | _ => none)).headD default, by decide +kernel, by decide +kernel, ⟨[], [], by decide +kernel, ⟨"d", E.uuid 0, by decide +kernel⟩, ?_⟩,
    ⟨E.uuid 0, by decide +kernel, by decide +kernel⟩, (isActive_clock_iff ..).1 (by decide +kernel), ?_, by decide +kernel, by decide +kernel⟩
  · simp
  · exact ⟨loginEvent { acr := "password" } 1000 "d", by decide +kernel, by decide +kernel⟩

end Ex
end OidcOp
