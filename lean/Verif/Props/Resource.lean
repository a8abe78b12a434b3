/-
C25, C45, C46: the user information endpoint and the introspection endpoint.
-/
import Verif.Spec.Resource
import Verif.Props.World
import Verif.Props.Provider
import Verif.Props.Claims

namespace OidcOp
open Spec

theorem mem_of_get?_set {d : Dict Json} {k0 k : String} {y x : Json} (h : (d.set k0 y).get? k = some x) :
    (k = k0 ∧ x = y) ∨ (k ≠ k0 ∧ (k, x) ∈ d) := by
  rw [Dict.get?_set] at h
  by_cases hk : k0 = k
  · rw [if_pos hk] at h; cases h; exact .inl ⟨hk.symm, rfl⟩
  · rw [if_neg hk] at h; exact .inr ⟨fun e => hk e.symm, Dict.get?_mem h⟩

/-- The session of an answer with claims. -/
theorem userinfo_session {E : Env} {db : Option UserDb} {w : World} {v : String} {info : Dict Json} {client : String}
    (h : userinfoProcess E db w v = .ok (.claims info client)) :
    ∃ s t ev, sessionByToken E w v = .ok s ∧ s.grant.getToken v = some t ∧ t.cls = .accessToken ∧
      t.isActive w.now = true ∧ s.grant.authnEvent = some ev ∧ w.now ≤ ev.validUntil ∧
      userinfoClaims db s = .ok info ∧ s.client = client := by
  unfold userinfoProcess at h
  split at h
  · split at h <;> cases h
  · rename_i s hs
    split at h
    · cases h
    · rename_i t ht
      split at h
      · cases h
      · rename_i hc
        split at h
        · cases h
        · rename_i ha
          split at h
          · cases h
          · rename_i ev hev
            split at h
            · cases h
            · rename_i hv
              split at h
              · cases h
              · rename_i i hi
                cases h
                exact ⟨s, t, ev, hs, ht, Decidable.not_not.1 hc, by simpa using ha, hev, Decidable.not_not.1 hv, hi, rfl⟩

/-- What the claims are. -/
theorem userinfoClaims_spec {db : Option UserDb} {s : Sess} {info : Dict Json} {ev : AuthnEvent}
    (hev : s.grant.authnEvent = some ev) (h : userinfoClaims db s = .ok info) :
    ∃ d, db = some d ∧ info.get? "sub" = some (.str s.grant.sub) ∧
      ∀ k x, info.get? k = some x → k ≠ "sub" →
        MayRelease d s.grant s.user "userinfo" k x ∨ (k = "acr" ∧ x = .str ev.authnInfo) := by
  unfold userinfoClaims at h
  cases db with
  | none => simp [getUserClaims] at h
  | some d =>
    refine ⟨d, rfl, ?_⟩
    cases hu : getUserClaims (some d) s.user ((s.grant.claims.get? "userinfo").getD []) with
    | error e => rw [hu] at h; cases h
    | ok r =>
      rw [hu] at h
      have hrel : ∀ k x, (k, x) ∈ r → MayRelease d s.grant s.user "userinfo" k x := by
        intro k x hkx
        obtain ⟨h1, _, spec, h3, h4⟩ := C42_user_claims_sound d s.user _ r hu k x hkx
        cases hr : s.grant.claims.get? "userinfo" with
        | none => rw [hr] at h3; simp at h3
        | some restr => rw [hr] at h3; exact ⟨h1, restr, spec, hr, h3, h4⟩
      simp only at h
      split at h
      · cases h
      · cases h
        refine ⟨Dict.get?_set_self .., fun k x hk hne => ?_⟩
        rcases mem_of_get?_set hk with ⟨h1, _⟩ | ⟨_, h1⟩
        · exact absurd h1 hne
        · exact .inl (hrel k x h1)
      · cases h
        refine ⟨?_, fun k x hk hne => ?_⟩
        · rw [Dict.get?_set_ne _ _ (by decide)]; exact Dict.get?_set_self ..
        · rcases mem_of_get?_set hk with ⟨h1, h2⟩ | ⟨h0, h1⟩
          · refine .inr ⟨h1, ?_⟩; rw [h2, hev]; rfl
          · have h1' : Dict.get? (r.set "sub" (.str s.grant.sub)) k = some x := by
              rw [Dict.get?_set_ne _ _ (fun e => h0 e.symm)] at hk; exact hk
            rcases mem_of_get?_set h1' with ⟨h2, _⟩ | ⟨_, h2⟩
            · exact absurd h2 hne
            · exact .inl (hrel k x h2)

/-- C45 (partial).  In any state, for any presented string: if the answer has claims then the string is the value of an
active access token of an existing grant whose authentication event is still valid.  The subject is the grant's, and any other
claim is one that the grant allows, with a value of one user in the database.  (Missing: that "acr" is released only if the
grant allows it; see the refutation.) -/
theorem C45_userinfo_partial (E : Env) (db : Option UserDb) (w : World) (v : String) (info : Dict Json) (client : String)
    (h : userinfoProcess E db w v = .ok (.claims info client)) :
    ∃ g t ev d user, LiveToken w v g t ∧ t.cls = .accessToken ∧ g.authnEvent = some ev ∧ w.now ≤ ev.validUntil ∧
      db = some d ∧ info.get? "sub" = some (.str g.sub) ∧
      ∀ k x, info.get? k = some x → k ≠ "sub" →
        MayRelease d g user "userinfo" k x ∨ (k = "acr" ∧ x = .str ev.authnInfo) := by
  obtain ⟨s, t, ev, hs, ht, hc, ha, hev, hv, hi, rfl⟩ := userinfo_session h
  obtain ⟨d, hd, h1, h2⟩ := userinfoClaims_spec hev hi
  obtain ⟨h3, h4⟩ := getToken_mem ht
  exact ⟨s.grant, t, ev, d, s.user, ⟨⟨s.ref, grantAt_spec.2 (sessionByToken_grantAt hs)⟩, h3, h4, (isActive_clock_iff _ _).1 ha⟩,
    hc, hev, hv, hd, h1, h2⟩

/-- C45 (partial), whose claims.  After every history of the provider: the claims in an answer are those of a user who
authenticated on the login page for a request of the client that the token was issued to, and the subject is this user's.
(Missing: as before.) -/
theorem C45_whose_claims_partial (p : Prov) (U : String → Prop) (hn : Names p U) (now : Int) (ops : List POp)
    (hf : ∀ op ∈ ops, FairP p U op) (db : Option UserDb) (v : String) (info : Dict Json) (client : String)
    (h : userinfoProcess p.E db (provHistory p now ops).w v = .ok (.claims info client)) :
    ∃ user req x0 g t ev d, LiveToken (provHistory p now ops).w v g t ∧ t.cls = .accessToken ∧
      g.authzReq = some req ∧ req.clientId = some client ∧ info.get? "sub" = some (.str (p.E.subOf user req)) ∧
      x0 ∈ (provHistory p now ops).logins ∧ x0.user = user ∧ x0.req.clientId = some client ∧
      g.authnEvent = some ev ∧ ev.uid = user ∧ db = some d ∧
      ∀ k x, info.get? k = some x → k ≠ "sub" →
        MayRelease d g user "userinfo" k x ∨ (k = "acr" ∧ x = .str ev.authnInfo) := by
  obtain ⟨s, t, ev, hs, ht, hc, ha, hev, hv, hi, rfl⟩ := userinfo_session h
  obtain ⟨d, hd, h1, h2⟩ := userinfoClaims_spec hev hi
  obtain ⟨h3, h4⟩ := getToken_mem ht
  have hinv := (pinv_history hn (passing_vetted p (names_ne hn)) now ops hf).world
  have hg := sessionByToken_grantAt hs
  obtain ⟨i, hi'⟩ := List.getElem?_of_mem h3
  obtain ⟨n, u, c, g, hgood, he⟩ := sessionByToken_sid hinv.winv.core (sidFor_closed p.E U) hs hg hi' h4
  obtain ⟨sid0, _, hso⟩ := sessionByToken_spec hs
  have hsid := (sessionOf_spec hso).2.1
  rw [← hsid, he] at hso
  have hdec := (sessionOf_spec hso).2.2.1
  rw [p.E.decrypt_enc n u c g hgood.2.1 hgood.2.2.1 hgood.2.2.2] at hdec
  simp only [Except.ok.injEq, List.cons.injEq, and_true] at hdec
  have hgg := session_good hinv hgood hso
  obtain ⟨req, r1, r2, _, r4, _⟩ := hgg.req
  obtain ⟨ev', e1, e2, ⟨x0, l1, l2, l3, _⟩, _⟩ := hgg.event
  rw [hev] at e1; cases e1
  refine ⟨u, req, x0, s.grant, t, ev, d, ⟨⟨s.ref, grantAt_spec.2 hg⟩, h3, h4, (isActive_clock_iff _ _).1 ha⟩, hc, r1,
    by rw [r2, hdec.2.1], by rw [h1, r4], l1, l2, by rw [l3, hdec.2.1], hev, e2, hd, ?_⟩
  rw [hdec.1]
  exact h2

theorem addAcr_total {g : Grant} {ev : AuthnEvent} (hev : g.authnEvent = some ev) (point : String)
    (hp : ∀ restr k spec, g.claims.get? point = some restr → (k, spec) ∈ restr → ProperSpec spec) :
    ∃ b, addAcrValue g (some point) = .ok b := by
  unfold addAcrValue
  simp only [Option.bind_some]
  cases hr : g.claims.get? point with
  | none => exact ⟨_, rfl⟩
  | some restr =>
    simp only
    split
    · exact ⟨_, rfl⟩
    · rw [hev]
      simp only
      have hps : ProperSpec ((restr.get? "acr").getD .null) := by
        cases ha : restr.get? "acr" with
        | none => exact .inl rfl
        | some spec => exact hp restr "acr" spec hr (Dict.get?_mem ha)
      obtain ⟨b, hb, _⟩ := C41_claims_match (.str ev.authnInfo) _ hps
      exact ⟨b, hb⟩

/-- C45, the other direction: in a reachable state a live access token that its handler still recognises, of a session that
is still there and with a valid authentication event, gets its claims: all those that the grant allows and the user has. -/
theorem C45_live_token_answered (E : Env) (db : UserDb) (w : World) (hw : Reachable E w) (v : String) (s : Sess)
    (hs : sessionByToken E w v = .ok s) (t : Token) (ht : t ∈ s.grant.issuedToken) (hv : t.value = v)
    (hc : t.cls = .accessToken) (ha : ItemActive t.item w.now) (ev : AuthnEvent) (hev : s.grant.authnEvent = some ev)
    (hvu : w.now ≤ ev.validUntil)
    (hp : ∀ restr k spec, s.grant.claims.get? "userinfo" = some restr → (k, spec) ∈ restr → ProperSpec spec)
    (hn : ∀ restr, s.grant.claims.get? "userinfo" = some restr → restr.keys.Nodup) :
    ∃ info, userinfoProcess E (some db) w v = .ok (.claims info s.client) ∧
      ∀ k x restr spec, k ≠ "sub" → k ≠ "acr" → s.grant.claims.get? "userinfo" = some restr → restr.get? k = some spec →
        UserHas db s.user k x → MatchesSpec x spec → ∃ x', info.get? k = some x' ∧ UserHas db s.user k x' := by
  have hg := sessionByToken_grantAt hs
  have hcore := (winv_reachable hw).core
  obtain ⟨i, hi⟩ := List.getElem?_of_mem ht
  have hget := hcore.getToken hg hi
  rw [hv] at hget
  have hnd : ((s.grant.claims.get? "userinfo").getD []).keys.Nodup := by
    cases hr : s.grant.claims.get? "userinfo" with
    | none => exact List.nodup_nil
    | some restr => exact hn restr hr
  obtain ⟨r, hr1, hr2⟩ := C42_user_claims db s.user ((s.grant.claims.get? "userinfo").getD []) hnd (by
    intro k spec hk
    cases hr : s.grant.claims.get? "userinfo" with
    | none => rw [hr] at hk; simp at hk
    | some restr => rw [hr] at hk; exact hp restr k spec hr hk)
  obtain ⟨b, hb⟩ := addAcr_total hev "userinfo" hp
  have hcl : ∃ info, userinfoClaims (some db) s = .ok info ∧ ∀ k, k ≠ "sub" → k ≠ "acr" → info.get? k = r.get? k := by
    unfold userinfoClaims
    rw [hr1]
    simp only [hb]
    cases b with
    | false =>
      exact ⟨_, rfl, fun k h1 _ => Dict.get?_set_ne _ _ (fun e => h1 e.symm)⟩
    | true =>
      refine ⟨_, rfl, fun k h1 h2 => ?_⟩
      rw [Dict.get?_set_ne _ _ (fun e => h2 e.symm), Dict.get?_set_ne _ _ (fun e => h1 e.symm)]
  obtain ⟨info, hi1, hi2⟩ := hcl
  refine ⟨info, ?_, ?_⟩
  · unfold userinfoProcess
    simp only [hs, hget]
    rw [if_neg (by simp [hc]), if_neg (by rw [show t.isActive w.now = true from (isActive_clock_iff _ _).2 ha]; simp), hev]
    simp only
    rw [if_neg (by simpa using hvu), hi1]
  · intro k x restr spec h1 h2 h3 h4 h5 h6
    rw [hi2 k h1 h2]
    have hm := (hr2 k x).2 ⟨h5, spec, by rw [h3]; exact h4, h6⟩
    obtain ⟨x', hx'⟩ := get?_isSome_of_mem hm
    exact ⟨x', hx', ((hr2 k x').1 (Dict.get?_mem hx')).1⟩

/-! ## Introspection -/

theorem introspectToken_active {issuer : String} {extra : String → Dict Json} {now : Int} {s : Sess} {t : Token}
    {r : Option (Dict Json)} (h : introspectToken issuer extra now s t = .ok r) :
    r.isSome = true ↔ (t.cls = .accessToken ∨ t.cls = .refreshToken) ∧ ItemActive t.item now := by
  unfold introspectToken at h
  split at h
  · rename_i hc
    cases h
    simp only [Option.isSome_none, Bool.false_eq_true, false_iff]
    rintro ⟨h1 | h1, _⟩
    · exact hc.1 h1
    · exact hc.2 h1
  · rename_i hc
    have hc' : t.cls = .accessToken ∨ t.cls = .refreshToken := by
      by_cases h1 : t.cls = .accessToken
      · exact .inl h1
      · by_cases h2 : t.cls = .refreshToken
        · exact .inr h2
        · exact absurd ⟨h1, h2⟩ hc
    split at h
    · rename_i ha
      cases h
      simp only [Option.isSome_none, Bool.false_eq_true, false_iff]
      rintro ⟨_, h2⟩
      exact (isActive_false_iff _ _).1 ha h2
    · rename_i ha
      have ha' : ItemActive t.item now := (isActive_clock_iff _ _).1 (by
        show t.isActive now = true
        simpa using ha)
      simp only at h
      split at h
      · cases h
      · cases h
        simp [hc', ha']

/-- C46 (partial), no false positives: in any state, whatever string is presented, the answer "active" means that the string
is the value of an active access or refresh token of an existing grant. -/
theorem C46_active_sound_partial (E : Env) (db : Option UserDb) (issuer : String) (extra : String → Dict Json)
    (username : Bool) (w : World) (v : String) (resp : Dict Json)
    (h : introspectProcess E db issuer extra username w v = .ok resp) (ha : resp.get? "active" = some (.bool true)) :
    ∃ g t, LiveToken w v g t ∧ (t.cls = .accessToken ∨ t.cls = .refreshToken) := by
  unfold introspectProcess at h
  split at h
  · split at h
    · cases h; exact absurd ha (by decide)
    · cases h
  · rename_i s hs
    split at h
    · cases h
    · rename_i t ht
      obtain ⟨h3, h4⟩ := getToken_mem ht
      split at h
      · cases h
      · cases h; exact absurd ha (by decide)
      · rename_i info hi
        have := (introspectToken_active hi).1 rfl
        exact ⟨s.grant, t, ⟨⟨s.ref, grantAt_spec.2 (sessionByToken_grantAt hs)⟩, h3, h4, this.2⟩, this.1⟩

/-- C46 (partial), tokens that are found: in a reachable state, for a token that its handler recognises and whose session is
there, introspection answers without an exception, "active" exactly if it is an active access or refresh token, and nothing
but "not active" otherwise.  (Missing: strings that the handlers reject with another exception than UnknownToken and
WrongTokenClass, removed sessions, and the truth of the other claims; see the refutations.) -/
theorem C46_found_token_partial (E : Env) (db : UserDb) (issuer : String) (extra : String → Dict Json) (username : Bool)
    (w : World) (hw : Reachable E w) (v : String) (s : Sess) (hs : sessionByToken E w v = .ok s) (t : Token)
    (ht : t ∈ s.grant.issuedToken) (hv : t.value = v)
    (hp : ∀ restr k spec, s.grant.claims.get? "introspection" = some restr → (k, spec) ∈ restr → ProperSpec spec)
    (hn : ∀ restr, s.grant.claims.get? "introspection" = some restr → restr.keys.Nodup) :
    ∃ resp, introspectProcess E (some db) issuer extra username w v = .ok resp ∧
      ((t.cls = .accessToken ∨ t.cls = .refreshToken) ∧ ItemActive t.item w.now ↔ resp.get? "active" = some (.bool true)) ∧
      (¬ ((t.cls = .accessToken ∨ t.cls = .refreshToken) ∧ ItemActive t.item w.now) → resp = [("active", .bool false)]) := by
  have hg := sessionByToken_grantAt hs
  have hcore := (winv_reachable hw).core
  obtain ⟨i, hi⟩ := List.getElem?_of_mem ht
  have hget := hcore.getToken hg hi
  rw [hv] at hget
  have htot : ∃ r, introspectToken issuer extra w.now s t = .ok r := by
    have hsc : ∃ sc, s.grant.findScope t.basedOn = .ok sc := by
      unfold Grant.findScope
      cases hb : t.basedOn with
      | none => exact ⟨_, rfl⟩
      | some b =>
        simp only
        obtain ⟨j, q, hj, hq, hqv, _⟩ := hcore.based s.ref s.grant i t b hg hi hb
        have := hcore.getToken hg hq
        rw [hqv] at this
        rw [this]
        have hjl : j < s.grant.issuedToken.length := by
          rcases Nat.lt_or_ge j s.grant.issuedToken.length with h | h
          · exact h
          · rw [List.getElem?_eq_none h] at hq; cases hq
        exact hcore.findScope_total hg _ j q hq (by omega)
    unfold introspectToken
    split
    · exact ⟨_, rfl⟩
    · split
      · exact ⟨_, rfl⟩
      · simp only
        have : ∃ sc, introspectScope s.grant t = .ok sc := by
          unfold introspectScope
          split
          · exact ⟨_, rfl⟩
          · split
            · exact hsc
            · exact ⟨_, rfl⟩
        obtain ⟨sc, hsc'⟩ := this
        rw [hsc']
        exact ⟨_, rfl⟩
  obtain ⟨r, hr⟩ := htot
  have hact := introspectToken_active hr
  unfold introspectProcess
  simp only [hs, hget, hr]
  cases r with
  | none =>
    refine ⟨_, rfl, ?_, fun _ => rfl⟩
    simp only [Option.isSome_none, Bool.false_eq_true, false_iff] at hact
    constructor
    · intro h; exact absurd h hact
    · intro h; exact absurd h (by decide)
  | some info =>
    have hl := hact.1 rfl
    simp only
    split
    · exact ⟨_, rfl, ⟨fun _ => Dict.get?_set_self .., fun _ => hl⟩, fun h => absurd hl h⟩
    · have hnd : ((s.grant.claims.get? "introspection").getD []).keys.Nodup := by
        cases hr : s.grant.claims.get? "introspection" with
        | none => exact List.nodup_nil
        | some restr => exact hn restr hr
      obtain ⟨u, hu, _⟩ := C42_user_claims db s.user ((s.grant.claims.get? "introspection").getD []) hnd (by
        intro k spec hk
        cases hr : s.grant.claims.get? "introspection" with
        | none => rw [hr] at hk; simp at hk
        | some restr => rw [hr] at hk; exact hp restr k spec hr hk)
      rw [hu]
      exact ⟨_, rfl, ⟨fun _ => Dict.get?_set_self .., fun _ => hl⟩, fun h => absurd hl h⟩

/-- C46 (partial), strings that are not tokens: what the handlers reject as unknown is not active. -/
theorem C46_unknown_token_partial (E : Env) (db : Option UserDb) (issuer : String) (extra : String → Dict Json)
    (username : Bool) (w : World) (v : String)
    (h : E.info v w.now = .error .unknownToken ∨ E.info v w.now = .error .wrongTokenClass ∨ E.info v w.now = .ok none) :
    introspectProcess E db issuer extra username w v = .ok [("active", .bool false)] := by
  unfold introspectProcess sessionByToken
  rcases h with h | h | h <;> rw [h] <;> simp [truthyStr]

/-! ## Revocation -/

/-- C25 (partial), revoked tokens: in a reachable state a token that is revoked, used up or expired is refused by the user
information endpoint and reported not active by introspection (if they answer at all), now and after everything that may
happen later.  (Missing: tokens of a revoked grant; see the refutation.) -/
theorem C25_spent_token_partial (E : Env) (w : World) (hw : Reachable E w) (r i : Nat) (t : Token)
    (ht : TokenAt w r i t) (hsp : Spent t w.now) (ops : List WOp) (db : Option UserDb) :
    (∀ info client, userinfoProcess E db (run E w ops) t.value ≠ .ok (.claims info client)) ∧
    (∀ issuer extra username resp, introspectProcess E db issuer extra username (run E w ops) t.value = .ok resp →
      resp = [("active", .bool false)]) := by
  obtain ⟨g, hg, hi⟩ := ht
  have hc := chain_run hw ops
  obtain ⟨g', t', h5, h6, h7⟩ := tokenAt_later hc (grantAt_spec.1 hg) hi
  have hsp' := spent_mono h7 (mono_chain hc).2 hsp
  have hval : t'.value = t.value := (static_fields h7.static).2.1
  have hcore := (winv_reachable (reachable_run hw ops)).core
  have hdead : ∀ s t2, sessionByToken E (run E w ops) t.value = .ok s → s.grant.getToken t.value = some t2 →
      ¬ ItemActive t2.item (run E w ops).now := by
    intro s t2 hs h2
    obtain ⟨h3, h4⟩ := getToken_mem h2
    obtain ⟨j, hj⟩ := List.getElem?_of_mem h3
    obtain ⟨e1, e2⟩ := hcore.uniq _ _ _ _ _ _ _ _ h5 (sessionByToken_grantAt hs) h6 hj (by rw [hval, h4])
    subst e1 e2
    have := sessionByToken_grantAt hs
    rw [show (run E w ops).st.grantAt s.ref = some g' from h5] at this
    cases this
    rw [h6] at hj
    cases hj
    exact not_active_of_spent hsp' (Int.le_refl _)
  constructor
  · intro info client h
    obtain ⟨s, t2, ev, hs, h2, _, ha, _⟩ := userinfo_session h
    exact hdead s t2 hs h2 ((isActive_clock_iff _ _).1 ha)
  · intro issuer extra username resp h
    unfold introspectProcess at h
    split at h
    · split at h
      · cases h; rfl
      · cases h
    · rename_i s hs
      split at h
      · cases h
      · rename_i t2 h2
        split at h
        · cases h
        · cases h; rfl
        · rename_i x hx
          exact absurd ((introspectToken_active hx).1 rfl).2 (hdead s t2 hs h2)

end OidcOp
