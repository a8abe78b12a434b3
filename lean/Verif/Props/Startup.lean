/-
The start of a provider: C117.
-/
import Verif.Lemmas.Startup
import Verif.Props.EndpointInfo
import Verif.Props.TokenFactoryExamples

namespace OidcOp
open Spec

theorem checkAddOns_ok {endps : Dict Endp} {l : List AddOnConf} (h : ∀ a ∈ l, checkAddOn endps a = .ok ()) :
    checkAddOns endps l = .ok () := by
  induction l with
  | nil => rfl
  | cons a l ih =>
    unfold checkAddOns
    rw [h a List.mem_cons_self]
    exact ih (fun b hb => h b (List.mem_cons_of_mem _ hb))

theorem checkAddOns_all {endps : Dict Endp} {l : List AddOnConf} (h : checkAddOns endps l = .ok ()) :
    ∀ a ∈ l, checkAddOn endps a = .ok () := by
  induction l with
  | nil => intro a ha; cases ha
  | cons b l ih =>
    unfold checkAddOns at h
    obtain ⟨u, h1, h2⟩ := ebind_ok h
    intro a ha
    rcases List.mem_cons.1 ha with rfl | ha
    · exact h1
    · exact ih h2 a ha

theorem addOn_ok {conf : StartConf} {endps : Dict Endp} (he : ∀ n, endps.get? n ≠ none ↔ HasEndpoint conf n) {a : AddOnConf}
    (h : AddOnInOrder conf a) : checkAddOn endps a = .ok () := by
  cases a with
  | pkce ms =>
    show (if _ then _ else _) = _
    rw [if_neg]
    intro hb
    rw [Bool.and_eq_true, Bool.not_eq_true'] at hb
    have : (ms.getD ccMethods).all (fun m => decide (m ∈ ccMethods)) = true := by
      rw [List.all_eq_true]
      intro m hm
      cases ms with
      | none => exact decide_eq_true hm
      | some l =>
        rcases h l rfl m hm with rfl | rfl | rfl | rfl <;> decide
    rw [this] at hb
    exact absurd hb.2 (by decide)
  | dpop algs =>
    show (if _ then _ else _) = _
    rw [if_pos (has_iff_get.2 ((he _).2 h))]
  | customScopes m =>
    show (if _ then _ else _) = _
    rw [if_neg]
    intro hb
    have hne : conf.endpoints ≠ [] := h
    obtain ⟨c, hc⟩ := List.exists_mem_of_ne_nil _ hne
    have := (he c.cls.name).2 ⟨c, hc, rfl⟩
    rw [List.isEmpty_iff.1 hb] at this
    exact this rfl

/-- What a server has that runs, C117. -/
theorem C117_has_all (lib : FactoryLib) (conf : StartConf) (s : Started) (h : startServer lib conf = .ok s) : HasAll conf s := by
  have st := steps h
  obtain ⟨idt, hi, hm⟩ := st.server
  have hf := factory_ok st.handlers
  refine ⟨fun n => has_endpoint hm n, fun hnd c hc l hl hv => ?_, fun hnd n i hni => ?_, fun n cls hn => ?_, ?_⟩
  · obtain ⟨ms, h1, h2⟩ := (allMethods_get st.methods).2.2 hnd c hc
    obtain ⟨-, h3, h4⟩ := methods_named hl hv h1
    exact ⟨ms, h2, h3, h4⟩
  · exact (broker_fold (st.broker)).2.2 hnd n i hni
  · obtain ⟨h1, h2⟩ := hf.1 n cls hn
    constructor
    · intro hne e
      exact hne (h1 e)
    · intro hne
      obtain ⟨s', hs'⟩ := Option.ne_none_iff_exists'.1 hne
      obtain ⟨m, -, hm⟩ := h2 s' hs'
      rw [hm]
      exact fun e => by cases e
  · constructor
    · intro hne e
      exact hne (hf.2.1 e)
    · intro hne
      obtain ⟨s', hs'⟩ := Option.ne_none_iff_exists'.1 hne
      obtain ⟨m, -, hm⟩ := hf.2.2.1 s' hs'
      rw [hm]
      exact fun e => by cases e

/-- C117.  A provider whose configuration is wrong in one of these points does not start. -/
theorem C117_refuses (lib : FactoryLib) (conf : StartConf)
    (hlib : lib.crypto.sign ≠ [] ∧ lib.crypto.alg ≠ [] ∧ lib.crypto.enc ≠ []) (h : Wrong lib conf) :
    ∃ e, startServer lib conf = .error e := by
  cases hstart : startServer lib conf with
  | error e => exact ⟨e, rfl⟩
  | ok s =>
    exfalso
    have st := steps hstart
    obtain ⟨idt, hi, hm⟩ := st.server
    cases h with
    | authn n i h hi =>
      have := (broker_fold st.broker).1 (n, i) h
      rcases hi with e | e
      · exact this.1 e
      · exact this.2 e
    | way c h l hl n hn hw =>
      obtain ⟨ms, hms⟩ := (allMethods_get st.methods).1 c h
      rcases methods_known hms hl n hn with e | e
      · exact hw.1 e
      · exact hw.2 e
    | algorithm c h n hn algs ha v hv hw =>
      obtain ⟨endps, i, hb, -⟩ := makeServer_spec hm
      obtain ⟨x, hx⟩ := build_all hb c h
      unfold EndpClass.info at hx
      cases hc : c.cls.caps with
      | none => rw [hc] at hn; cases hn
      | some d =>
        rw [hc] at hx hn
        obtain ⟨p, hp, hpn⟩ := List.mem_map.1 hn
        obtain ⟨e, he⟩ := C65_refused lib.crypto hlib.1 hlib.2.1 hlib.2.2 d c.kwargs n p.2 (by rw [← hpn]; exact hp) algs ha v hv hw
        simp only [] at hx
        rw [he] at hx
        cases hx
    | noKey n cls hn s' hs hg he hk hp =>
      obtain ⟨p, -, -, h2⟩ := C107_no_other_key lib conf.factoryConf s.handlers st.handlers n cls hn s' hs hg he
      rcases h2 with h2 | h2
      · rw [hk] at h2; cases h2
      · exact hp p h2
    | notAnIdToken s' hs hc =>
      rw [hs] at hi
      unfold idTokenArgsOf idTokenArgs at hi
      simp only [] at hi
      cases hk : specKwargs s' with
      | error e => rw [hk] at hi; cases hi
      | ok kw =>
        rw [hk] at hi
        simp only [] at hi
        cases hcl : s'.get? "class" with
        | none =>
          rw [hcl] at hi
          have : handlerKind ((none : Option Json).getD (.str defaultTokenName)) = .ok .dflt := by decide
          rw [this] at hi
          cases hi
        | some c =>
          rw [hcl] at hi hc
          cases hkd : handlerKind c with
          | error e => rw [Option.getD_some, hkd] at hi; cases hi
          | ok kd =>
            rw [Option.getD_some, hkd] at hi
            cases kd with
            | dflt => cases hi
            | jwt => cases hi
            | idt =>
              unfold handlerKind at hkd
              split at hkd
              · rename_i t
                split at hkd
                · cases hkd
                · split at hkd
                  · cases hkd
                  · split at hkd
                    · rename_i e; exact hc (by rw [e])
                    · cases hkd
              · cases hkd
    | dpop algs h hn =>
      have : (if s.serv.endpoints.has "token" then Except.ok () else Except.error Exc.keyError) = Except.ok () :=
        checkAddOns_all st.addOns _ h
      split at this
      · rename_i e; exact hn ((has_endpoint hm _).1 (has_iff_get.1 e))
      · cases this
    | challenge l h ha ht m hm' hw =>
      have : (if s.serv.endpoints.has "authorization" && s.serv.endpoints.has "token" &&
          !(l.all (fun m => decide (m ∈ ccMethods))) then Except.error Exc.valueError else Except.ok ()) = Except.ok () :=
        checkAddOns_all st.addOns _ h
      rw [if_pos] at this
      · cases this
      · rw [has_iff_get.2 ((has_endpoint hm _).2 ha), has_iff_get.2 ((has_endpoint hm _).2 ht)]
        simp only [Bool.true_and, Bool.not_eq_true']
        rw [← Bool.not_eq_true, List.all_eq_true]
        intro hall
        have := of_decide_eq_true (hall m hm')
        simp only [ccMethods, List.mem_cons, List.not_mem_nil, or_false] at this
        rcases this with e | e | e | e
        · exact hw.1 e
        · exact hw.2.1 e
        · exact hw.2.2.1 e
        · exact hw.2.2.2 e
    | noClaims h =>
      rw [st.claims] at h
      cases h

theorem shipped_grants : ∀ c ∈ shippedClasses,
    (c.name = "authorization" → ∃ l, ("grant_types_supported", strs l) ∈ c.caps.getD []) ∧
    (∀ p ∈ c.caps.getD [], p.1 = "grant_types_supported" → ∃ l, p.2 = .arr l) ∧ (Dict.keys (c.caps.getD [])).Nodup := by
  have a : ∀ c ∈ shippedClasses, (c.name = "authorization" →
      ("grant_types_supported", strs ["authorization_code", "implicit"]) ∈ c.caps.getD []) ∧
      (∀ p ∈ c.caps.getD [], p.1 = "grant_types_supported" → p.2 = strs ["authorization_code", "implicit"]) ∧
      (Dict.keys (c.caps.getD [])).Nodup := by decide +kernel
  intro c hc
  obtain ⟨h1, h2, h3⟩ := a c hc
  exact ⟨fun e => ⟨_, h1 e⟩, fun p hp e => ⟨_, h2 p hp e⟩, h3⟩

theorem shipped_endpoint_names : ∀ c ∈ shippedClasses, c.endpointName ≠ "grant_types_supported" := by decide +kernel

theorem ofItself_list {lib : CryptoAlgs} {kwargs : Dict Json} {attr : String} {d v : Json} (h : OfItself lib kwargs attr d v)
    (hk : ∀ v, kwargs.get? attr = some v → ∃ l, v = .arr l) (hd : ∃ l, d = .arr l) : ∃ l, v = .arr l := by
  cases h with
  | configured h => exact hk _ h
  | default => exact hd
  | sign _ _ _ l => exact ⟨_, rfl⟩
  | alg => exact ⟨_, rfl⟩
  | enc => exact ⟨_, rfl⟩

/-- What an endpoint has to say of grant types. -/
theorem info_grants {lib : CryptoAlgs} {issuer : String} {c : EndpConf} {e : Endp} (h : buildOne lib issuer c = .ok e)
    (hc : c.cls ∈ shippedClasses) (hk : ∀ v, c.kwargs.get? "grant_types_supported" = some v → ∃ l, v = .arr l) :
    (∀ v, (e.info.getD []).get? "grant_types_supported" = some v → ∃ l, v = .arr l) ∧
    (c.cls.name = "authorization" → (e.info.getD []).get? "grant_types_supported" ≠ none) := by
  obtain ⟨i, hi, -, -, -, he, -⟩ := built_info h
  obtain ⟨g1, g2, g3⟩ := shipped_grants _ hc
  have hget : (e.info.getD []).get? "grant_types_supported" = (i.getD []).get? "grant_types_supported" := by
    rw [he]
    unfold withUrl
    split
    · rfl
    · rw [Option.getD_some, Dict.get?_set_ne _ _ (shipped_endpoint_names _ hc)]
  rw [hget]
  unfold EndpClass.info at hi
  cases hcaps : c.cls.caps with
  | none =>
    rw [hcaps] at hi g1
    cases hi
    refine ⟨fun v hv => (by cases hv), fun hn => ?_⟩
    obtain ⟨l, hl⟩ := g1 hn
    cases hl
  | some d =>
    rw [hcaps] at hi g1 g2 g3
    simp only [] at hi
    cases hci : constructEndpointInfo lib d c.kwargs with
    | error x => rw [hci] at hi; cases hi
    | ok info =>
      rw [hci] at hi
      cases hi
      have hw : (withAuthMethods c.cls c.kwargs info).get? "grant_types_supported" = info.get? "grant_types_supported" := by
        unfold withAuthMethods
        split
        · rw [Dict.get?_set_ne _ _ (by decide)]
        · rfl
      rw [Option.getD_some, hw]
      obtain ⟨c1, c2⟩ := C97_endpoint lib d c.kwargs info g3 hci
      constructor
      · intro v hv
        obtain ⟨x, hx, ho⟩ := c1 _ v hv
        exact ofItself_list ho hk (g2 _ hx rfl)
      · intro hn e
        obtain ⟨l, hl⟩ := g1 hn
        obtain ⟨v, hv⟩ := c2 _ _ hl (.inr (.inl (by unfold strs; exact fun e => by cases e)))
        rw [e] at hv
        cases hv

/-- C117.  A provider whose configuration is in order starts; in this code only if there is no token endpoint, or there are
settings for refresh tokens and it is known which grant types there are. -/
theorem C117_starts_partial (lib : FactoryLib) (hs : Sortable lib.crypto) (conf : StartConf) (h : ConfInOrder lib conf)
    (hr : HasEndpoint conf "token" → settingsOf conf.factoryConf "refresh" ≠ none ∧ GrantTypesKnown conf) :
    ∃ s, startServer lib conf = .ok s := by
  obtain ⟨broker, h1⟩ := broker_ok {} (fun x hx => h.authn x.1 x.2 hx)
  obtain ⟨methods, h2⟩ := allMethods_ok [] (fun c hc => methods_ok (h.endpoints c hc))
  have h3 : ∃ idt, idTokenArgsOf conf.factoryConf.idToken = .ok idt ∧ ∃ i, idTokenInfo lib.crypto idt = .ok i := by
    cases hid : conf.factoryConf.idToken with
    | none => exact ⟨none, rfl, [], rfl⟩
    | some sp =>
      obtain ⟨⟨a, ha, i, hi⟩, -⟩ := idt_ok hs (h.idTokens sp hid)
      refine ⟨some a, ?_, i, hi⟩
      unfold idTokenArgsOf
      simp only []
      rw [ha]
  obtain ⟨idt, h3, i, h3'⟩ := h3
  obtain ⟨serv, h4⟩ := makeServer_ok (conf := conf.server broker idt)
    (build_ok [] (fun c hc => info_ok hs (h.endpoints c hc).shipped (h.endpoints c hc).algs)) ⟨i, h3'⟩
  have h5 := checkAddOns_ok (fun a ha => addOn_ok (fun n => has_endpoint h4 n) (h.addOns a ha))
  obtain ⟨hs', h6⟩ := factory_works hs h.tokens h.idTokens
  have h7 : ∃ r, tokenAllowRefresh serv.endpoints (conf.caps.map (fun _ => serv.info)) hs' = .ok r := by
    unfold tokenAllowRefresh
    split
    · rename_i ht
      obtain ⟨hr1, hr2⟩ := hr ((has_endpoint h4 _).1 (has_iff_get.1 ht))
      unfold allowRefresh
      have : hs'.has "refresh_token" = true := by
        rw [has_iff_get]
        obtain ⟨sp, hsp⟩ := Option.ne_none_iff_exists'.1 hr1
        obtain ⟨m, -, hm⟩ := ((factory_ok h6).1 "refresh" "refresh_token" (by decide)).2 sp hsp
        rw [hm]
        exact fun e => by cases e
      rw [if_pos this]
      cases hc : conf.caps with
      | none => exact ⟨_, rfl⟩
      | some caps =>
        simp only [Option.map_some]
        split
        · exact ⟨_, rfl⟩
        · have hget : ∃ l, serv.info.get? "grant_types_supported" = some (.arr l) := by
            rw [info_get h4 _ (by decide)]
            have e1 : ((conf.server broker idt).caps.getD []) = caps := by
              show conf.caps.getD [] = caps
              rw [hc]; rfl
            rw [e1]
            rcases hr2 caps hc with ⟨l, hl⟩ | ⟨hn, ha, hk⟩
            · exact ⟨l, by rw [hl]; rfl⟩
            · rw [hn]
              obtain ⟨endps, i', hb, -, he, -⟩ := makeServer_spec h4
              have hship : ∀ c ∈ conf.endpoints, c.cls ∈ shippedClasses := fun c hc => (h.endpoints c hc).shipped
              rw [he]
              cases hf : firstInfo "grant_types_supported" endps with
              | none =>
                exfalso
                obtain ⟨c, hcm, hcn⟩ := ha
                obtain ⟨c', hc', hcn', ep, hep, hg⟩ := (build_has hb "authorization").2 c hcm hcn
                have hne := (info_grants hep (hship c' hc') (hk c' hc')).2 hcn'
                exact hne (firstInfo_none hf _ (Dict.get?_mem hg) (show ¬ leftOut "authorization" by unfold leftOut; decide))
              | some v =>
                obtain ⟨p, hp, -, hpi⟩ := firstInfo_some hf
                rcases build_from hb p hp with hp | ⟨c, hcm, -, hbo⟩
                · cases hp
                · obtain ⟨l, rfl⟩ := (info_grants hbo (hship c hcm) (hk c hcm)).1 v hpi
                  exact ⟨l, rfl⟩
          obtain ⟨l, hl⟩ := hget
          rw [hl]
          exact ⟨_, rfl⟩
    · exact ⟨_, rfl⟩
  obtain ⟨r, h7⟩ := h7
  refine ⟨⟨serv, broker, methods, hs', r⟩, ?_⟩
  unfold startServer
  rw [populate_fold, h1]
  show (allMethods _ _ >>= _) = _
  rw [h2]
  show (idTokenArgsOf _ >>= _) = _
  rw [h3]
  show (makeServer _ _ >>= _) = _
  rw [h4]
  show (checkAddOns _ _ >>= _) = _
  rw [h5]
  show (factory _ _ >>= _) = _
  rw [h6]
  show (tokenAllowRefresh _ _ _ >>= _) = _
  rw [h7]
  show (needs _ >>= _) = _
  rw [h.claims]
  rfl

theorem info_has_issuer {lib : CryptoAlgs} {conf : ServerConf} {s : Serv} (h : makeServer lib conf = .ok s) :
    s.info.get? "issuer" = some (.str conf.issuer) := by
  obtain ⟨endps, idt, _, hi, _, hinfo, _⟩ := makeServer_spec h
  rw [hinfo, Dict.get?_update, idToken_keys hi (.inl (by decide))]
  simp only []
  have fold : ∀ (l : List AddOn) (x : Dict Json × ScopeCfg), (l.foldl addOn x).1.get? "issuer" = x.1.get? "issuer" := by
    intro l
    induction l with
    | nil => intro x; rfl
    | cons a l ih =>
      intro x
      rw [List.foldl_cons, ih]
      cases a with
      | pkce => rfl
      | dpop algs => exact Dict.get?_set_ne _ _ (by decide)
      | customScopes m =>
        unfold addOn
        simp only []
        rw [Dict.get?_set_ne _ _ (by decide), Dict.get?_set_ne _ _ (by decide)]
  rw [fold]
  unfold createProviderInfo
  simp only []
  rw [get?_withClaims_ne _ _ _ (by decide), get?_withScopes, if_neg (by decide), get?_withJwks, if_neg (by decide),
    get?_withAcr, if_neg (fun e => absurd e.2 (by decide)), Dict.get?_set_ne _ _ (by decide), Dict.get?_set_self]

/-- C117.  As the code is, no provider with a token endpoint starts without settings for refresh tokens, whatever the rest of the
configuration is. -/
theorem C117_without_refresh (lib : FactoryLib) (conf : StartConf) (ht : HasEndpoint conf "token")
    (hr : settingsOf conf.factoryConf "refresh" = none) : ∃ e, startServer lib conf = .error e := by
  cases hstart : startServer lib conf with
  | error e => exact ⟨e, rfl⟩
  | ok s =>
    exfalso
    have st := steps hstart
    obtain ⟨idt, hi, hm⟩ := st.server
    have h := st.refresh
    unfold tokenAllowRefresh at h
    rw [if_pos (has_iff_get.2 ((has_endpoint hm _).2 ht))] at h
    unfold allowRefresh at h
    have hn := ((factory_ok st.handlers).1 "refresh" "refresh_token" (by decide)).1 hr
    rw [has_of_get hn] at h
    cases h

/-- C117.  Nor does one start whose capabilities have no grant types, if no endpoint adds them: no class of which there is an
endpoint lists them. -/
theorem C117_without_grant_types (lib : FactoryLib) (conf : StartConf) (ht : HasEndpoint conf "token") (caps : Dict Json)
    (hc : conf.caps = some caps) (hg : caps.get? "grant_types_supported" = none)
    (hn : ∀ c ∈ conf.endpoints, c.cls ∈ shippedClasses ∧ "grant_types_supported" ∉ Dict.keys (c.cls.caps.getD [])) :
    ∃ e, startServer lib conf = .error e := by
  cases hstart : startServer lib conf with
  | error e => exact ⟨e, rfl⟩
  | ok s =>
    exfalso
    have st := steps hstart
    obtain ⟨idt, hi, hm⟩ := st.server
    have h := st.refresh
    unfold tokenAllowRefresh at h
    rw [if_pos (has_iff_get.2 ((has_endpoint hm _).2 ht)), hc] at h
    unfold allowRefresh at h
    split at h
    · simp only [Option.map_some] at h
      have hnone : s.serv.info.get? "grant_types_supported" = none := by
        rw [info_get hm _ (by decide)]
        have e1 : ((conf.server s.broker idt).caps.getD []) = caps := by
          show conf.caps.getD [] = caps
          rw [hc]; rfl
        rw [e1, hg]
        obtain ⟨endps, i', hb, -, he, -⟩ := makeServer_spec hm
        rw [he]
        cases hf : firstInfo "grant_types_supported" endps with
        | none => rfl
        | some v =>
          exfalso
          obtain ⟨p, hp, -, hpi⟩ := firstInfo_some hf
          rcases build_from hb p hp with hp | ⟨c, hcm, -, hbo⟩
          · cases hp
          · obtain ⟨i, hi', -, -, -, he', -⟩ := built_info hbo
            obtain ⟨hs, hk⟩ := hn c hcm
            rw [he'] at hpi
            have hpi : (i.getD []).get? "grant_types_supported" = some v := by
              unfold withUrl at hpi
              split at hpi
              · exact hpi
              · rw [Option.getD_some, Dict.get?_set_ne _ _ (shipped_endpoint_names _ hs)] at hpi
                exact hpi
            unfold EndpClass.info at hi'
            cases hcaps : c.cls.caps with
            | none => rw [hcaps] at hi'; cases hi'; cases hpi
            | some d =>
              rw [hcaps] at hi' hk
              simp only [] at hi'
              cases hci : constructEndpointInfo lib.crypto d c.kwargs with
              | error x => rw [hci] at hi'; cases hi'
              | ok info =>
                rw [hci] at hi'
                cases hi'
                rw [Option.getD_some] at hpi
                have hw : (withAuthMethods c.cls c.kwargs info).get? "grant_types_supported" = info.get? "grant_types_supported" := by
                  unfold withAuthMethods
                  split
                  · rw [Dict.get?_set_ne _ _ (by decide)]
                  · rfl
                rw [hw] at hpi
                rcases loop_mem hci hpi with h | ⟨x, hx, -⟩
                · cases h
                · exact hk (List.mem_map.2 ⟨_, hx, rfl⟩)
      have hne : List.isEmpty s.serv.info = false := by
        cases hinfo : s.serv.info with
        | cons a l => rfl
        | nil =>
          exfalso
          have := info_has_issuer hm
          rw [hinfo] at this
          cases this
      rw [hne, hnone] at h
      cases h
    · cases h

theorem shipped_ways : ∀ c ∈ shippedClasses,
    classMethods c = .ok (if c.name = "userinfo" then [some .bearerHeader, some .bearerBody] else []) := by decide +kernel

/-- C117, endpoints for which no ways to authenticate are configured.  If the provider starts then its user info endpoint takes the
access token as a bearer token, in the header or in the body, and its other endpoints take no authentication of their own. -/
theorem C117_default_ways (lib : FactoryLib) (conf : StartConf) (s : Started) (h : startServer lib conf = .ok s)
    (hnd : (conf.endpoints.map (·.cls.name)).Nodup) (c : EndpConf) (hc : c ∈ conf.endpoints) (hs : c.cls ∈ shippedClasses)
    (hv : c.kwargs.get? "client_authn_method" = none ∨ c.kwargs.get? "client_authn_method" = some .null) :
    s.methods.get? c.cls.name = some (if c.cls.name = "userinfo" then [some .bearerHeader, some .bearerBody] else []) := by
  obtain ⟨ms, h1, h2⟩ := (allMethods_get (steps h).methods).2.2 hnd c hc
  have e : endpointMethods c = classMethods c.cls := by
    unfold endpointMethods
    rcases hv with hv | hv <;> rw [hv]
    simp [Json.truthy]
  rw [e, shipped_ways c.cls hs] at h1
  rw [h2, ← Except.ok.inj h1]

/-- C117, endpoints for which nothing is configured on purpose: an empty list of ways stands for none at all, also at the user info
endpoint. -/
theorem C117_no_ways (lib : FactoryLib) (conf : StartConf) (s : Started) (h : startServer lib conf = .ok s)
    (hnd : (conf.endpoints.map (·.cls.name)).Nodup) (c : EndpConf) (hc : c ∈ conf.endpoints)
    (hv : c.kwargs.get? "client_authn_method" = some (strs [])) : s.methods.get? c.cls.name = some [none] := by
  obtain ⟨ms, h1, h2⟩ := (allMethods_get (steps h).methods).2.2 hnd c hc
  unfold endpointMethods at h1
  rw [hv] at h1
  simp [strs, Json.truthy] at h1
  rw [h2, ← h1]

namespace Ex

/-- The ways to authenticate at the token endpoint. -/
def startEndpoints : List EndpConf :=
  [⟨oidcAuthorizationClass, "authorization", []⟩,
   ⟨tokenClass, "token", [("client_authn_method", strs ["client_secret_basic", "private_key_jwt"])]⟩,
   ⟨userinfoClass, "userinfo", [("userinfo_signing_alg_values_supported", strs ["RS256", "ES256"])]⟩]

/-- A provider with the settings of the documentation. -/
def startConf : StartConf :=
  { issuer := "https://op.example", endpoints := startEndpoints, caps := some [("subject_types_supported", strs ["public"])]
    authn := [("user", { acr := some "urn:password", method := some "userpass" })], tokens := some docConf
    addOns := [.pkce (some ["S256"]), .dpop []] }

theorem settings_plain {s : Dict Json} (h1 : Grouped s) (lt : Int) (h2 : Lifetime s 0 lt)
    (h3 : (kwargsOf s).get? "token_class" = none ∧ (kwargsOf s).get? "server_get" = none) : SettingsInOrder s := ⟨h1, ⟨lt, h2⟩, h3⟩

theorem sortable_lib : Sortable cryptoLib := by
  intro a ha
  apply algRank_ok.1
  have : ∀ a ∈ cryptoLib.sign, (match algRank a with | .ok _ => true | .error _ => false) = true := by decide +kernel
  have := this a ha
  cases h : algRank a with
  | ok n => exact ⟨n, rfl⟩
  | error e => rw [h] at this; cases this

/-- No name in the kwargs of an endpoint is for algorithms, but for one. -/
theorem start_endpoints_in_order : ∀ c ∈ startEndpoints, EndpointInOrder factoryLib.crypto c := by
  intro c hc
  simp only [startEndpoints, List.mem_cons, List.not_mem_nil, or_false] at hc
  rcases hc with rfl | rfl | rfl
  · refine ⟨by simp [shippedClasses], ?_, .inl (by decide)⟩
    intro n _ algs _ v hv
    cases hv
  · refine ⟨by simp [shippedClasses], ?_, .inr ⟨_, rfl, by decide⟩⟩
    intro n hn algs _ v hv
    have : n = "token_endpoint_auth_signing_alg_values_supported" := by
      simpa [tokenClass, Dict.keys] using hn
    subst this
    cases hv
  · refine ⟨by simp [shippedClasses], ?_, .inl (by decide)⟩
    intro n hn algs hab v hv
    have hne : n = "userinfo_signing_alg_values_supported" := by
      refine Classical.byContradiction (fun e => ?_)
      rw [show Dict.get? [("userinfo_signing_alg_values_supported", strs ["RS256", "ES256"])] n = none from by
        rw [Dict.get?_cons, if_neg (fun e' => e e'.symm)]; rfl] at hv
      cases hv
    subst hne
    cases hv
    cases hab with
    | sign _ =>
      intro v hv
      obtain ⟨a, ha, rfl⟩ := List.mem_map.1 hv
      exact ⟨a, by revert a; decide, rfl⟩
    | alg h => exact absurd ((occursIn_iff _ _).1 (by decide +kernel)) h
    | enc h => exact absurd ((occursIn_iff _ _).1 (by decide +kernel)) h

theorem doc_tokens_in_order (lib : FactoryLib) (conf : FactoryConf) (h1 : conf.code = docConf.code) (h2 : conf.token = docConf.token)
    (h3 : conf.refresh = docConf.refresh ∨ conf.refresh = none) (hk : factoryKey lib conf "code" ≠ none) :
    ∀ n cls, (n, cls) ∈ tokenSettings → ∀ s, settingsOf conf n = some s → TokensInOrder (factoryKey lib conf n) s := by
  intro n cls hn s hs
  simp only [tokenSettings, List.mem_cons, List.not_mem_nil, or_false, Prod.mk.injEq] at hn
  rcases hn with ⟨rfl, rfl⟩ | ⟨rfl, rfl⟩ | ⟨rfl, rfl⟩
  · have : conf.code = some s := hs
    rw [h1] at this
    cases this
    refine ⟨⟨.inr ⟨_, rfl⟩, ⟨600, .kwargs (.inl rfl) rfl⟩, rfl, rfl⟩, .inl ⟨.inl rfl, rfl, fun h => absurd rfl h, hk⟩⟩
  · have : conf.token = some s := hs
    rw [h2] at this
    cases this
    exact ⟨⟨.inr ⟨_, rfl⟩, ⟨3600, .kwargs (.inl rfl) rfl⟩, rfl, rfl⟩, .inr ⟨rfl, rfl⟩⟩
  · have : conf.refresh = some s := hs
    rcases h3 with h3 | h3
    · rw [h3] at this
      cases this
      exact ⟨⟨.inl rfl, ⟨86400, .top rfl (by decide)⟩, rfl, rfl⟩, .inr ⟨rfl, rfl⟩⟩
    · rw [h3] at this; cases this

theorem doc_idTokens_in_order (lib : CryptoAlgs) : ∀ s, docConf.idToken = some s → IdTokensInOrder lib s := by
  intro s hs
  cases hs
  refine ⟨⟨.inr ⟨_, rfl⟩, ⟨900, .kwargs (.inl rfl) rfl⟩, rfl, rfl⟩, rfl, ?_⟩
  intro n hn algs _ v hv
  simp only [Dict.keys, List.map_cons, List.map_nil, List.mem_cons, List.not_mem_nil, or_false] at hn
  rcases hn with rfl | rfl | rfl <;> cases hv

theorem start_in_order (conf : StartConf) (he : conf.endpoints = startEndpoints) (ha : conf.authn = startConf.authn)
    (ho : conf.addOns = startConf.addOns) (ht : conf.tokens = some docConf ∨ conf.tokens = some { docConf with refresh := none })
    (hc : conf.claimsInterface = true) : ConfInOrder factoryLib conf where
  authn := by
    rw [ha]
    intro n i hni
    cases hni with
    | head => decide
    | tail _ h => cases h
  endpoints := by rw [he]; exact start_endpoints_in_order
  tokens := by
    rcases ht with ht | ht <;> (unfold StartConf.factoryConf; rw [ht])
    · exact doc_tokens_in_order _ _ rfl rfl (.inl rfl) (by decide +kernel)
    · exact doc_tokens_in_order _ _ rfl rfl (.inr rfl) (by decide +kernel)
  idTokens := by
    rcases ht with ht | ht <;> (unfold StartConf.factoryConf; rw [ht]; exact doc_idTokens_in_order _)
  addOns := by
    rw [ho]
    intro a ha
    simp only [startConf, List.mem_cons, List.not_mem_nil, or_false] at ha
    rcases ha with rfl | rfl
    · intro l hl m hm
      cases hl
      simp only [List.mem_cons, List.not_mem_nil, or_false] at hm
      exact .inr (.inl hm)
    · exact ⟨_, by rw [he]; exact List.mem_cons_of_mem _ List.mem_cons_self, rfl⟩
  claims := hc

/-- A provider that starts: in order, with refresh tokens, and with grant types from its authorization endpoint. -/
example : ∃ s, startServer factoryLib startConf = .ok s :=
  C117_starts_partial factoryLib sortable_lib startConf (start_in_order _ rfl rfl rfl (.inl rfl) rfl) (fun _ =>
    ⟨by decide, fun caps hc => .inr (by
      cases hc
      refine ⟨by decide, ⟨_, List.mem_cons_self, rfl⟩, ?_⟩
      intro c hc v hv
      have hc : c ∈ startEndpoints := hc
      simp only [startEndpoints, List.mem_cons, List.not_mem_nil, or_false] at hc
      rcases hc with rfl | rfl | rfl <;> cases hv)⟩)

/-- The premises of `C117_default_ways` hold of the user info endpoint of that provider. -/
example : (startConf.endpoints.map (·.cls.name)).Nodup ∧
    ∃ c ∈ startConf.endpoints, c.cls ∈ shippedClasses ∧ c.cls.name = "userinfo" ∧ c.kwargs.get? "client_authn_method" = none :=
  ⟨by decide, _, List.mem_cons_of_mem _ (List.mem_cons_of_mem _ List.mem_cons_self), by simp [shippedClasses], rfl, by decide⟩

/-- Providers that do not start: one that would authenticate clients in a way that nobody knows, one with DPoP and without token
endpoint. -/
example : Wrong factoryLib { startConf with endpoints :=
    [⟨tokenClass, "token", [("client_authn_method", strs ["client_secret_basic", "my_own"])]⟩] } :=
  .way _ List.mem_cons_self _ rfl "my_own" (by decide) (by decide)

example : Wrong factoryLib { startConf with endpoints := [⟨oidcAuthorizationClass, "authorization", []⟩] } :=
  .dpop [] (by decide) (by rintro ⟨c, hc, hn⟩; cases hc with | head => exact absurd hn (by decide) | tail _ h => cases h)

end Ex

/-- The code disagrees with C117: a provider in order in every point does not start, because it issues no refresh tokens. -/
theorem C117_starts_refuted :
    ¬ (∀ (lib : FactoryLib) (conf : StartConf), Sortable lib.crypto → ConfInOrder lib conf → GrantTypesKnown conf →
      ∃ s, startServer lib conf = .ok s) := by
  intro h
  let conf : StartConf := { Ex.startConf with tokens := some { Ex.docConf with refresh := none }, caps := none }
  obtain ⟨s, hs⟩ := h Ex.factoryLib conf Ex.sortable_lib (Ex.start_in_order conf rfl rfl rfl (.inr rfl) rfl) (fun _ e => by cases e)
  obtain ⟨e, he⟩ := C117_without_refresh Ex.factoryLib conf ⟨_, List.mem_cons_of_mem _ List.mem_cons_self, rfl⟩ rfl
  rw [hs] at he
  cases he

/-- The code disagrees with C117: nor does one start that has refresh tokens, but no authorization endpoint to say which grant types
there are, if capabilities are configured. -/
theorem C117_capabilities_refuted :
    ¬ (∀ (lib : FactoryLib) (conf : StartConf), Sortable lib.crypto → ConfInOrder lib conf →
      settingsOf conf.factoryConf "refresh" ≠ none → ∃ s, startServer lib conf = .ok s) := by
  intro h
  let conf : StartConf := { Ex.startConf with endpoints := [⟨tokenClass, "token", []⟩], addOns := [] }
  have ho : ConfInOrder Ex.factoryLib conf := by
    have := Ex.start_in_order Ex.startConf rfl rfl rfl (.inl rfl) rfl
    refine ⟨this.authn, ?_, this.tokens, this.idTokens, (fun a ha => absurd ha List.not_mem_nil), rfl⟩
    intro c hc
    cases hc with
    | head => exact ⟨by simp [shippedClasses], fun n _ algs _ v hv => (by cases hv), .inl rfl⟩
    | tail _ h => cases h
  obtain ⟨s, hs⟩ := h Ex.factoryLib conf Ex.sortable_lib ho (by decide)
  obtain ⟨e, he⟩ := C117_without_grant_types Ex.factoryLib conf ⟨_, List.mem_cons_self, rfl⟩ _ rfl (by decide) (by
    intro c hc
    cases hc with
    | head => exact ⟨by simp [shippedClasses], by decide⟩
    | tail _ h => cases h)
  rw [hs] at he
  cases he

end OidcOp
