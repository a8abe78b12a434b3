/-
The provider metadata: C96-C98.
-/
import Verif.Lemmas.Metadata
import Verif.Props.Scopes
import Verif.Props.Dpop
import Verif.Model.ClientAuthn

namespace OidcOp
open Spec

/-! ### what the shipped endpoint classes are like -/

theorem members_later : ∀ k ∈ endpointMembers, k ∉ laterMembers := by decide

theorem shipped_members : ∀ c ∈ shippedClasses, ∀ k ∈ endpointMembers, k ∉ c.members := by decide

theorem shipped_named : ∀ c ∈ shippedClasses, c.endpointName ≠ "" → c.endpointName ∈ endpointMembers ∧ ¬ leftOut c.name := by
  unfold leftOut; decide

theorem shipped_same : ∀ c ∈ shippedClasses, ∀ c' ∈ shippedClasses, c.endpointName ≠ "" → c.endpointName = c'.endpointName →
    c.name = c'.name := by decide

theorem shipped_names : ∀ c ∈ shippedClasses, c.name ∉ endpointMembers := by decide

theorem kind_inj {l : List EndpConf} (h : (l.map (fun c => c.cls.name)).Nodup) {c c' : EndpConf} (hc : c ∈ l) (hc' : c' ∈ l)
    (e : c.cls.name = c'.cls.name) : c = c' := by
  induction l with
  | nil => cases hc
  | cons x l ih =>
    rw [List.map_cons, List.nodup_cons] at h
    rcases List.mem_cons.1 hc with e1 | m1
    · rcases List.mem_cons.1 hc' with e2 | m2
      · rw [e1, e2]
      · exact absurd (List.mem_map.2 ⟨c', m2, by rw [← e, e1]⟩) h.1
    · rcases List.mem_cons.1 hc' with e2 | m2
      · exact absurd (List.mem_map.2 ⟨c, m1, by rw [e, e2]⟩) h.1
      · exact ih h.2 m1 m2

theorem addEndpoints_none {endps : Dict Endp} {info : Dict Json} {ks : List String} (h : ∀ k ∈ ks, endps.get? k = none) :
    addEndpoints endps info ks = info := by
  induction ks with
  | nil => rfl
  | cons k ks ih =>
    unfold addEndpoints
    rw [h k List.mem_cons_self]
    exact ih (fun k' hk => h k' (List.mem_cons_of_mem _ hk))

/-- The endpoints of a server by name. -/
theorem endps_get {lib : CryptoAlgs} {conf : ServerConf} {s : Serv} (h : makeServer lib conf = .ok s) (h1 : OneOfAKind conf)
    {c : EndpConf} (hc : c ∈ conf.endpoints) :
    ∃ e, buildOne lib conf.issuer c = .ok e ∧ s.endpoints.get? c.cls.name = some e := by
  obtain ⟨endps, idt, hb, _, he, _⟩ := makeServer_spec h
  obtain ⟨c', hc', hn, e, h2, h3⟩ := (build_has hb c.cls.name).2 c hc rfl
  cases kind_inj h1 hc hc' hn.symm
  exact ⟨e, h2, by rw [he]; exact h3⟩

theorem endps_from {lib : CryptoAlgs} {conf : ServerConf} {s : Serv} (h : makeServer lib conf = .ok s) {p : String × Endp}
    (hp : p ∈ s.endpoints) : ∃ c ∈ conf.endpoints, c.cls.name = p.1 ∧ buildOne lib conf.issuer c = .ok p.2 := by
  obtain ⟨endps, idt, hb, _, he, _⟩ := makeServer_spec h
  rw [he] at hp
  rcases build_from hb p hp with h | h
  · cases h
  · exact h

theorem document_get {lib : CryptoAlgs} {conf : ServerConf} {s : Serv} (h : makeServer lib conf = .ok s) (hs : Shipped conf)
    (defaults : Dict Json) (k : String) : (document defaults s).get? k = (s.info.get? k).or (defaults.get? k) := by
  unfold document
  rw [addEndpoints_none, get?_addMissing]
  intro k hk
  cases hg : s.endpoints.get? k with
  | none => rfl
  | some e =>
    obtain ⟨c, hc, hn, _⟩ := endps_from h (Dict.get?_mem hg)
    refine absurd ?_ (shipped_names c.cls (hs c hc))
    rw [hn]
    have : ∀ x ∈ ["authorization_endpoint", "registration_endpoint", "token_endpoint", "userinfo_endpoint", "end_session_endpoint"],
      x ∈ endpointMembers := by decide
    exact this k hk

/-- What is published under the name of an endpoint. -/
theorem url_from {lib : CryptoAlgs} {conf : ServerConf} {s : Serv} (h : makeServer lib conf = .ok s) (hs : Shipped conf)
    {k : String} (hk : k ∈ endpointMembers) {v : Json} (hv : firstInfo k s.endpoints = some v) :
    ∃ c ∈ conf.endpoints, c.cls.endpointName = k ∧ v = .str (fullPath conf.issuer c.path) := by
  obtain ⟨p, hp, _, hi⟩ := firstInfo_some hv
  obtain ⟨c, hc, _, hb⟩ := endps_from h hp
  rcases built_get hb hi with ⟨h1, _, h2⟩ | h1
  · exact ⟨c, hc, h1.symm, h2⟩
  · exact absurd h1 (shipped_members c.cls (hs c hc) k hk)

theorem url_there {lib : CryptoAlgs} {conf : ServerConf} {s : Serv} (h : makeServer lib conf = .ok s) (hs : Shipped conf)
    (h1 : OneOfAKind conf) {c : EndpConf} (hc : c ∈ conf.endpoints) (hn : c.cls.endpointName ≠ "") :
    firstInfo c.cls.endpointName s.endpoints = some (.str (fullPath conf.issuer c.path)) := by
  obtain ⟨e, hb, hg⟩ := endps_get h h1 hc
  obtain ⟨hm, hsk⟩ := shipped_named c.cls (hs c hc) hn
  cases hf : firstInfo c.cls.endpointName s.endpoints with
  | none =>
    have := firstInfo_none hf (c.cls.name, e) (Dict.get?_mem hg) hsk
    rw [built_url hb hn] at this
    cases this
  | some v =>
    obtain ⟨c', hc', he, hv⟩ := url_from h hs hm hf
    rw [hv]
    cases kind_inj h1 hc hc' (shipped_same c.cls (hs c hc) c'.cls (hs c' hc') hn he.symm)
    rfl

/-- C96, where neither the capabilities in the configuration nor the message class name URLs of endpoints: whatever else is
configured, the document of the provider configuration endpoint names every configured endpoint with the URL that it is
reached at, names no other, and names the issuer of the configuration. -/
theorem C96_urls_partial (lib : CryptoAlgs) (conf : ServerConf) (s : Serv) (defaults : Dict Json) (h : makeServer lib conf = .ok s)
    (hs : Shipped conf) (h1 : OneOfAKind conf) (hu : NoUrls conf.caps) (hd : NoUrls (some defaults)) :
    (∀ c ∈ conf.endpoints, c.cls.endpointName ≠ "" →
      ∃ u, UrlAt conf.issuer c.path u ∧ (document defaults s).get? c.cls.endpointName = some (.str u)) ∧
    (∀ k ∈ endpointMembers, ∀ v, (document defaults s).get? k = some v →
      ∃ c ∈ conf.endpoints, c.cls.endpointName = k ∧ ∃ u, UrlAt conf.issuer c.path u ∧ v = .str u) ∧
    (document defaults s).get? "issuer" = some (.str conf.issuer) := by
  refine ⟨?_, ?_, ?_⟩
  · intro c hc hn
    have hm := (shipped_named c.cls (hs c hc) hn).1
    refine ⟨_, fullPath_at _ _, ?_⟩
    rw [document_get h hs, info_get h _ (members_later _ hm), hu _ hm, url_there h hs h1 hc hn]
    rfl
  · intro k hk v hv
    rw [document_get h hs, info_get h _ (members_later _ hk), hu _ hk, show defaults.get? k = none from hd _ hk] at hv
    have hv : firstInfo k s.endpoints = some v := by
      cases hf : firstInfo k s.endpoints with
      | none => rw [hf] at hv; cases hv
      | some x => rw [hf] at hv; exact hv
    obtain ⟨c, hc, he, hv⟩ := url_from h hs hk hv
    exact ⟨c, hc, he, _, fullPath_at _ _, hv⟩
  · rw [document_get h hs]
    obtain ⟨endps, idt, _, hi, _, hinfo, _⟩ := makeServer_spec h
    have key : s.info.get? "issuer" = some (.str conf.issuer) := by
      rw [hinfo, Dict.get?_update, idToken_keys hi (.inl (by decide))]
      simp only []
      have fold : ∀ (l : List AddOn) (x : Dict Json × ScopeCfg), (l.foldl addOn x).1.get? "issuer" = x.1.get? "issuer" := by
        intro l
        induction l with
        | nil => intro x; rfl
        | cons a l ih =>
          intro x
          rw [List.foldl_cons, ih]
          cases a with
          | pkce => rfl
          | dpop algs => exact Dict.get?_set_ne _ _ (by decide)
          | customScopes m =>
            unfold addOn
            simp only []
            rw [Dict.get?_set_ne _ _ (by decide), Dict.get?_set_ne _ _ (by decide)]
      rw [fold]
      unfold createProviderInfo
      simp only []
      rw [get?_withClaims_ne _ _ _ (by decide), get?_withScopes, if_neg (by decide), get?_withJwks, if_neg (by decide),
        get?_withAcr, if_neg (fun e => absurd e.2 (by decide)), Dict.get?_set_ne _ _ (by decide), Dict.get?_set_self]
    rw [key]
    rfl

theorem shipped_targets : ∀ c ∈ shippedClasses, c.name ≠ "" ∧ (c.issuerTarget = true ↔ c.name = "userinfo") := by decide

/-- What an endpoint accepts as audience. -/
theorem targets_eq {lib : CryptoAlgs} {conf : ServerConf} {s : Serv} (h : makeServer lib conf = .ok s) (hs : Shipped conf)
    (h1 : OneOfAKind conf) {c : EndpConf} (hc : c ∈ conf.endpoints) {e : Endp} (he : s.endpoints.get? c.cls.name = some e) :
    targetUris conf.issuer s.endpoints e.targets =
      .ok (fullPath conf.issuer c.path :: (if c.cls.issuerTarget then [conf.issuer] else [])) := by
  obtain ⟨e', hb, hg⟩ := endps_get h h1 hc
  rw [he] at hg
  cases hg
  obtain ⟨i, _, _, _, hfp, _, ht⟩ := built_info hb
  have hne := (shipped_targets c.cls (hs c hc)).1
  rw [ht]
  cases c.cls.issuerTarget
  · simp only [Bool.false_eq_true, if_false]
    unfold targetUris
    simp only [targetUris]
    rw [if_neg hne, he, ← hfp]
  · simp only [if_true]
    unfold targetUris
    simp only [targetUris, if_true]
    rw [if_neg hne, he, ← hfp]

/-- C96.  A client that makes an assertion for the URL it reads in the metadata is taken at that endpoint: the audiences
that an endpoint accepts are its published URL, and at the userinfo endpoint the published issuer too, and nothing else. -/
theorem C96_audience_partial (lib : CryptoAlgs) (conf : ServerConf) (s : Serv) (defaults : Dict Json)
    (h : makeServer lib conf = .ok s) (hs : Shipped conf) (h1 : OneOfAKind conf) (hu : NoUrls conf.caps)
    (hd : NoUrls (some defaults)) (c : EndpConf) (hc : c ∈ conf.endpoints) (hn : c.cls.endpointName ≠ "") (e : Endp)
    (he : s.endpoints.get? c.cls.name = some e) :
    ∃ l, targetUris conf.issuer s.endpoints e.targets = .ok l ∧ ∀ u, u ∈ l ↔
      (document defaults s).get? c.cls.endpointName = some (.str u) ∨
      (c.cls.endpointName = "userinfo_endpoint" ∧ (document defaults s).get? "issuer" = some (.str u)) := by
  obtain ⟨ha, _, hi⟩ := C96_urls_partial lib conf s defaults h hs h1 hu hd
  obtain ⟨u0, h2, h3⟩ := ha c hc hn
  refine ⟨_, targets_eq h hs h1 hc he, fun u => ?_⟩
  rw [h3, hi, urlAt_unique h2 (fullPath_at _ _)]
  have key : ∀ c ∈ shippedClasses, (c.issuerTarget = true ↔ c.endpointName = "userinfo_endpoint") := by decide
  have hk := key c.cls (hs c hc)
  cases hit : c.cls.issuerTarget
  · have : c.cls.endpointName ≠ "userinfo_endpoint" := fun x => by rw [hk.2 x] at hit; cases hit
    simp [this, eq_comm]
  · have := hk.1 hit
    simp [this, eq_comm]

/-- C96.  With its own key and an assertion that has not been used, a registered client passes `private_key_jwt` at an endpoint
exactly if the assertion is for the URL published for the endpoint (or at the userinfo endpoint for the issuer). -/
theorem C96_assertion_partial (lib : CryptoAlgs) (conf : ServerConf) (s : Serv) (defaults : Dict Json)
    (h : makeServer lib conf = .ok s) (hs : Shipped conf) (h1 : OneOfAKind conf) (hu : NoUrls conf.caps)
    (hd : NoUrls (some defaults)) (c : EndpConf) (hc : c ∈ conf.endpoints) (hn : c.cls.endpointName ≠ "") (e : Endp)
    (he : s.endpoints.get? c.cls.name = some e) (C : AuthnCtx) (ht : targetUris conf.issuer s.endpoints e.targets = .ok C.targets)
    (req : AuthnReq) (a client : String) (A : Assertion) (auds : List String) (cl : AuthnClient) (seen : List String)
    (hr : req.clientAssertion = some a) (hA : C.unpack a = some A) (hiss : A.iss = some client) (hne : client ≠ "")
    (hcl : C.cdb.get? client = some (.info cl)) (hv : cl.expiresAt = 0 ∨ C.now ≤ cl.expiresAt)
    (haud : A.aud = some auds) (hhs : A.hs = false) (hj : ∀ j, A.jti = some j → jtiKey client j ∉ seen) :
    (∃ seen', verifyClient C [some .privateKeyJwt] none req none seen =
      (.ok (some { clientId := some client, method := "private_key_jwt", assertion := some A }), seen')) ↔
    ∃ u ∈ auds, (document defaults s).get? c.cls.endpointName = some (.str u) ∨
      (c.cls.endpointName = "userinfo_endpoint" ∧ (document defaults s).get? "issuer" = some (.str u)) := by
  obtain ⟨l, hl, hmem⟩ := C96_audience_partial lib conf s defaults h hs h1 hu hd c hc hn e he
  rw [hl] at ht
  cases ht
  have hiff : audCheck C A = true ↔ ∃ u ∈ auds, (document defaults s).get? c.cls.endpointName = some (.str u) ∨
      (c.cls.endpointName = "userinfo_endpoint" ∧ (document defaults s).get? "issuer" = some (.str u)) := by
    unfold audCheck
    rw [haud]
    simp only [List.any_eq_true, List.contains_iff_mem, hmem]
  rw [← hiff]
  obtain ⟨seen1, hjti⟩ : ∃ seen1, jtiCheck "private_key_jwt" A seen =
      (some { clientId := some client, method := "private_key_jwt", assertion := some A }, seen1) := by
    unfold jtiCheck
    rw [hiss]
    simp only []
    cases hja : A.jti with
    | none => exact ⟨seen, rfl⟩
    | some j =>
      unfold truthyStr
      simp only []
      by_cases hj0 : j = ""
      · rw [if_pos hj0]; exact ⟨seen, rfl⟩
      · rw [if_neg hj0]
        simp only []
        rw [if_neg (hj j hja)]
        exact ⟨_, rfl⟩
  have hjws : jwsVerify C "private_key_jwt" true (some a) seen =
      if audCheck C A then (some { clientId := some client, method := "private_key_jwt", assertion := some A }, seen1)
      else (none, seen) := by
    unfold jwsVerify keyCheck
    simp only [Option.bind_some, hA, hhs, Bool.false_eq_true, if_false, Bool.true_and, hjti]
  have hfin : finishClient C none req { clientId := some client, method := "private_key_jwt", assertion := some A } =
      .ok { clientId := some client, method := "private_key_jwt", assertion := some A } := by
    have hval : validClientInfo C.now cl = true := by
      unfold validClientInfo
      rcases hv with hv | hv
      · simp [hv]
      · simp; exact .inr hv
    unfold finishClient checkClient
    simp [truthyStr, hne, hcl, hval]
  cases hac : audCheck C A
  · simp [verifyClient, tryMethods, CAuthn.usable, CAuthn.verify, CAuthn.tag, hr, hjws, hac]
  · simp [verifyClient, tryMethods, CAuthn.usable, CAuthn.verify, CAuthn.tag, hr, hjws, hac, hfin, Except.map]

/-! ### C97 -/

theorem addOns_keep (conf : ServerConf) (k : String) (hk : ¬ DecidedElsewhere conf k) (l : List AddOn)
    (hl : ∀ a ∈ l, a ∈ conf.addOns) (x : Dict Json × ScopeCfg) : (l.foldl addOn x).1.get? k = x.1.get? k := by
  induction l generalizing x with
  | nil => rfl
  | cons a l ih =>
    rw [List.foldl_cons, ih (fun b hb => hl b (List.mem_cons_of_mem _ hb))]
    have ha := hl a List.mem_cons_self
    cases a with
    | pkce => rfl
    | dpop algs => exact Dict.get?_set_ne _ _ (fun e : _ = k => hk (e ▸ .dpop algs ha))
    | customScopes m =>
      unfold addOn
      simp only []
      rw [Dict.get?_set_ne _ _ (fun e : _ = k => hk (e ▸ .claims m ha)),
        Dict.get?_set_ne _ _ (fun e : _ = k => hk (e ▸ .scopes m ha))]

/-- C97, for the members that nothing else decides about: what the configuration says in its capabilities is what is published,
whatever the endpoints would publish by themselves. -/
theorem C97_configured_partial (lib : CryptoAlgs) (conf : ServerConf) (s : Serv) (defaults : Dict Json)
    (h : makeServer lib conf = .ok s) (hs : Shipped conf) (k : String) (v : Json) (hv : (conf.caps.getD []).get? k = some v)
    (hk : ¬ DecidedElsewhere conf k) : s.info.get? k = some v ∧ (document defaults s).get? k = some v := by
  obtain ⟨endps, idt, _, hi, _, hinfo, _⟩ := makeServer_spec h
  have hidt : Dict.get? idt.reverse k = none := by
    cases hkw : conf.idToken with
    | none => exact idToken_keys hi (.inr hkw)
    | some kw => exact idToken_keys hi (.inl (fun hm => hk (.idToken kw hkw k hm)))
  have key : s.info.get? k = some v := by
    rw [hinfo, Dict.get?_update, hidt]
    simp only []
    rw [addOns_keep conf k hk _ (fun _ h => h)]
    unfold createProviderInfo
    simp only []
    apply get?_withClaims_some
    rw [get?_withScopes]
    have : (withJwks conf.issuer conf.jwksPath (withAcr conf.broker
        (((collectCaps (conf.caps.getD []) endps).set "issuer" (.str conf.issuer)).set "version" (.str "3.0")))).get? k
        = some v := by
      rw [get?_withJwks]
      have h2 : (withAcr conf.broker (((collectCaps (conf.caps.getD []) endps).set "issuer" (.str conf.issuer)).set "version"
          (.str "3.0"))).get? k = some v := by
        rw [get?_withAcr, if_neg (fun e : _ ∧ k = _ => hk (e.2 ▸ .acr e.1)), Dict.get?_set_ne _ _ (fun e : _ = k => hk (e ▸ .version)),
          Dict.get?_set_ne _ _ (fun e : _ = k => hk (e ▸ .issuer)), get?_collect, hv]
        rfl
      rw [h2]
      by_cases e : k = "jwks_uri"
      · rw [if_pos e]
        cases hp : conf.jwksPath with
        | none => rfl
        | some p => exact absurd (e ▸ .jwks p hp) hk
      · rw [if_neg e]
    rw [this]
    by_cases e : k = "scopes_supported"
    · rw [if_pos e]; rfl
    · rw [if_neg e]
  refine ⟨key, ?_⟩
  rw [document_get h hs, key]
  rfl

/-! #### the order of the endpoints -/

theorem get?_withClaims (c : ScopeCfg) (d : Dict Json) (k : String) :
    (withClaims c d).get? k = if k = "claims_supported" then (d.get? k).or (some (strs
      (scopesToClaims c [] none (stringsOf ((d.get? "scopes_supported").getD .null))))) else d.get? k := by
  unfold withClaims Dict.has
  by_cases e : k = "claims_supported"
  · subst e
    rw [if_pos rfl]
    cases h : d.get? "claims_supported" with
    | none => simp
    | some v => simp [h]
  · rw [if_neg e]
    split
    · rfl
    · rw [Dict.get?_set_ne _ _ (fun h => e h.symm)]

theorem create_ext (conf conf' : ServerConf) (h1 : conf.issuer = conf'.issuer) (h2 : conf.broker = conf'.broker)
    (h3 : conf.jwksPath = conf'.jwksPath) (h4 : conf.scopes = conf'.scopes) (d d' : Dict Json) (h : ∀ k, d.get? k = d'.get? k)
    (k : String) : (createProviderInfo conf d).get? k = (createProviderInfo conf' d').get? k := by
  unfold createProviderInfo
  simp only [get?_withClaims, get?_withScopes, get?_withJwks, get?_withAcr, Dict.get?_set, h, h1, h2, h3, h4]

theorem addOns_ext (l : List AddOn) (x y : Dict Json × ScopeCfg) (h : ∀ k, x.1.get? k = y.1.get? k) (h2 : x.2 = y.2) :
    (∀ k, (l.foldl addOn x).1.get? k = (l.foldl addOn y).1.get? k) ∧ (l.foldl addOn x).2 = (l.foldl addOn y).2 := by
  induction l generalizing x y with
  | nil => exact ⟨h, h2⟩
  | cons a l ih =>
    rw [List.foldl_cons, List.foldl_cons]
    apply ih
    · intro k
      cases a with
      | pkce => exact h k
      | dpop algs => simp only [addOn, Dict.get?_set, h]
      | customScopes m => simp only [addOn, Dict.get?_set, h]
    · cases a with
      | pkce => exact h2
      | dpop algs => exact h2
      | customScopes m => simp only [addOn, h, h2]

theorem built_info_get {lib : CryptoAlgs} {issuer : String} {c : EndpConf} {e : Endp} (h : buildOne lib issuer c = .ok e) {k : String}
    {v : Json} (hv : (e.info.getD []).get? k = some v) :
    (k = c.cls.endpointName ∧ k ≠ "" ∧ v = .str (fullPath issuer c.path)) ∨
    ∃ i, c.cls.info lib c.kwargs = .ok (some i) ∧ i.get? k = some v := by
  obtain ⟨i, hi, _, _, _, he, _⟩ := built_info h
  rw [he] at hv
  have key : ∀ v, (i.getD []).get? k = some v → ∃ i, c.cls.info lib c.kwargs = .ok (some i) ∧ i.get? k = some v := by
    intro v hv
    cases i with
    | none => cases hv
    | some j => exact ⟨j, hi, hv⟩
  unfold withUrl at hv
  split at hv
  · exact .inr (key v hv)
  · rename_i hne
    rw [Option.getD_some, Dict.get?_set] at hv
    split at hv
    · rename_i e; cases hv; exact .inl ⟨e.symm, by rw [← e]; exact hne, rfl⟩
    · exact .inr (key v hv)

/-- C97, where no two endpoints publish different things under one name: the order of the endpoints in the configuration makes no
difference to what is published. -/
theorem C97_order_partial (lib : CryptoAlgs) (conf : ServerConf) (endpoints : List EndpConf) (s s' : Serv)
    (hp : conf.endpoints.Perm endpoints) (h : makeServer lib conf = .ok s)
    (h' : makeServer lib { conf with endpoints := endpoints } = .ok s') (hs : Shipped conf) (h1 : OneOfAKind conf)
    (ha : Agree lib conf) (k : String) : s.info.get? k = s'.info.get? k := by
  have hs' : Shipped { conf with endpoints := endpoints } := fun c hc => hs c (hp.mem_iff.2 hc)
  have h1' : OneOfAKind { conf with endpoints := endpoints } := (hp.map _).nodup h1
  -- two values under one name are the same
  have same : ∀ k v v', firstInfo k s.endpoints = some v → firstInfo k s'.endpoints = some v' → v = v' := by
    intro k v v' hv hv'
    obtain ⟨p, hpm, _, hi⟩ := firstInfo_some hv
    obtain ⟨q, hqm, _, hi'⟩ := firstInfo_some hv'
    obtain ⟨c, hc, hcn, hb⟩ := endps_from h hpm
    obtain ⟨c', hc', hcn', hb'⟩ := endps_from h' hqm
    have hc' : c' ∈ conf.endpoints := hp.mem_iff.2 hc'
    rcases built_info_get hb hi with ⟨e1, e2, e3⟩ | ⟨i, e1, e2⟩ <;>
      rcases built_info_get hb' hi' with ⟨f1, f2, f3⟩ | ⟨i', f1, f2⟩
    · cases kind_inj h1 hc hc' (shipped_same c.cls (hs c hc) c'.cls (hs c' hc') (e1 ▸ e2) (e1.symm.trans f1))
      rw [e3, f3]
    · have hm := (shipped_named c.cls (hs c hc) (e1 ▸ e2)).1
      rw [← e1] at hm
      exact absurd (info_members f1 f2) (shipped_members c'.cls (hs c' hc') k hm)
    · have hm := (shipped_named c'.cls (hs c' hc') (f1 ▸ f2)).1
      rw [← f1] at hm
      exact absurd (info_members e1 e2) (shipped_members c.cls (hs c hc) k hm)
    · exact ha c hc c' hc' i i' e1 f1 k v v' e2 f2
  have there : ∀ {conf conf' : ServerConf} {s s' : Serv}, makeServer lib conf = .ok s → makeServer lib conf' = .ok s' →
      OneOfAKind conf' → conf.issuer = conf'.issuer → (∀ c ∈ conf.endpoints, c ∈ conf'.endpoints) → ∀ k v,
      firstInfo k s.endpoints = some v → firstInfo k s'.endpoints ≠ none := by
    intro conf conf' s s' h h' h1' hi hsub k v hv hn
    obtain ⟨p, hpm, hsk, hi2⟩ := firstInfo_some hv
    obtain ⟨c, hc, hcn, hb⟩ := endps_from h hpm
    obtain ⟨e, hb', hg⟩ := endps_get h' h1' (hsub c hc)
    rw [← hi, hb] at hb'
    cases hb'
    rw [hcn] at hg
    rw [firstInfo_none hn _ (Dict.get?_mem hg) hsk] at hi2
    cases hi2
  have first : ∀ k, firstInfo k s.endpoints = firstInfo k s'.endpoints := by
    intro k
    cases hv : firstInfo k s.endpoints with
    | none =>
      cases hv' : firstInfo k s'.endpoints with
      | none => rfl
      | some v' => exact absurd hv (there h' h h1 rfl (fun c hc => hp.mem_iff.2 hc) k v' hv')
    | some v =>
      cases hv' : firstInfo k s'.endpoints with
      | none => exact absurd hv' (there h h' h1' rfl (fun c hc => hp.mem_iff.1 hc) k v hv)
      | some v' => rw [same k v v' hv hv']
  obtain ⟨endps, idt, _, hi, he, hinfo, _⟩ := makeServer_spec h
  obtain ⟨endps', idt', _, hi', he', hinfo', _⟩ := makeServer_spec h'
  have hidt : idt = idt' := by
    have : Except.ok idt = Except.ok idt' := hi.symm.trans hi'
    cases this; rfl
  rw [hinfo, hinfo', Dict.get?_update, Dict.get?_update, ← hidt]
  have : ∀ k, (collectCaps (conf.caps.getD []) endps).get? k = (collectCaps (conf.caps.getD []) endps').get? k := by
    intro k
    rw [get?_collect, get?_collect, ← he, ← he', first]
  have hext := (addOns_ext conf.addOns (createProviderInfo conf (collectCaps (conf.caps.getD []) endps), conf.scopes)
    (createProviderInfo { conf with endpoints := endpoints } (collectCaps (conf.caps.getD []) endps'), conf.scopes)
    (create_ext conf { conf with endpoints := endpoints } rfl rfl rfl rfl _ _ this) rfl).1 k
  rw [hext]

/-! ### C98 -/

theorem find_acr {b : List AuthnMethod} {a : String} (h : ∃ m ∈ b, m.acr = a) :
    ∃ m ∈ b, m.acr = a ∧ b.find? (fun m => decide (Json.str m.acr = .str a)) = some m := by
  cases hf : b.find? (fun m => decide (Json.str m.acr = .str a)) with
  | none =>
    obtain ⟨m, hm, e⟩ := h
    have := List.find?_eq_none.1 hf m hm
    simp [e] at this
  | some m =>
    refine ⟨m, List.mem_of_find?_eq_some hf, ?_, rfl⟩
    have := List.find?_some hf
    simpa using this

/-- C98.  The authentication context class references in the metadata are those of the methods of authentication, and a request
for one of them gets such a method. -/
theorem C98_acr (lib : CryptoAlgs) (conf : ServerConf) (s : Serv) (h : makeServer lib conf = .ok s) (hb : conf.broker ≠ []) :
    s.info.get? "acr_values_supported" = some (.arr (conf.broker.map (fun m => .str m.acr))) ∧
    ∀ l, s.info.get? "acr_values_supported" = some (.arr l) → ∀ a, .str a ∈ l → ∀ (hint : List String) (req : AuthzReq),
      req.acrValues = some [a] → ∃ m ∈ conf.broker, m.acr = a ∧ pickMethod conf.broker hint req = .ok m := by
  obtain ⟨endps, idt, _, hi, _, hinfo, _⟩ := makeServer_spec h
  have key : s.info.get? "acr_values_supported" = some (.arr (conf.broker.map (fun m => .str m.acr))) := by
    rw [hinfo, Dict.get?_update, idToken_keys hi (.inl (by decide))]
    simp only []
    have fold : ∀ (l : List AddOn) (x : Dict Json × ScopeCfg),
        (l.foldl addOn x).1.get? "acr_values_supported" = x.1.get? "acr_values_supported" := by
      intro l
      induction l with
      | nil => intro x; rfl
      | cons a l ih =>
        intro x
        rw [List.foldl_cons, ih]
        cases a with
        | pkce => rfl
        | dpop algs => exact Dict.get?_set_ne _ _ (by decide)
        | customScopes m =>
          unfold addOn
          simp only []
          rw [Dict.get?_set_ne _ _ (by decide), Dict.get?_set_ne _ _ (by decide)]
    rw [fold]
    unfold createProviderInfo
    simp only []
    rw [get?_withClaims_ne _ _ _ (by decide), get?_withScopes, if_neg (by decide), get?_withJwks, if_neg (by decide), get?_withAcr,
      if_pos ⟨hb, rfl⟩]
    simp [strs]
  refine ⟨key, fun l hl a ha hint req hreq => ?_⟩
  rw [key] at hl
  cases hl
  have hex : ∃ m ∈ conf.broker, m.acr = a := by
    obtain ⟨m, hm, e⟩ := List.mem_map.1 ha
    exact ⟨m, hm, by injection e⟩
  obtain ⟨m, hm, hma, hf⟩ := find_acr hex
  refine ⟨m, hm, hma, ?_⟩
  unfold pickMethod pickAuth
  match hbr : conf.broker with
  | [] => exact absurd hbr hb
  | [m0] =>
    rw [hbr, List.mem_singleton] at hm
    rw [hm]
  | m0 :: m1 :: r =>
    rw [hbr] at hf
    simp only [wantedAcrs, hreq, List.map_cons, List.map_nil, List.findSome?_cons, hf]

/-- The strings that a member holds. -/
def publishedStrings (d : Dict Json) (k : String) : List String := stringsOf ((d.get? k).getD .null)

theorem stringsOf_strs (l : List String) : stringsOf (strs l) = l := by
  unfold stringsOf strs
  simp only [List.filterMap_map]
  induction l with
  | nil => rfl
  | cons a l ih => simp only [List.filterMap_cons, Function.comp]; rw [ih]

theorem mem_stringsOf {l : List Json} {x : String} (h : .str x ∈ l) : x ∈ stringsOf (.arr l) :=
  List.mem_filterMap.2 ⟨.str x, h, rfl⟩

theorem defaultFor_empty (lib : CryptoAlgs) (k : String) : defaultFor lib k (.arr []) = .ok (some (.arr [])) := by
  unfold defaultFor
  rw [if_pos (by simp)]

theorem shipped_scopes : ∀ c ∈ shippedClasses, ∀ d, ("scopes_supported", d) ∈ c.caps.getD [] → d = .arr [] := by
  intro c hc d hd
  simp only [shippedClasses, List.mem_cons, List.not_mem_nil, or_false] at hc
  rcases hc with rfl | rfl | rfl | rfl | rfl | rfl | rfl | rfl | rfl | rfl | rfl <;>
    simp [oidcAuthorizationClass, oauth2AuthorizationClass, oauth2AuthorizationCaps, pushedAuthorizationClass, tokenClass,
      userinfoClass, sessionClass, registrationClass, introspectionClass, registrationReadClass, discoveryClass,
      providerConfigClass] at hd <;> exact hd

theorem shipped_scopes_info {lib : CryptoAlgs} {c : EndpConf} (hc : c.cls ∈ shippedClasses) {i : Dict Json}
    (h : c.cls.info lib c.kwargs = .ok (some i)) (hk : c.kwargs.get? "scopes_supported" = none) {v : Json}
    (hv : i.get? "scopes_supported" = some v) : v = .arr [] := by
  unfold EndpClass.info at h
  cases hcc : c.cls.caps with
  | none => rw [hcc] at h; cases h
  | some d =>
    rw [hcc] at h
    simp only [] at h
    cases hi : constructEndpointInfo lib d c.kwargs with
    | error e => rw [hi] at h; cases h
    | ok j =>
      rw [hi] at h
      simp only [] at h
      cases h
      have hv : j.get? "scopes_supported" = some v := by
        unfold withAuthMethods at hv
        split at hv
        · rwa [Dict.get?_set_ne _ _ (by decide)] at hv
        · exact hv
      rcases loop_mem hi hv with h1 | ⟨d0, hd, h1⟩
      · cases h1
      · have hd0 := shipped_scopes c.cls hc d0 (by rw [hcc]; exact hd)
        rcases endpointAttr_some h1 with ⟨x, hx, _⟩ | ⟨_, h2⟩
        · rw [hk] at hx; cases hx
        · rw [hd0, defaultFor_empty] at h2
          cases h2; rfl

/-- C98, where the configuration does not list the scopes itself: every scope in the metadata, also those of an add-on, is granted
to a client without settings of its own, and requests with it pass the policy on unknown scopes. -/
theorem C98_scopes_partial (lib : CryptoAlgs) (conf : ServerConf) (s : Serv) (h : makeServer lib conf = .ok s) (hs : Shipped conf)
    (hc : (conf.caps.getD []).get? "scopes_supported" = none)
    (hk : ∀ c ∈ conf.endpoints, c.kwargs.get? "scopes_supported" = none) (l : List Json)
    (hl : s.info.get? "scopes_supported" = some (.arr l)) (x : String) (hx : .str x ∈ l) (client : String) (hne : client ≠ "")
    (hcl : NoOwnScopes s.scopes client) :
    filterScopes s.scopes (some client) [x] = [x] ∧ checkUnknownScopes s.scopes client (some [x]) = .ok () := by
  obtain ⟨endps, idt, hbld, hi, he, hinfo, hsc⟩ := makeServer_spec h
  -- what is published is allowed
  have step : ∀ (l : List AddOn) (y : Dict Json × ScopeCfg),
      (∀ x ∈ publishedStrings y.1 "scopes_supported", x ∈ y.2.allowed) →
      ∀ x ∈ publishedStrings (l.foldl addOn y).1 "scopes_supported", x ∈ (l.foldl addOn y).2.allowed := by
    intro l
    induction l with
    | nil => intro y hy; exact hy
    | cons a l ih =>
      intro y hy
      rw [List.foldl_cons]
      apply ih
      cases a with
      | pkce => exact hy
      | dpop algs =>
        intro x hx
        unfold publishedStrings addOn at hx
        rw [Dict.get?_set_ne _ _ (by decide)] at hx
        exact hy x hx
      | customScopes m =>
        intro x hx
        unfold publishedStrings addOn at hx
        simp only [] at hx
        rw [Dict.get?_set_ne _ _ (by decide), Dict.get?_set_self, Option.getD_some, stringsOf_strs] at hx
        unfold addOn ScopeCfg.allowed
        simp only []
        split
        · rename_i hemp
          rw [List.isEmpty_iff] at hemp
          rw [hemp] at hx
          cases hx
        · exact hx
  have base : ∀ x ∈ publishedStrings (createProviderInfo conf (collectCaps (conf.caps.getD []) endps)) "scopes_supported",
      x ∈ conf.scopes.allowed := by
    intro x hx
    unfold publishedStrings createProviderInfo at hx
    simp only [] at hx
    rw [get?_withClaims_ne _ _ _ (by decide), get?_withScopes, if_pos rfl, get?_withJwks, if_neg (by decide), get?_withAcr,
      if_neg (fun e => absurd e.2 (by decide)), Dict.get?_set_ne _ _ (by decide), Dict.get?_set_ne _ _ (by decide), get?_collect,
      hc, Option.none_or, ← he] at hx
    cases hf : firstInfo "scopes_supported" s.endpoints with
    | none =>
      rw [hf, Option.none_or, Option.getD_some, stringsOf_strs] at hx
      exact hx
    | some v =>
      obtain ⟨p, hp, _, hpi⟩ := firstInfo_some hf
      obtain ⟨c, hcm, _, hb⟩ := endps_from h hp
      rcases built_info_get hb hpi with ⟨e1, e2, _⟩ | ⟨i, e1, e2⟩
      · have := (shipped_named c.cls (hs c hcm) (e1 ▸ e2)).1
        rw [← e1] at this
        exact absurd this (by decide)
      · rw [hf, shipped_scopes_info (hs c hcm) e1 (hk c hcm) e2] at hx
        cases hx
  have hpub : x ∈ s.scopes.allowed := by
    have h1 := step conf.addOns (createProviderInfo conf (collectCaps (conf.caps.getD []) endps), conf.scopes) base x
    rw [hsc]
    apply h1
    rw [hinfo, Dict.get?_update, idToken_keys hi (.inl (by decide))] at hl
    simp only [] at hl
    unfold publishedStrings
    rw [hl]
    exact mem_stringsOf hx
  have hall : allowedScopes s.scopes (some client) = s.scopes.allowed := by
    obtain ⟨cl, e1, e2, e3⟩ := hcl
    unfold allowedScopes
    simp only [if_neg hne, e1, e2, e3]
  have hfil : filterScopes s.scopes (some client) [x] = [x] := by
    unfold filterScopes
    rw [hall]
    simp [hpub]
  refine ⟨hfil, ?_⟩
  unfold checkUnknownScopes
  split
  · rfl
  · simp only [hfil]
    simp

theorem mem_foldl_new (l acc : List String) (x : String) :
    x ∈ l.foldl (fun acc n => if acc.contains n then acc else acc ++ [n]) acc ↔ x ∈ acc ∨ x ∈ l := by
  induction l generalizing acc with
  | nil => simp
  | cons a l ih =>
    rw [List.foldl_cons, ih, List.mem_cons]
    by_cases h : acc.contains a = true
    · rw [if_pos h]
      have h : a ∈ acc := by simpa using h
      constructor
      · rintro (k | k)
        · exact .inl k
        · exact .inr (.inr k)
      · rintro (k | k | k)
        · exact .inl k
        · exact .inl (k ▸ h)
        · exact .inr k
    · rw [if_neg h]
      simp only [List.mem_append, List.mem_singleton]
      constructor
      · rintro ((k | k) | k)
        · exact .inl k
        · exact .inr (.inl k)
        · exact .inr (.inr k)
      · rintro (k | k | k)
        · exact .inl (.inl k)
        · exact .inl (.inr k)
        · exact .inr k

theorem cfg_map_spec (cfg : ScopeCfg) (sc x : String) : x ∈ (cfg.map.get? sc).getD [] ↔ StandsFor cfg sc x := by
  have key : ∀ m : ScopeMap, x ∈ (m.get? sc).getD [] ↔ ∃ names, x ∈ names ∧ m.get? sc = some names := by
    intro m
    cases h : m.get? sc with
    | none => simp
    | some names => simp
  unfold ScopeCfg.map StandsFor
  cases h : cfg.scopesToClaims with
  | none => simp only [key]; simp
  | some m =>
    cases m with
    | nil => simp only [List.isEmpty_nil, if_true, key]; simp
    | cons a m => simp only [List.isEmpty_cons, Bool.false_eq_true, if_false, key]; simp

theorem mem_scopeClaimsOf (cfg : ScopeCfg) (scopes : List String) (x : String) :
    x ∈ scopesToClaims cfg [] none scopes ↔ ∃ sc ∈ scopes, sc ∈ cfg.allowed ∧ StandsFor cfg sc x := by
  have hne : cfg.map.isEmpty = false := by
    unfold ScopeCfg.map
    split
    · split
      · decide
      · rename_i h; simpa using h
    · decide
  unfold scopesToClaims convertScopes scopesMapping
  simp only [List.isEmpty_nil, if_true, hne, Bool.false_eq_true, if_false]
  rw [mem_foldl_new]
  simp only [List.not_mem_nil, false_or, List.mem_flatMap, filterScopes, List.mem_filter, allowedScopes, List.contains_iff_mem,
    cfg_map_spec, and_assoc]

/-- C96, for the keys: if there is a place for them then the document names the URL of this place. -/
theorem C96_keys (lib : CryptoAlgs) (conf : ServerConf) (s : Serv) (defaults : Dict Json) (h : makeServer lib conf = .ok s)
    (hs : Shipped conf) (path : String) (hp : conf.jwksPath = some path) :
    ∃ u, UrlAt conf.issuer path u ∧ (document defaults s).get? "jwks_uri" = some (.str u) := by
  obtain ⟨endps, idt, _, hi, _, hinfo, _⟩ := makeServer_spec h
  have hu : UrlAt conf.issuer path (jwksUri conf.issuer path) := by
    have := fullPath_at conf.issuer path
    have e : fullPath conf.issuer path = jwksUri conf.issuer path := by
      unfold fullPath baseUrl jwksUri
      split
      · rename_i hl
        obtain ⟨l, hl2⟩ : ∃ l, conf.issuer.toList = l ++ ['/'] := by
          obtain ⟨l, hl2⟩ := List.getLast?_eq_some_iff.1 hl
          exact ⟨l, hl2⟩
        rw [hl2, List.dropLast_concat]
        apply String.toList_injective
        simp [String.toList_append, hl2]
      · rfl
    rwa [e] at this
  refine ⟨_, hu, ?_⟩
  have key : s.info.get? "jwks_uri" = some (.str (jwksUri conf.issuer path)) := by
    rw [hinfo, Dict.get?_update, idToken_keys hi (.inl (by decide))]
    simp only []
    have fold : ∀ (l : List AddOn) (x : Dict Json × ScopeCfg), (l.foldl addOn x).1.get? "jwks_uri" = x.1.get? "jwks_uri" := by
      intro l
      induction l with
      | nil => intro x; rfl
      | cons a l ih =>
        intro x
        rw [List.foldl_cons, ih]
        cases a with
        | pkce => rfl
        | dpop algs => exact Dict.get?_set_ne _ _ (by decide)
        | customScopes m =>
          unfold addOn
          simp only []
          rw [Dict.get?_set_ne _ _ (by decide), Dict.get?_set_ne _ _ (by decide)]
    rw [fold]
    unfold createProviderInfo
    simp only []
    rw [get?_withClaims_ne _ _ _ (by decide), get?_withScopes, if_neg (by decide), get?_withJwks, if_pos rfl, hp]
    rfl
  rw [document_get h hs, key]
  rfl

/-- C98, where the configuration lists neither scopes nor claims itself and no add-on does: the claims in the metadata are exactly
those that the scopes in the metadata stand for. -/
theorem C98_claims_partial (lib : CryptoAlgs) (conf : ServerConf) (s : Serv) (h : makeServer lib conf = .ok s) (hs : Shipped conf)
    (hc : (conf.caps.getD []).get? "scopes_supported" = none) (hc' : (conf.caps.getD []).get? "claims_supported" = none)
    (hk : ∀ c ∈ conf.endpoints, c.kwargs.get? "scopes_supported" = none) (ha : ∀ m, .customScopes m ∉ conf.addOns) :
    ∃ scopes claims, s.info.get? "scopes_supported" = some (.arr scopes) ∧ s.info.get? "claims_supported" = some (.arr claims) ∧
      ∀ x, .str x ∈ claims ↔ ∃ sc, .str sc ∈ scopes ∧ StandsFor conf.scopes sc x := by
  obtain ⟨endps, idt, hbld, hi, he, hinfo, hsc⟩ := makeServer_spec h
  have hadd : ∀ k, k ≠ "dpop_signing_alg_values_supported" → ∀ (l : List AddOn), (∀ a ∈ l, a ∈ conf.addOns) → ∀ x : Dict Json × ScopeCfg,
      (l.foldl addOn x).1.get? k = x.1.get? k := by
    intro k hkd l hl
    induction l with
    | nil => intro x; rfl
    | cons a l ih =>
      intro x
      rw [List.foldl_cons, ih (fun b hb => hl b (List.mem_cons_of_mem _ hb))]
      have hm := hl a List.mem_cons_self
      cases a with
      | pkce => rfl
      | dpop algs => exact Dict.get?_set_ne _ _ (fun e : _ = k => hkd e.symm)
      | customScopes m => exact absurd hm (ha m)
  have hget : ∀ k, k ∉ ["id_token_signing_alg_values_supported", "id_token_encryption_alg_values_supported",
      "id_token_encryption_enc_values_supported"] → k ≠ "dpop_signing_alg_values_supported" →
      s.info.get? k = (createProviderInfo conf (collectCaps (conf.caps.getD []) endps)).get? k := by
    intro k h1 h2
    rw [hinfo, Dict.get?_update, idToken_keys hi (.inl h1)]
    simp only []
    rw [hadd k h2 _ (fun _ h => h)]
  -- the scopes
  obtain ⟨scopes, hscopes, hall⟩ : ∃ scopes : List String, s.info.get? "scopes_supported" = some (strs scopes) ∧
      ∀ x ∈ scopes, x ∈ conf.scopes.allowed := by
    rw [hget _ (by decide) (by decide)]
    unfold createProviderInfo
    simp only []
    rw [get?_withClaims_ne _ _ _ (by decide), get?_withScopes, if_pos rfl, get?_withJwks, if_neg (by decide), get?_withAcr,
      if_neg (fun e => absurd e.2 (by decide)), Dict.get?_set_ne _ _ (by decide), Dict.get?_set_ne _ _ (by decide), get?_collect,
      hc, Option.none_or, ← he]
    cases hf : firstInfo "scopes_supported" s.endpoints with
    | none => exact ⟨conf.scopes.allowed, by rw [Option.none_or]; rfl, fun x hx => hx⟩
    | some v =>
      obtain ⟨p, hp, _, hpi⟩ := firstInfo_some hf
      obtain ⟨c, hcm, _, hb⟩ := endps_from h hp
      rcases built_info_get hb hpi with ⟨e1, e2, _⟩ | ⟨i, e1, e2⟩
      · have := (shipped_named c.cls (hs c hcm) (e1 ▸ e2)).1
        rw [← e1] at this
        exact absurd this (by decide)
      · refine ⟨[], by rw [shipped_scopes_info (hs c hcm) e1 (hk c hcm) e2]; rfl, fun x hx => by cases hx⟩
  -- the claims
  have hclaims : s.info.get? "claims_supported" = some (strs (scopesToClaims conf.scopes [] none scopes)) := by
    have hsame := hscopes
    rw [hget _ (by decide) (by decide)] at hsame ⊢
    unfold createProviderInfo at hsame ⊢
    simp only [] at hsame ⊢
    rw [get?_withClaims_ne _ _ _ (by decide)] at hsame
    rw [get?_withClaims, if_pos rfl, hsame, Option.getD_some, stringsOf_strs, get?_withScopes, if_neg (by decide), get?_withJwks,
      if_neg (by decide), get?_withAcr, if_neg (fun e => absurd e.2 (by decide)), Dict.get?_set_ne _ _ (by decide),
      Dict.get?_set_ne _ _ (by decide), get?_collect, hc', Option.none_or, ← he]
    cases hf : firstInfo "claims_supported" s.endpoints with
    | none => rw [Option.none_or]
    | some v =>
      obtain ⟨p, hp, _, hpi⟩ := firstInfo_some hf
      obtain ⟨c, hcm, _, hb⟩ := endps_from h hp
      have key : ∀ c ∈ shippedClasses, c.endpointName ≠ "claims_supported" ∧ "claims_supported" ∉ c.members := by decide
      have := key c.cls (hs c hcm)
      rcases built_get hb hpi with ⟨e1, -⟩ | e1
      · exact absurd e1.symm this.1
      · exact absurd e1 this.2
  refine ⟨_, _, hscopes, hclaims, fun x => ?_⟩
  have hstr : ∀ (l : List String) (y : String), Json.str y ∈ l.map Json.str ↔ y ∈ l := by
    intro l y
    rw [List.mem_map]
    constructor
    · rintro ⟨a, ha, e⟩
      cases e
      exact ha
    · exact fun hy => ⟨y, hy, rfl⟩
  rw [hstr, mem_scopeClaimsOf]
  constructor
  · rintro ⟨sc, h1, -, h2⟩
    exact ⟨sc, (hstr _ _).2 h1, h2⟩
  · rintro ⟨sc, h1, h2⟩
    have h1 := (hstr _ _).1 h1
    exact ⟨sc, h1, hall sc h1, h2⟩

/-! ### Cases that meet the hypotheses, and what goes wrong -/

namespace Ex

/-- A provider with the usual endpoints, two methods of authentication, DPoP and a scope of its own. -/
def mconf : ServerConf :=
  { issuer := "https://op.example/"
    endpoints := [⟨providerConfigClass, ".well-known/openid-configuration", []⟩, ⟨oidcAuthorizationClass, "authorization", []⟩,
      ⟨tokenClass, "token", [("client_authn_method", strs ["private_key_jwt"])]⟩, ⟨userinfoClass, "userinfo", []⟩,
      ⟨registrationClass, "registration", []⟩]
    caps := some [("subject_types_supported", strs ["public", "pairwise"])]
    broker := [{ id := "pw", acr := "urn:pw" }, { id := "otp", acr := "urn:otp" }]
    jwksPath := some "static/jwks.json"
    scopes := { cdb := [("c1", {})], denyUnknown := true }
    addOns := [.pkce, .dpop [], .customScopes [("groups", ["groups", "roles"])]]
    idToken := some [] }

def mserv : Serv := (makeServer cryptoLib mconf).toOption.getD {}

theorem mserv_ok : makeServer cryptoLib mconf = .ok mserv := by decide +kernel

theorem mconf_kind : OneOfAKind mconf := by unfold OneOfAKind; decide +kernel

theorem mconf_nourls : NoUrls mconf.caps := by unfold NoUrls; decide +kernel

theorem mconf_shipped : Shipped mconf := by
  intro c hc
  simp only [mconf, List.mem_cons, List.not_mem_nil, or_false] at hc
  rcases hc with rfl | rfl | rfl | rfl | rfl <;> simp [shippedClasses]

/-- C96: the URLs of the example. -/
example : (document [] mserv).get? "token_endpoint" = some (.str "https://op.example/token") ∧
    (document [] mserv).get? "userinfo_endpoint" = some (.str "https://op.example/userinfo") ∧
    (document [] mserv).get? "introspection_endpoint" = none ∧
    targetUris "https://op.example/" mserv.endpoints ((mserv.endpoints.get? "userinfo").getD {}).targets =
      .ok ["https://op.example/userinfo", "https://op.example/"] := by decide +kernel

/-- C96, C98: the place of the keys, and the claims without the add-on. -/
example : (document [] mserv).get? "jwks_uri" = some (.str "https://op.example/static/jwks.json") ∧
    (((makeServer cryptoLib { mconf with addOns := [.dpop []], scopes := { allowedScopes := some ["openid", "email", "x"] } }).toOption.getD
      {}).info.get? "claims_supported") = some (strs ["sub", "email", "email_verified"]) := by decide +kernel

/-- C96: an assertion for the published token endpoint is accepted, one for another place is not. -/
example :
    let C : AuthnCtx := { cdb := [("c1", .info {})], now := 0, targets := ["https://op.example/token"], decode := fun _ => none
                          unquote := fun _ => "", unpack := fun a => some { iss := some "c1", aud := some [a] } }
    targetUris "https://op.example/" mserv.endpoints ((mserv.endpoints.get? "token").getD {}).targets = .ok C.targets ∧
    (verifyClient C [some .privateKeyJwt] none { clientAssertion := some "https://op.example/token" } none []).1 =
      .ok (some { clientId := some "c1", method := "private_key_jwt"
                  assertion := some { iss := some "c1", aud := some ["https://op.example/token"] } }) ∧
    (verifyClient C [some .privateKeyJwt] none { clientAssertion := some "https://op.example/" } none []).1 = .ok none := by
  decide +kernel

/-- C97, C98: what is configured, what the methods of authentication are, and the scope of the add-on. -/
example : mserv.info.get? "subject_types_supported" = some (strs ["public", "pairwise"]) ∧
    mserv.info.get? "acr_values_supported" = some (strs ["urn:pw", "urn:otp"]) ∧
    mserv.info.get? "scopes_supported" =
      some (strs ["openid", "profile", "email", "address", "phone", "offline_access", "groups"]) ∧
    mserv.info.get? "dpop_signing_alg_values_supported" = some (strs ["RS256"]) ∧
    filterScopes mserv.scopes (some "c1") ["groups"] = ["groups"] := by decide +kernel

example : ¬ DecidedElsewhere mconf "subject_types_supported" := by
  intro h
  generalize hk : "subject_types_supported" = k at h
  cases h with
  | idToken kw h k hk' => subst hk; exact absurd hk' (by decide)
  | _ => exact absurd hk (by decide)

example : NoOwnScopes mserv.scopes "c1" := ⟨{}, by decide +kernel, rfl, rfl⟩

/-- C96 is false of the code for a second provider made from the same configuration under another name (one for each tenant, for
example): `do_endpoints` fills in the dictionary of capabilities that is part of the configuration (server.py:27-35), and what is in
it goes before what the endpoints say.  The second provider publishes its own issuer and the first one's URLs. -/
theorem C96_second_provider_refuted :
    ¬ (∀ (lib : CryptoAlgs) (conf : ServerConf) (issuer : String) (s s' : Serv), makeServer lib conf = .ok s →
      makeServer lib { conf.after s with issuer := issuer } = .ok s' → Shipped conf → OneOfAKind conf → NoUrls conf.caps →
      ∀ c ∈ conf.endpoints, c.cls.endpointName ≠ "" →
        ∃ u, UrlAt issuer c.path u ∧ (document [] s').get? c.cls.endpointName = some (.str u)) := by
  intro h
  let s' : Serv := (makeServer cryptoLib { mconf.after mserv with issuer := "https://other.example" }).toOption.getD {}
  have h' : makeServer cryptoLib { mconf.after mserv with issuer := "https://other.example" } = .ok s' := by decide +kernel
  obtain ⟨u, hu, hd⟩ := h cryptoLib mconf "https://other.example" mserv s' mserv_ok h' mconf_shipped mconf_kind mconf_nourls
    ⟨tokenClass, "token", [("client_authn_method", strs ["private_key_jwt"])]⟩ (by simp [mconf]) (by decide)
  have e1 : u = "https://other.example/token" := by
    rw [urlAt_unique hu (fullPath_at _ _)]
    decide +kernel
  have e2 : (document [] s').get? "token_endpoint" = some (.str "https://op.example/token") := by decide +kernel
  rw [show (document [] s').get? "token_endpoint" = some (.str u) from hd, e1] at e2
  exact absurd e2 (by decide)

/-- C97 is false of the code: the operator says in the capabilities that ID tokens are signed with ES256 only, and the provider
publishes everything the library can do, because the ID token handler's own information is put over it at the end
(server.py:123-127).  Client registration accepts what is published. -/
theorem C97_configured_refuted :
    ¬ (∀ (lib : CryptoAlgs) (conf : ServerConf) (s : Serv), makeServer lib conf = .ok s →
      ∀ v, (conf.caps.getD []).get? "id_token_signing_alg_values_supported" = some v →
        s.info.get? "id_token_signing_alg_values_supported" = some v) := by
  intro h
  let conf : ServerConf :=
    { issuer := "https://op.example", caps := some [("id_token_signing_alg_values_supported", strs ["ES256"])], idToken := some [] }
  have hs : makeServer cryptoLib conf = .ok ((makeServer cryptoLib conf).toOption.getD {}) := by decide +kernel
  have := h cryptoLib conf _ hs (strs ["ES256"]) (by decide)
  exact absurd this (by decide +kernel)

/-- C97 is false of the code for the order: with the endpoint for pushed authorization requests before the authorization endpoint,
the published response types do not include ID tokens and no scope is published at all, with the two the other way round both are
(oauth2/pushed_authorization.py inherits what an OAuth2 authorization endpoint publishes). -/
theorem C97_order_refuted :
    ¬ (∀ (lib : CryptoAlgs) (conf : ServerConf) (endpoints : List EndpConf) (s s' : Serv), conf.endpoints.Perm endpoints →
      makeServer lib conf = .ok s → makeServer lib { conf with endpoints := endpoints } = .ok s' → Shipped conf → OneOfAKind conf →
      s.info.get? "response_types_supported" = s'.info.get? "response_types_supported") := by
  intro h
  let a : EndpConf := ⟨oidcAuthorizationClass, "authorization", []⟩
  let b : EndpConf := ⟨pushedAuthorizationClass, "par", []⟩
  let conf : ServerConf := { issuer := "https://op.example", endpoints := [a, b] }
  have hs : makeServer cryptoLib conf = .ok ((makeServer cryptoLib conf).toOption.getD {}) := by decide +kernel
  have hs' : makeServer cryptoLib { conf with endpoints := [b, a] } =
      .ok ((makeServer cryptoLib { conf with endpoints := [b, a] }).toOption.getD {}) := by decide +kernel
  have := h cryptoLib conf [b, a] _ _ (List.Perm.swap _ _ _) hs hs'
    (by intro c hc; simp only [conf, List.mem_cons, List.not_mem_nil, or_false] at hc; rcases hc with rfl | rfl <;> simp [a, b, shippedClasses])
    (by unfold OneOfAKind; decide +kernel)
  exact absurd this (by decide +kernel)

/-- C97: endpoints in two orders that agree. -/
example : ∃ s s', makeServer cryptoLib { mconf with endpoints := mconf.endpoints } = .ok s ∧
    makeServer cryptoLib { mconf with endpoints := mconf.endpoints.reverse } = .ok s' ∧ s.info ≠ s'.info ∧
    s.info.get? "token_endpoint" = s'.info.get? "token_endpoint" :=
  ⟨mserv, (makeServer cryptoLib { mconf with endpoints := mconf.endpoints.reverse }).toOption.getD {}, by decide +kernel⟩

theorem mconf_agree : Agree cryptoLib mconf := by
  have key : ∀ c ∈ mconf.endpoints, ∀ c' ∈ mconf.endpoints,
      ∀ p ∈ ((c.cls.info cryptoLib c.kwargs).toOption.getD none).getD [],
      ∀ p' ∈ ((c'.cls.info cryptoLib c'.kwargs).toOption.getD none).getD [], p.1 = p'.1 → p.2 = p'.2 := by decide +kernel
  intro c hc c' hc' i i' hi hi' k v v' hv hv'
  have := key c hc c' hc' (k, v) (by rw [hi]; exact Dict.get?_mem hv) (k, v') (by rw [hi']; exact Dict.get?_mem hv') rfl
  exact this

/-- C98 is false of the code where the configuration lists the scopes: what it lists is published, and is neither granted nor let
through by the policy on unknown scopes unless it is also among the allowed scopes (endpoint_context.py:333, scopes.py:55-57). -/
theorem C98_scopes_refuted :
    ¬ (∀ (lib : CryptoAlgs) (conf : ServerConf) (s : Serv), makeServer lib conf = .ok s → ∀ l,
      s.info.get? "scopes_supported" = some (.arr l) → ∀ x, .str x ∈ l → ∀ client, client ≠ "" → NoOwnScopes s.scopes client →
      filterScopes s.scopes (some client) [x] = [x]) := by
  intro h
  let conf : ServerConf :=
    { issuer := "https://op.example", caps := some [("scopes_supported", strs ["openid", "groups"])], scopes := { cdb := [("c1", {})] } }
  have hs : makeServer cryptoLib conf = .ok ((makeServer cryptoLib conf).toOption.getD {}) := by decide +kernel
  have := h cryptoLib conf _ hs [.str "openid", .str "groups"] (by decide +kernel) "groups" (by simp) "c1" (by decide)
    ⟨{}, by decide +kernel, rfl, rfl⟩
  exact absurd this (by decide +kernel)

/-- C98 is false of the code for DPoP: the metadata say that proofs are signed with RS256, and a proof signed with ES256 binds a
token request all the same; the list is not looked at (oauth2/add_on/dpop.py:66-118, 138-143). -/
theorem C98_dpop_refuted :
    ¬ (∀ (lib : CryptoAlgs) (conf : ServerConf) (s : Serv) (algs : List String) (L : DpopLib), makeServer lib conf = .ok s →
      .dpop algs ∈ conf.addOns → ∀ l, s.info.get? "dpop_signing_alg_values_supported" = some (.arr l) →
      ∀ (h : HttpInfo) (req req' : TokenReq) (hd : Dict String) (p : String) (hs : Dict Json) (alg : Json),
        h.headers = some hd → hd.get? "dpop" = some p → L.factory p = some hs → hs.get? "alg" = some alg →
        dpopParse L (some h) req = .ok (.req req') → alg ∈ l) := by
  intro h
  have := h cryptoLib mconf mserv [] dlib mserv_ok (by decide) [.str "RS256"] (by decide +kernel) (http "p1") {}
    { dpopJkt := some "tk1" } [("dpop", "p1")] "p1" _ (.str "ES256") rfl rfl rfl (by decide) (by decide +kernel)
  exact absurd this (by decide)

end Ex

end OidcOp
