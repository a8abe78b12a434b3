/-
What an endpoint publishes: C97.
-/
import Verif.Spec.EndpointInfo
import Verif.Props.Construct
import Verif.Props.Metadata

namespace OidcOp
open Spec

theorem loop_get {lib : CryptoAlgs} {kwargs caps info out : Dict Json} (h : endpointInfoLoop lib kwargs caps info = .ok out)
    (hn : caps.keys.Nodup) (k : String) :
    (∀ d, (k, d) ∈ caps → ∃ r, endpointAttr lib kwargs k d = .ok r ∧ out.get? k = r.or (info.get? k)) ∧
    (k ∉ caps.keys → out.get? k = info.get? k) := by
  induction caps generalizing info with
  | nil => cases h; exact ⟨(fun d hd => absurd hd List.not_mem_nil), fun _ => rfl⟩
  | cons p rest ih =>
    obtain ⟨a, d⟩ := p
    have hn' : a ∉ Dict.keys rest ∧ (Dict.keys rest).Nodup := List.nodup_cons.1 hn
    unfold endpointInfoLoop at h
    cases ha : endpointAttr lib kwargs a d with
    | error e => rw [ha] at h; cases h
    | ok r =>
      rw [ha] at h
      cases r with
      | none =>
        simp only [] at h
        obtain ⟨i1, i2⟩ := ih h hn'.2
        refine ⟨fun d' hd' => ?_, fun hk => i2 (fun e => hk (List.mem_cons_of_mem _ e))⟩
        rcases List.mem_cons.1 hd' with e | e
        · cases e
          exact ⟨none, ha, by rw [i2 hn'.1]; rfl⟩
        · exact i1 d' e
      | some v =>
        simp only [] at h
        obtain ⟨i1, i2⟩ := ih h hn'.2
        refine ⟨fun d' hd' => ?_, fun hk => ?_⟩
        · rcases List.mem_cons.1 hd' with e | e
          · cases e
            exact ⟨some v, ha, by rw [i2 hn'.1, Dict.get?_set_self]; rfl⟩
          · obtain ⟨r, h1, h2⟩ := i1 d' e
            have hne : a ≠ k := fun e' => hn'.1 (e' ▸ List.mem_map.2 ⟨(k, d'), e, rfl⟩)
            exact ⟨r, h1, by rw [h2, Dict.get?_set_ne _ _ hne]⟩
        · have hne : a ≠ k := fun e' => hk (e' ▸ List.mem_cons_self)
          rw [i2 (fun e => hk (List.mem_cons_of_mem _ e)), Dict.get?_set_ne _ _ hne]

theorem proposed_same {lib : CryptoAlgs} {attr : String} {x v : Json} (h : proposed lib attr x = .ok v) : v = x := by
  unfold proposed at h
  cases hk : algKind attr with
  | none => rw [hk] at h; cases h; rfl
  | some k =>
    rw [hk] at h
    simp only [] at h
    split at h
    · cases h
    · cases h; rfl
    · split at h
      · cases h
      · cases h; rfl
      · cases h

theorem default_ofItself {lib : CryptoAlgs} {kwargs : Dict Json} {attr : String} {d v : Json} (hn : kwargs.get? attr = none)
    (h : defaultFor lib attr d = .ok (some v)) : OfItself lib kwargs attr d v := by
  unfold defaultFor at h
  by_cases hd : d ≠ .null
  · rw [if_pos hd] at h
    cases h
    exact .default hn hd
  · rw [if_neg hd] at h
    have hd : d = .null := Classical.byContradiction hd
    unfold algKind at h
    by_cases h1 : isInfix "signing_alg_values_supported".toList attr.toList = true
    · rw [if_pos h1] at h
      simp only [] at h
      cases ha : assignAlgorithms lib .signing with
      | error e => rw [ha] at h; cases h
      | ok l =>
        rw [ha] at h
        cases h
        obtain ⟨p1, p2, _⟩ := C65_sorted lib l ha
        exact .sign hn hd ((occursIn_iff _ _).1 h1) _ (p1.erase _) (p2.sublist List.erase_sublist)
    · rw [if_neg h1] at h
      have h1 := fun e => h1 ((occursIn_iff _ _).2 e)
      by_cases h2 : isInfix "encryption_alg_values_supported".toList attr.toList = true
      · rw [if_pos h2] at h
        cases h
        have e : lib.alg.filter (fun a => decide (a ∉ weakAlgs)) = lib.alg.filter (fun a => a ≠ "RSA1_5" ∧ a ≠ "none") := by
          apply List.filter_congr
          intro a _
          simp [weakAlgs]
        rw [e]
        exact .alg hn hd h1 ((occursIn_iff _ _).1 h2)
      · rw [if_neg h2] at h
        have h2 := fun e => h2 ((occursIn_iff _ _).2 e)
        by_cases h3 : isInfix "encryption_enc_values_supported".toList attr.toList = true
        · rw [if_pos h3] at h
          cases h
          exact .enc hn hd h1 h2 ((occursIn_iff _ _).1 h3)
        · rw [if_neg h3] at h
          cases h

theorem attr_something {lib : CryptoAlgs} {kwargs : Dict Json} {attr : String} {d : Json} {r : Option Json}
    (h : endpointAttr lib kwargs attr d = .ok r) (hs : Something lib kwargs attr d) : r ≠ none := by
  intro e
  subst e
  unfold endpointAttr at h
  cases hk : kwargs.get? attr with
  | some x =>
    rw [hk] at h
    simp only [] at h
    cases hp : proposed lib attr x with
    | error e => rw [hp] at h; cases h
    | ok v =>
      rw [hp] at h
      simp only [] at h
      split at h <;> cases h
  | none =>
    rw [hk] at h
    simp only [] at h
    cases hd : defaultFor lib attr d with
    | error e => rw [hd] at h; cases h
    | ok v =>
      rw [hd] at h
      simp only [] at h
      have hv : v = none := by
        split at h
        · cases h; rfl
        · cases h
      subst hv
      unfold defaultFor at hd
      rcases hs with hs | hs | ⟨l, hs⟩
      · exact hs hk
      · rw [if_pos hs] at hd; cases hd
      · obtain ⟨kd, hkd, _⟩ := about_kind hs
        by_cases hd' : d ≠ .null
        · rw [if_pos hd'] at hd; cases hd
        · rw [if_neg hd', hkd] at hd
          cases kd with
          | signing =>
            simp only [] at hd
            split at hd <;> cases hd
          | encAlg => cases hd
          | encEnc => cases hd

theorem attr_ofItself {lib : CryptoAlgs} {kwargs : Dict Json} {attr : String} {d v : Json}
    (h : endpointAttr lib kwargs attr d = .ok (some v)) : OfItself lib kwargs attr d v := by
  rcases endpointAttr_some h with ⟨x, h1, h2⟩ | ⟨h1, h2⟩
  · exact .configured (proposed_same h2 ▸ h1)
  · exact default_ofItself h1 h2

/-- C97 for one endpoint: under the names that its class lists, and under no other, an endpoint publishes what it is configured
with, else what the class comes with, else for algorithms all that the library has of the kind but for the weak ones. -/
theorem C97_endpoint (lib : CryptoAlgs) (caps kwargs info : Dict Json) (hn : caps.keys.Nodup)
    (h : constructEndpointInfo lib caps kwargs = .ok info) :
    (∀ k v, info.get? k = some v → ∃ d, (k, d) ∈ caps ∧ OfItself lib kwargs k d v) ∧
    (∀ k d, (k, d) ∈ caps → Something lib kwargs k d → ∃ v, info.get? k = some v) := by
  constructor
  · intro k v hv
    rcases loop_mem h hv with e | ⟨d, hd, e⟩
    · cases e
    · exact ⟨d, hd, attr_ofItself e⟩
  · intro k d hd hs
    obtain ⟨r, h1, h2⟩ := (loop_get h hn k).1 d hd
    cases hr : r with
    | none => exact absurd hr (attr_something h1 hs)
    | some v => exact ⟨v, by rw [h2, hr]; rfl⟩

theorem server_get {lib : CryptoAlgs} {conf : ServerConf} {s : Serv} (h : makeServer lib conf = .ok s) {k : String}
    (hc : (conf.caps.getD []).get? k = none) (hk : ¬ DecidedElsewhere conf k) :
    (∀ v, firstInfo k s.endpoints = some v → s.info.get? k = some v) ∧
    (k ≠ "scopes_supported" → k ≠ "claims_supported" → s.info.get? k = firstInfo k s.endpoints) := by
  obtain ⟨endps, idt, _, hi, he, hinfo, _⟩ := makeServer_spec h
  have hidt : Dict.get? idt.reverse k = none := by
    cases hkw : conf.idToken with
    | none => exact idToken_keys hi (.inr hkw)
    | some kw => exact idToken_keys hi (.inl (fun hm => hk (.idToken kw hkw k hm)))
  have hj : (withJwks conf.issuer conf.jwksPath (withAcr conf.broker
      (((collectCaps (conf.caps.getD []) endps).set "issuer" (.str conf.issuer)).set "version" (.str "3.0")))).get? k
      = firstInfo k s.endpoints := by
    rw [get?_withJwks]
    have h2 : (withAcr conf.broker (((collectCaps (conf.caps.getD []) endps).set "issuer" (.str conf.issuer)).set "version"
        (.str "3.0"))).get? k = firstInfo k s.endpoints := by
      rw [get?_withAcr, if_neg (fun e : _ ∧ k = _ => hk (e.2 ▸ .acr e.1)), Dict.get?_set_ne _ _ (fun e : _ = k => hk (e ▸ .version)),
        Dict.get?_set_ne _ _ (fun e : _ = k => hk (e ▸ .issuer)), get?_collect, hc, he]
      rfl
    rw [h2]
    by_cases e : k = "jwks_uri"
    · rw [if_pos e]
      cases hp : conf.jwksPath with
      | none => rfl
      | some p => exact absurd (e ▸ .jwks p hp) hk
    · rw [if_neg e]
  rw [hinfo, Dict.get?_update, hidt]
  simp only []
  rw [addOns_keep conf k hk _ (fun _ h => h)]
  unfold createProviderInfo
  simp only []
  constructor
  · intro v hv
    apply get?_withClaims_some
    rw [get?_withScopes, hj, hv]
    by_cases e : k = "scopes_supported"
    · rw [if_pos e]; rfl
    · rw [if_neg e]
  · intro n1 n2
    rw [get?_withClaims_ne _ _ _ n2, get?_withScopes, if_neg n1, hj]

/-- C97 for a server whose endpoints do not contradict each other, for the members that neither the capabilities in the
configuration nor anything else decides about: what an endpoint publishes of itself is in the metadata, and apart from the scopes
and claims nothing is there that no endpoint publishes. -/
theorem C97_from_endpoints_partial (lib : CryptoAlgs) (conf : ServerConf) (s : Serv) (h : makeServer lib conf = .ok s)
    (h1 : OneOfAKind conf) (hs : Shipped conf) (k : String) (hu : k ∉ endpointMembers)
    (hc : (conf.caps.getD []).get? k = none) (hk : ¬ DecidedElsewhere conf k) :
    (Agree lib conf → ∀ c ∈ conf.endpoints, c.cls.name ≠ "provider_config" → ∀ i v, c.cls.info lib c.kwargs = .ok (some i) →
      i.get? k = some v → s.info.get? k = some v) ∧
    (k ≠ "scopes_supported" → k ≠ "claims_supported" → ∀ v, s.info.get? k = some v →
      ∃ c ∈ conf.endpoints, ∃ d, c.cls.caps = some d ∧
        ((∃ x, (k, x) ∈ d ∧ OfItself lib c.kwargs k x v) ∨
         (k = "token_endpoint_auth_methods_supported" ∧ c.cls.name = "token" ∧ c.kwargs.get? "client_authn_method" = some v))) := by
  obtain ⟨g1, g2⟩ := server_get h hc hk
  have named : ∀ c ∈ shippedClasses, c.name ≠ "webfinger" := by decide
  constructor
  · intro ha c hcm hnp i v hi hv
    obtain ⟨e, hb, hg⟩ := endps_get h h1 hcm
    have hl : ¬ leftOut c.cls.name := fun e => e.elim (named c.cls (hs c hcm)) hnp
    obtain ⟨i', hi', _, _, _, hei, _⟩ := built_info hb
    rw [hi] at hi'
    cases hi'
    have hev : (e.info.getD []).get? k = some v := by
      rw [hei]
      unfold withUrl
      by_cases hne : c.cls.endpointName = ""
      · rw [if_pos hne]; exact hv
      · rw [if_neg hne, Option.getD_some, Option.getD_some,
          Dict.get?_set_ne _ _ (fun e : _ = k => hu (e ▸ (shipped_named c.cls (hs c hcm) hne).1))]
        exact hv
    apply g1
    cases hf : firstInfo k s.endpoints with
    | none => rw [firstInfo_none hf _ (Dict.get?_mem hg) hl] at hev; cases hev
    | some v' =>
      obtain ⟨p, hp, _, hpi⟩ := firstInfo_some hf
      obtain ⟨c', hc', _, hb'⟩ := endps_from h hp
      rcases built_info_get hb' hpi with ⟨e1, e2, _⟩ | ⟨j, e1, e2⟩
      · exact absurd (e1 ▸ (shipped_named c'.cls (hs c' hc') (e1 ▸ e2)).1) hu
      · rw [ha c hcm c' hc' i j hi e1 k v v' hv e2]
  · intro n1 n2 v hv
    rw [g2 n1 n2] at hv
    obtain ⟨p, hp, _, hpi⟩ := firstInfo_some hv
    obtain ⟨c, hcm, _, hb⟩ := endps_from h hp
    refine ⟨c, hcm, ?_⟩
    rcases built_info_get hb hpi with ⟨e1, e2, _⟩ | ⟨j, e1, e2⟩
    · exact absurd (e1 ▸ (shipped_named c.cls (hs c hcm) (e1 ▸ e2)).1) hu
    · unfold EndpClass.info at e1
      cases hcc : c.cls.caps with
      | none => rw [hcc] at e1; cases e1
      | some d =>
        refine ⟨d, rfl, ?_⟩
        rw [hcc] at e1
        simp only [] at e1
        cases hce : constructEndpointInfo lib d c.kwargs with
        | error e => rw [hce] at e1; cases e1
        | ok i =>
          rw [hce] at e1
          cases e1
          have of_i : i.get? k = some v → ∃ x, (k, x) ∈ d ∧ OfItself lib c.kwargs k x v := by
            intro hiv
            rcases loop_mem hce hiv with e | ⟨x, hx, e⟩
            · cases e
            · exact ⟨x, hx, attr_ofItself e⟩
          unfold withAuthMethods at e2
          have tok : ∀ c ∈ shippedClasses, c.authMethods = true → c.name = "token" := by decide
          split at e2
          · rename_i w ha hw
            rw [Dict.get?_set] at e2
            split at e2
            · rename_i e
              cases e2
              exact .inr ⟨e.symm, tok _ (hs c hcm) ha, hw⟩
            · exact .inl (of_i e2)
          · exact .inl (of_i e2)

namespace Ex

/-- C97: an authorization endpoint that is configured with a smaller set of response types. -/
example :
    let kwargs : Dict Json := [("response_types_supported", strs ["code"]), ("unrelated", .num 1)]
    let caps := oidcAuthorizationClass.caps.getD []
    let info := (constructEndpointInfo cryptoLib caps kwargs).toOption.getD []
    constructEndpointInfo cryptoLib caps kwargs = .ok info ∧ caps.keys.Nodup ∧
    info.get? "response_types_supported" = some (strs ["code"]) ∧
    info.get? "grant_types_supported" = some (strs ["authorization_code", "implicit"]) ∧
    info.get? "unrelated" = none ∧ (info.get? "request_object_signing_alg_values_supported").isSome := by decide +kernel

/-- C97: the example provider meets the hypotheses. -/
example : mserv.info.get? "token_endpoint_auth_methods_supported" = some (strs ["private_key_jwt"]) ∧
    mserv.info.get? "claim_types_supported" = some (strs ["normal", "aggregated", "distributed"]) := by decide +kernel

example : ¬ DecidedElsewhere mconf "claim_types_supported" ∧ "claim_types_supported" ∉ endpointMembers ∧
    (mconf.caps.getD []).get? "claim_types_supported" = none := by
  refine ⟨fun h => ?_, by decide, by decide⟩
  generalize hk : "claim_types_supported" = k at h
  cases h with
  | idToken kw h k hk' => subst hk; exact absurd hk' (by decide)
  | _ => exact absurd hk (by decide)

end Ex
end OidcOp
