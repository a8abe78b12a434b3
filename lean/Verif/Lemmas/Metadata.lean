/-
Lemmas about the metadata, for Props/Metadata.lean.
-/
import Verif.Spec.Metadata
import Verif.Props.Construct

namespace OidcOp
open Spec

theorem get?_addMissing (cap info : Dict Json) (k : String) :
    (addMissing cap info).get? k = (cap.get? k).or (info.get? k) := by
  induction info generalizing cap with
  | nil => cases h : cap.get? k <;> simp [addMissing, h]
  | cons p r ih =>
    obtain ⟨a, b⟩ := p
    unfold addMissing
    rw [ih, Dict.get?_cons]
    by_cases h : cap.has a = true
    · rw [if_pos h]
      by_cases e : a = k
      · subst e
        unfold Dict.has at h
        cases hc : cap.get? a with
        | none => rw [hc] at h; cases h
        | some v => rfl
      · rw [if_neg e]
    · rw [if_neg h, Dict.get?_set]
      by_cases e : a = k
      · subst e
        unfold Dict.has at h
        cases hc : cap.get? a with
        | none => simp
        | some v => rw [hc] at h; exact absurd rfl h
      · rw [if_neg e, if_neg e]

/-- The endpoints that are left out. -/
def leftOut (n : String) : Prop := n = "webfinger" ∨ n = "provider_config"

/-- Who names a member first. -/
def firstInfo (k : String) : Dict Endp → Option Json
  | [] => none
  | (n, e) :: r => if n = "webfinger" ∨ n = "provider_config" then firstInfo k r else ((e.info.getD []).get? k).or (firstInfo k r)

theorem get?_collect (cap : Dict Json) (endps : Dict Endp) (k : String) :
    (collectCaps cap endps).get? k = (cap.get? k).or (firstInfo k endps) := by
  induction endps generalizing cap with
  | nil => cases h : cap.get? k <;> simp [collectCaps, firstInfo, h]
  | cons p r ih =>
    obtain ⟨n, e⟩ := p
    unfold collectCaps firstInfo
    by_cases h : n = "webfinger" ∨ n = "provider_config"
    · rw [if_pos h, if_pos h, ih]
    · rw [if_neg h, if_neg h, ih, get?_addMissing, Option.or_assoc]

theorem firstInfo_some {k : String} {endps : Dict Endp} {v : Json} (h : firstInfo k endps = some v) :
    ∃ p ∈ endps, ¬ leftOut p.1 ∧ (p.2.info.getD []).get? k = some v := by
  induction endps with
  | nil => cases h
  | cons p r ih =>
    obtain ⟨n, e⟩ := p
    unfold firstInfo at h
    by_cases hn : n = "webfinger" ∨ n = "provider_config"
    · rw [if_pos hn] at h
      obtain ⟨q, hq, h1⟩ := ih h
      exact ⟨q, List.mem_cons_of_mem _ hq, h1⟩
    · rw [if_neg hn] at h
      cases hi : (e.info.getD []).get? k with
      | some x =>
        rw [hi] at h
        cases h
        exact ⟨(n, e), List.mem_cons_self, hn, hi⟩
      | none =>
        rw [hi] at h
        obtain ⟨q, hq, h1⟩ := ih h
        exact ⟨q, List.mem_cons_of_mem _ hq, h1⟩

theorem firstInfo_none {k : String} {endps : Dict Endp} (h : firstInfo k endps = none) :
    ∀ p ∈ endps, ¬ leftOut p.1 → (p.2.info.getD []).get? k = none := by
  induction endps with
  | nil => intro p hp; cases hp
  | cons q r ih =>
    obtain ⟨n, e⟩ := q
    unfold firstInfo at h
    intro p hp hs
    by_cases hn : n = "webfinger" ∨ n = "provider_config"
    · rw [if_pos hn] at h
      rcases List.mem_cons.1 hp with rfl | hp
      · exact absurd hn hs
      · exact ih h p hp hs
    · rw [if_neg hn] at h
      rw [Option.or_eq_none_iff] at h
      rcases List.mem_cons.1 hp with rfl | hp
      · exact h.1
      · exact ih h.2 p hp hs

/-! ### building -/

theorem mem_set {α : Type} {d : Dict α} {k : String} {v : α} {p : String × α} (h : p ∈ d.set k v) : p = (k, v) ∨ p ∈ d := by
  induction d with
  | nil =>
    simp only [Dict.set, List.mem_singleton] at h
    exact .inl h
  | cons x t ih =>
    obtain ⟨a, b⟩ := x
    unfold Dict.set at h
    split at h
    · rename_i e
      subst e
      rcases List.mem_cons.1 h with h | h
      · exact .inl h
      · exact .inr (List.mem_cons_of_mem _ h)
    · rcases List.mem_cons.1 h with h | h
      · exact .inr (by rw [h]; exact List.mem_cons_self)
      · rcases ih h with h | h
        · exact .inl h
        · exact .inr (List.mem_cons_of_mem _ h)

/-- Where the endpoints of a server come from. -/
theorem build_from {lib : CryptoAlgs} {issuer : String} {cs : List EndpConf} {acc endps : Dict Endp}
    (h : buildEndpoints lib issuer cs acc = .ok endps) (p : String × Endp) (hp : p ∈ endps) :
    p ∈ acc ∨ ∃ c ∈ cs, c.cls.name = p.1 ∧ buildOne lib issuer c = .ok p.2 := by
  induction cs generalizing acc with
  | nil => cases h; exact .inl hp
  | cons c cs ih =>
    unfold buildEndpoints at h
    cases hb : buildOne lib issuer c with
    | error e => rw [hb] at h; cases h
    | ok e =>
      rw [hb] at h
      rcases ih h with h1 | ⟨c', h1, h2⟩
      · rcases mem_set h1 with h1 | h1
        · subst h1
          exact .inr ⟨c, List.mem_cons_self, rfl, hb⟩
        · exact .inl h1
      · exact .inr ⟨c', List.mem_cons_of_mem _ h1, h2⟩

/-- Every entry of the configuration is built, and the only one of its kind is there. -/
theorem build_has {lib : CryptoAlgs} {issuer : String} {cs : List EndpConf} {acc endps : Dict Endp}
    (h : buildEndpoints lib issuer cs acc = .ok endps) (n : String) :
    ((∀ c ∈ cs, c.cls.name ≠ n) → endps.get? n = acc.get? n) ∧
    (∀ c ∈ cs, c.cls.name = n → ∃ c' ∈ cs, c'.cls.name = n ∧ ∃ e, buildOne lib issuer c' = .ok e ∧ endps.get? n = some e) := by
  induction cs generalizing acc with
  | nil => cases h; exact ⟨fun _ => rfl, fun c hc => by cases hc⟩
  | cons c cs ih =>
    unfold buildEndpoints at h
    cases hb : buildOne lib issuer c with
    | error e => rw [hb] at h; cases h
    | ok e =>
      rw [hb] at h
      obtain ⟨h1, h2⟩ := ih h
      constructor
      · intro hn
        rw [h1 (fun c' hc' => hn c' (List.mem_cons_of_mem _ hc')), Dict.get?_set_ne _ _ (hn c List.mem_cons_self)]
      · intro c' hc' hn
        by_cases hex : ∃ d ∈ cs, d.cls.name = n
        · obtain ⟨d, hd, hdn⟩ := hex
          obtain ⟨c'', h3, h4⟩ := h2 d hd hdn
          exact ⟨c'', List.mem_cons_of_mem _ h3, h4⟩
        · rcases List.mem_cons.1 hc' with rfl | hc'
          · refine ⟨c', List.mem_cons_self, hn, e, hb, ?_⟩
            rw [h1 (fun d hd hdn => hex ⟨d, hd, hdn⟩), ← hn, Dict.get?_set_self]
          · exact absurd ⟨c', hc', hn⟩ hex

theorem built_info {lib : CryptoAlgs} {issuer : String} {c : EndpConf} {e : Endp} (h : buildOne lib issuer c = .ok e) :
    ∃ i, c.cls.info lib c.kwargs = .ok i ∧ e.endpointName = c.cls.endpointName ∧ e.path = c.path ∧
      e.fullPath = fullPath issuer c.path ∧ e.info = withUrl c.cls.endpointName (fullPath issuer c.path) i ∧
      e.targets = c.cls.name :: (if c.cls.issuerTarget then [""] else []) := by
  unfold buildOne at h
  cases hi : c.cls.info lib c.kwargs with
  | error x => rw [hi] at h; cases h
  | ok i => rw [hi] at h; cases h; exact ⟨i, rfl, rfl, rfl, rfl, rfl, rfl⟩

/-- The members an endpoint class publishes. -/
def EndpClass.members (c : EndpClass) : List String :=
  (match c.caps with | some d => d.keys | none => []) ++ (if c.authMethods then ["token_endpoint_auth_methods_supported"] else [])

theorem construct_keys {lib : CryptoAlgs} {caps kwargs info : Dict Json} (h : constructEndpointInfo lib caps kwargs = .ok info)
    {k : String} {v : Json} (hv : info.get? k = some v) : k ∈ caps.keys := by
  rcases loop_mem h hv with h1 | ⟨d, hd, _⟩
  · cases h1
  · exact List.mem_map.2 ⟨(k, d), hd, rfl⟩

theorem info_members {lib : CryptoAlgs} {c : EndpClass} {kwargs i : Dict Json} (h : c.info lib kwargs = .ok (some i)) {k : String}
    {v : Json} (hv : i.get? k = some v) : k ∈ c.members := by
  unfold EndpClass.info at h
  unfold EndpClass.members
  cases hc : c.caps with
  | none => rw [hc] at h; cases h
  | some d =>
    rw [hc] at h
    simp only [] at h
    cases hi : constructEndpointInfo lib d kwargs with
    | error e => rw [hi] at h; cases h
    | ok j =>
      rw [hi] at h
      simp only [] at h
      cases h
      unfold withAuthMethods at hv
      rw [List.mem_append]
      split at hv
      · rename_i ha _
        rw [Dict.get?_set] at hv
        split at hv
        · rename_i e
          right
          rw [ha, if_pos rfl, e]
          exact List.mem_singleton.2 rfl
        · exact .inl (construct_keys hi hv)
      · exact .inl (construct_keys hi hv)

/-- What a built endpoint publishes under a name. -/
theorem built_get {lib : CryptoAlgs} {issuer : String} {c : EndpConf} {e : Endp} (h : buildOne lib issuer c = .ok e) {k : String}
    {v : Json} (hv : (e.info.getD []).get? k = some v) :
    (k = c.cls.endpointName ∧ k ≠ "" ∧ v = .str (fullPath issuer c.path)) ∨ k ∈ c.cls.members := by
  obtain ⟨i, hi, _, _, _, he, _⟩ := built_info h
  rw [he] at hv
  have key : ∀ v, (i.getD []).get? k = some v → k ∈ c.cls.members := by
    intro v hv
    cases i with
    | none => cases hv
    | some j => exact info_members hi hv
  unfold withUrl at hv
  split at hv
  · exact .inr (key v hv)
  · rename_i hne
    rw [Option.getD_some, Dict.get?_set] at hv
    split at hv
    · rename_i e; cases hv; exact .inl ⟨e.symm, by rw [← e]; exact hne, rfl⟩
    · exact .inr (key v hv)

theorem built_url {lib : CryptoAlgs} {issuer : String} {c : EndpConf} {e : Endp} (h : buildOne lib issuer c = .ok e)
    (hne : c.cls.endpointName ≠ "") : (e.info.getD []).get? c.cls.endpointName = some (.str (fullPath issuer c.path)) := by
  obtain ⟨i, hi, _, _, _, he, _⟩ := built_info h
  rw [he]
  unfold withUrl
  rw [if_neg hne, Option.getD_some, Dict.get?_set_self]

/-! ### after the capabilities -/

/-- The members that `create_providerinfo` and what follows may set. -/
def laterMembers : List String :=
  ["issuer", "version", "acr_values_supported", "jwks_uri", "scopes_supported", "claims_supported",
   "dpop_signing_alg_values_supported", "id_token_signing_alg_values_supported", "id_token_encryption_alg_values_supported",
   "id_token_encryption_enc_values_supported"]

theorem get?_withAcr (b : List AuthnMethod) (d : Dict Json) (k : String) :
    (withAcr b d).get? k = if b ≠ [] ∧ k = "acr_values_supported" then some (strs (b.map (·.acr))) else d.get? k := by
  unfold withAcr
  cases b with
  | nil => simp
  | cons m b =>
    simp only [List.isEmpty_cons, Bool.false_eq_true, if_false]
    rw [Dict.get?_set]
    by_cases e : "acr_values_supported" = k
    · rw [if_pos e, if_pos ⟨by simp, e.symm⟩]
    · rw [if_neg e, if_neg (fun h => e h.2.symm)]

theorem get?_withJwks (i : String) (p : Option String) (d : Dict Json) (k : String) :
    (withJwks i p d).get? k = if k = "jwks_uri" then (p.map (fun x => Json.str (jwksUri i x))).or (d.get? k) else d.get? k := by
  unfold withJwks
  cases p with
  | none => by_cases e : k = "jwks_uri" <;> simp [e]
  | some x =>
    simp only []
    rw [Dict.get?_set]
    by_cases e : "jwks_uri" = k
    · rw [if_pos e, if_pos e.symm]; rfl
    · rw [if_neg e, if_neg (fun h => e h.symm)]

theorem get?_withScopes (c : ScopeCfg) (d : Dict Json) (k : String) :
    (withScopes c d).get? k =
      if k = "scopes_supported" then (d.get? k).or (some (strs (allowedScopes c none))) else d.get? k := by
  unfold withScopes Dict.has
  by_cases e : k = "scopes_supported"
  · subst e
    rw [if_pos rfl]
    cases h : d.get? "scopes_supported" with
    | none => simp
    | some v => simp [h]
  · rw [if_neg e]
    split
    · rfl
    · rw [Dict.get?_set_ne _ _ (fun h => e h.symm)]

theorem get?_withClaims_ne (c : ScopeCfg) (d : Dict Json) (k : String) (e : k ≠ "claims_supported") :
    (withClaims c d).get? k = d.get? k := by
  unfold withClaims
  split
  · rfl
  · rw [Dict.get?_set_ne _ _ (fun h => e h.symm)]

theorem get?_withClaims_some (c : ScopeCfg) (d : Dict Json) (k : String) (v : Json) (h : d.get? k = some v) :
    (withClaims c d).get? k = some v := by
  by_cases e : k = "claims_supported"
  · subst e
    unfold withClaims Dict.has
    rw [h]
    exact h
  · rw [get?_withClaims_ne c d k e, h]

theorem get?_create_ne (conf : ServerConf) (cap : Dict Json) (k : String) (hk : k ∉ laterMembers) :
    (createProviderInfo conf cap).get? k = cap.get? k := by
  simp only [laterMembers, List.mem_cons, List.not_mem_nil, or_false, not_or] at hk
  obtain ⟨h1, h2, h3, h4, h5, h6, _⟩ := hk
  unfold createProviderInfo
  rw [get?_withClaims_ne _ _ _ h6, get?_withScopes, if_neg h5, get?_withJwks, if_neg h4, get?_withAcr, if_neg (fun h => h3 h.2),
    Dict.get?_set_ne _ _ (fun h => h2 h.symm), Dict.get?_set_ne _ _ (fun h => h1 h.symm)]

theorem get?_addOns_ne (l : List AddOn) (s : Dict Json × ScopeCfg) (k : String) (hk : k ∉ laterMembers) :
    (l.foldl addOn s).1.get? k = s.1.get? k := by
  induction l generalizing s with
  | nil => rfl
  | cons a l ih =>
    rw [List.foldl_cons, ih]
    simp only [laterMembers, List.mem_cons, List.not_mem_nil, or_false, not_or] at hk
    obtain ⟨_, _, _, _, h5, h6, h7, _⟩ := hk
    cases a with
    | pkce => rfl
    | dpop algs => exact Dict.get?_set_ne _ _ (fun h => h7 h.symm)
    | customScopes m =>
      unfold addOn
      simp only []
      rw [Dict.get?_set_ne _ _ (fun h => h6 h.symm), Dict.get?_set_ne _ _ (fun h => h5 h.symm)]

theorem get?_reverse_none {d : Dict Json} {k : String} (h : k ∉ d.keys) : Dict.get? d.reverse k = none := by
  rw [Dict.get?_eq_none_iff]
  intro hk
  apply h
  unfold Dict.keys at hk ⊢
  rw [List.map_reverse, List.mem_reverse] at hk
  exact hk

theorem idToken_keys {lib : CryptoAlgs} {kw : Option (Dict Json)} {idt : Dict Json} (h : idTokenInfo lib kw = .ok idt) {k : String}
    (hk : k ∉ idTokenCaps.keys ∨ kw = none) : Dict.get? idt.reverse k = none := by
  cases kw with
  | none => cases h; rfl
  | some kw =>
    rcases hk with hk | hk
    · apply get?_reverse_none
      intro hm
      have := (Dict.get?_isSome_iff idt k).2 hm
      cases hv : idt.get? k with
      | none => rw [hv] at this; cases this
      | some v => exact hk (construct_keys h hv)
    · cases hk

/-- What a server is made of. -/
theorem makeServer_spec {lib : CryptoAlgs} {conf : ServerConf} {s : Serv} (h : makeServer lib conf = .ok s) :
    ∃ endps idt, buildEndpoints lib conf.issuer conf.endpoints [] = .ok endps ∧ idTokenInfo lib conf.idToken = .ok idt ∧
      s.endpoints = endps ∧
      s.info = ((conf.addOns.foldl addOn
        (createProviderInfo conf (collectCaps (conf.caps.getD []) endps), conf.scopes)).1).update idt ∧
      s.scopes = (conf.addOns.foldl addOn
        (createProviderInfo conf (collectCaps (conf.caps.getD []) endps), conf.scopes)).2 := by
  unfold makeServer at h
  cases hb : buildEndpoints lib conf.issuer conf.endpoints [] with
  | error e => rw [hb] at h; cases h
  | ok endps =>
    rw [hb] at h
    simp only [] at h
    cases hi : idTokenInfo lib conf.idToken with
    | error e => rw [hi] at h; cases h
    | ok idt => rw [hi] at h; cases h; exact ⟨endps, idt, rfl, rfl, rfl, rfl, rfl⟩

theorem later_ne {k : String} (h : k ∉ laterMembers) : k ∉ idTokenCaps.keys := by
  intro hk
  apply h
  have : ∀ x ∈ idTokenCaps.keys, x ∈ laterMembers := by decide
  exact this k hk

/-- A member that nothing else decides about is the one of the configuration or of an endpoint. -/
theorem info_get {lib : CryptoAlgs} {conf : ServerConf} {s : Serv} (h : makeServer lib conf = .ok s) (k : String)
    (hk : k ∉ laterMembers) : s.info.get? k = ((conf.caps.getD []).get? k).or (firstInfo k s.endpoints) := by
  obtain ⟨endps, idt, _, hi, he, hs, _⟩ := makeServer_spec h
  rw [hs, Dict.get?_update, idToken_keys hi (.inl (later_ne hk))]
  simp only []
  rw [get?_addOns_ne _ _ _ hk, get?_create_ne _ _ _ hk, get?_collect, he]

/-! ### URLs -/

theorem append_slash (b : String) : (b ++ "/").toList = b.toList ++ ['/'] := by rw [String.toList_append]; rfl

theorem fullPath_at (issuer path : String) : UrlAt issuer path (fullPath issuer path) := by
  unfold fullPath baseUrl
  by_cases h : issuer.toList.getLast? = some '/'
  · rw [if_pos h]
    refine .slash _ ?_
    apply String.toList_inj.1
    rw [append_slash, String.toList_ofList]
    obtain ⟨l, hl⟩ := List.getLast?_eq_some_iff.1 h
    rw [hl, List.dropLast_concat]
  · rw [if_neg h]
    refine .plain (fun b hb => h ?_)
    rw [hb, append_slash, List.getLast?_concat]

theorem urlAt_unique {issuer path u u' : String} (h : UrlAt issuer path u) (h' : UrlAt issuer path u') : u = u' := by
  have inj : ∀ b b' : String, b ++ "/" = b' ++ "/" → b = b' := by
    intro b b' e
    have := congrArg String.toList e
    rw [append_slash, append_slash] at this
    exact String.toList_inj.1 (List.append_cancel_right this)
  cases h with
  | slash b e =>
    cases h' with
    | slash b' e' => rw [inj b b' (e.symm.trans e')]
    | plain e' => exact absurd e (e' b)
  | plain e =>
    cases h' with
    | slash b' e' => exact absurd e' (e b')
    | plain e' => rfl

end OidcOp
