/-
The methods of client authentication at the token endpoint, published, taken and registered: C99 and C100.
-/
import Verif.Spec.EndpointAuth
import Verif.Props.ClientAuthn
import Verif.Props.Metadata
import Verif.Props.RegisteredAuth

namespace OidcOp
open Spec

/-! ### what is published -/

theorem shipped_auth : ∀ c ∈ shippedClasses, c.name = "token" ∧ c.endpointName = "token_endpoint" ∧ c.authMethods = true ∧ c.caps.isSome ∨
    c.name ≠ "token" ∧ "token_endpoint_auth_methods_supported" ∉ c.members ∧
      c.endpointName ≠ "token_endpoint_auth_methods_supported" := by decide

theorem info_authMethods {lib : CryptoAlgs} {c : EndpClass} {kwargs : Dict Json} {i : Option (Dict Json)} {v : Json}
    (h : c.info lib kwargs = .ok i) (ha : c.authMethods = true) (hc : c.caps.isSome) (hv : kwargs.get? "client_authn_method" = some v) :
    ∃ j, i = some j ∧ j.get? "token_endpoint_auth_methods_supported" = some v := by
  unfold EndpClass.info at h
  cases hcc : c.caps with
  | none => rw [hcc] at hc; cases hc
  | some d =>
    rw [hcc] at h
    simp only [] at h
    cases hi : constructEndpointInfo lib d kwargs with
    | error e => rw [hi] at h; cases h
    | ok j =>
      rw [hi] at h
      simp only [] at h
      cases h
      refine ⟨_, rfl, ?_⟩
      unfold withAuthMethods
      rw [ha, hv]
      exact Dict.get?_set_self _ _ _

/-- C99, where the capabilities in the configuration do not name methods themselves: the metadata name the methods that the token
endpoint is configured with. -/
theorem C99_published_partial (lib : CryptoAlgs) (conf : ServerConf) (s : Serv) (defaults : Dict Json)
    (h : makeServer lib conf = .ok s) (hs : Shipped conf) (h1 : OneOfAKind conf)
    (hcap : (conf.caps.getD []).get? "token_endpoint_auth_methods_supported" = none) (c : EndpConf) (hc : c ∈ conf.endpoints)
    (hn : c.cls.endpointName = "token_endpoint") (v : Json) (hv : c.kwargs.get? "client_authn_method" = some v) :
    (document defaults s).get? "token_endpoint_auth_methods_supported" = some v := by
  obtain ⟨htok, hauth, hcaps⟩ : c.cls.name = "token" ∧ c.cls.authMethods = true ∧ c.cls.caps.isSome := by
    have key : ∀ c ∈ shippedClasses, c.endpointName = "token_endpoint" → c.name = "token" ∧ c.authMethods = true ∧ c.caps.isSome := by
      decide
    exact key c.cls (hs c hc) hn
  have hinfo : ∀ e, buildOne lib conf.issuer c = .ok e →
      (e.info.getD []).get? "token_endpoint_auth_methods_supported" = some v := by
    intro e hb
    obtain ⟨i, hi, _, _, _, he, _⟩ := built_info hb
    obtain ⟨j, hj, hjv⟩ := info_authMethods hi hauth hcaps hv
    rw [he, hj, hn]
    unfold withUrl
    rw [if_neg (by decide), Option.getD_some, Option.getD_some, Dict.get?_set_ne _ _ (by decide), hjv]
  rw [document_get h hs, info_get h _ (by decide), hcap, Option.none_or]
  cases hf : firstInfo "token_endpoint_auth_methods_supported" s.endpoints with
  | none =>
    obtain ⟨e, hb, hg⟩ := endps_get h h1 hc
    have := firstInfo_none hf (c.cls.name, e) (Dict.get?_mem hg) (by show ¬ leftOut c.cls.name; rw [htok]; unfold leftOut; decide)
    rw [hinfo e hb] at this
    cases this
  | some x =>
    obtain ⟨p, hp, _, hi⟩ := firstInfo_some hf
    obtain ⟨c', hc', _, hb⟩ := endps_from h hp
    rcases shipped_auth c'.cls (hs c' hc') with ⟨k1, -⟩ | ⟨-, k2, k3⟩
    · cases kind_inj h1 hc hc' (htok.trans k1.symm)
      rw [hinfo _ hb] at hi
      cases hi
      rfl
    · rcases built_get hb hi with ⟨e1, -⟩ | e1
      · exact absurd e1.symm k3
      · exact absurd e1 k2

/-! ### what is taken -/

/-- The name of each method. -/
theorem methodNamed_ok {n : String} {m : CAuthn} (h : methodNamed n = .ok m) : n = m.tag := by
  unfold methodNamed at h
  repeat' split at h
  all_goals first | cases h; assumption | cases h

theorem setupAll_mem {l : List Json} {ms : List (Option CAuthn)} (h : setupAll l = .ok ms) :
    (∀ o ∈ ms, ∃ v ∈ l, setupOne v = .ok o) ∧ ∀ v ∈ l, ∃ o ∈ ms, setupOne v = .ok o := by
  induction l generalizing ms with
  | nil => cases h; constructor <;> (intro o ho; cases ho)
  | cons x l ih =>
    unfold setupAll at h
    cases hx : setupOne x with
    | error e => rw [hx] at h; cases h
    | ok o =>
      rw [hx] at h
      simp only [] at h
      cases hl : setupAll l with
      | error e => rw [hl] at h; cases h
      | ok os =>
        rw [hl] at h
        cases h
        obtain ⟨h1, h2⟩ := ih hl
        constructor
        · intro o' ho'
          rcases List.mem_cons.1 ho' with rfl | ho'
          · exact ⟨x, List.mem_cons_self, hx⟩
          · obtain ⟨v, hv, hv'⟩ := h1 o' ho'
            exact ⟨v, List.mem_cons_of_mem _ hv, hv'⟩
        · intro v hv
          rcases List.mem_cons.1 hv with rfl | hv
          · exact ⟨o, List.mem_cons_self, hx⟩
          · obtain ⟨o', ho', hv'⟩ := h2 v hv
            exact ⟨o', List.mem_cons_of_mem _ ho', hv'⟩

/-- The methods of an endpoint that is configured with names. -/
theorem methods_named {c : EndpConf} {names : List String} (hne : names ≠ [])
    (hv : c.kwargs.get? "client_authn_method" = some (strs names)) {ms : List (Option CAuthn)} (h : endpointMethods c = .ok ms) :
    ms ≠ [] ∧ (∀ m, some m ∈ ms ↔ m.tag ∈ names) ∧ (none ∈ ms ↔ ∃ n ∈ names, NoneName n) := by
  unfold endpointMethods at h
  rw [hv] at h
  simp only [] at h
  have ht : (strs names).truthy = true := by
    unfold strs Json.truthy
    cases names with
    | nil => exact absurd rfl hne
    | cons a l => rfl
  rw [if_pos ht] at h
  unfold authSetup elements strs at h
  simp only [] at h
  obtain ⟨h1, h2⟩ := setupAll_mem h
  have hname : ∀ m : CAuthn, ¬ NoneName m.tag := by intro m; unfold NoneName; cases m <;> decide
  refine ⟨?_, fun m => ⟨fun hm => ?_, fun hm => ?_⟩, fun hm => ?_, fun hm => ?_⟩
  · intro e
    obtain ⟨a, ha⟩ := List.exists_mem_of_ne_nil _ hne
    obtain ⟨o, ho, -⟩ := h2 (.str a) (List.mem_map.2 ⟨a, ha, rfl⟩)
    rw [e] at ho
    cases ho
  · obtain ⟨v, hv, hs⟩ := h1 _ hm
    obtain ⟨a, ha, rfl⟩ := List.mem_map.1 hv
    unfold setupOne at hs
    simp only [] at hs
    split at hs
    · cases hs
    · cases hmn : methodNamed a with
      | error e => rw [hmn] at hs; cases hs
      | ok m' =>
        rw [hmn] at hs
        simp only [Except.map, Except.ok.injEq, Option.some.injEq] at hs
        subst hs
        rw [← methodNamed_ok hmn]
        exact ha
  · obtain ⟨o, ho, hs⟩ := h2 (.str m.tag) (List.mem_map.2 ⟨_, hm, rfl⟩)
    unfold setupOne at hs
    simp only [] at hs
    rw [if_neg (show ¬ (m.tag.toList.map Char.toLower = "none".toList) from hname m)] at hs
    have : methodNamed m.tag = .ok m := by cases m <;> first | rfl | cases hs
    rw [this] at hs
    simp only [Except.map, Except.ok.injEq] at hs
    rw [hs]
    exact ho
  · obtain ⟨v, hv, hs⟩ := h1 _ hm
    obtain ⟨a, ha, rfl⟩ := List.mem_map.1 hv
    unfold setupOne at hs
    simp only [] at hs
    split at hs
    · rename_i e; exact ⟨a, ha, e⟩
    · cases hmn : methodNamed a with
      | error e => rw [hmn] at hs; cases hs
      | ok m' => rw [hmn] at hs; cases hs
  · obtain ⟨a, ha, e⟩ := hm
    obtain ⟨o, ho, hs⟩ := h2 (.str a) (List.mem_map.2 ⟨a, ha, rfl⟩)
    unfold setupOne at hs
    simp only [] at hs
    rw [if_pos (show a.toList.map Char.toLower = "none".toList from e)] at hs
    cases hs
    exact ho

theorem finishClient_none {C : AuthnCtx} {req : AuthnReq} {ai r : AuthInfo} (h : finishClient C none req ai = .ok r) : r = ai := by
  unfold finishClient at h
  split at h
  · split at h
    · cases h
    · cases h; rfl
  · cases h; rfl

/-- What passes at an endpoint that is configured with names. -/
theorem passes_named {c : EndpConf} {names : List String} (hne : names ≠ [])
    (hv : c.kwargs.get? "client_authn_method" = some (strs names)) {ms : List (Option CAuthn)} (hm : endpointMethods c = .ok ms)
    {C : AuthnCtx} {req : AuthnReq} {header : Option String} {seen seen' : List String} {r : Option AuthInfo}
    (h : clientAuthentication C ms none req header seen = (.ok r, seen')) :
    ∃ ai, r = some ai ∧ ∃ n ∈ names, (ai.method = n ∨ ai.method = "none" ∧ NoneName n) ∧
      ∀ client, ai.clientId = some client → client ≠ "" → ShownBy C req header client n ∧ InForce C.cdb C.now client := by
  obtain ⟨hms, hsome, hnone⟩ := methods_named hne hv hm
  cases r with
  | none =>
    exfalso
    unfold clientAuthentication at h
    split at h
    · rw [if_neg (by simpa using hms)] at h
      cases h
    · rename_i hx
      exact hx seen' h
  | some ai =>
    have hv : verifyClient C ms none req header seen = (.ok (some ai), seen') := by
      unfold clientAuthentication at h
      split at h
      · rw [if_neg (by simpa using hms)] at h
        cases h
      · exact h
    obtain ⟨ai', hf, hfin⟩ := verifyClient_spec hv
    cases finishClient_none hfin
    have hin : ∀ client, ai.clientId = some client → client ≠ "" → InForce C.cdb C.now client := by
      intro client hcl hcne
      rcases C49_every_method_partial C ms none req header seen seen' ai client hcl hcne hv with ⟨k, -⟩ | ⟨f, t, e, -⟩
      · exact k
      · cases e
    refine ⟨ai, rfl, ?_⟩
    rcases hf with ⟨m, hmm, hf⟩ | ⟨hmn, rfl⟩
    · refine ⟨m.tag, (hsome m).1 hmm, ?_, fun client hcl hcne => ⟨?_, hin client hcl hcne⟩⟩
      · cases hf <;> exact .inl rfl
      · cases hf with
        | basic k1 k2 => cases hcl; exact .basic _ k1 k2
        | post k1 k2 => cases hcl; exact .post _ k1 k2
        | bearerHeader k1 => cases hcl
        | bearerBody k1 =>
          refine .bearerBody (by rw [k1]; rfl) ?_
          unfold truthyStr at hcl
          cases hq : req.clientId with
          | none => rw [hq] at hcl; cases hcl
          | some x =>
            rw [hq] at hcl
            simp only [] at hcl
            split at hcl
            · cases hcl
            · exact hcl
        | secretJwt k1 k2 => cases hcl; exact .secretJwt _ _ k1 k2
        | privateKeyJwt k1 k2 => cases hcl; exact .privateKeyJwt _ _ k1 k2
        | requestParam k1 k2 k3 => cases hcl; exact .requestParam _ _ k1 k2 k3
    · obtain ⟨n, hn, hl⟩ := hnone.1 hmn
      exact ⟨n, hn, .inr ⟨rfl, hl⟩, fun client hcl hcne => ⟨.named n hl hcl, hin client hcl hcne⟩⟩

/-- C99, where methods are configured for the token endpoint (and the capabilities do not name others): a token request passes client
authentication only by a method that the metadata name, and if it passes as a client then it shows in the way of that method that it
is from this client. -/
theorem C99_accepted_partial (lib : CryptoAlgs) (conf : ServerConf) (s : Serv) (defaults : Dict Json)
    (h : makeServer lib conf = .ok s) (hs : Shipped conf) (h1 : OneOfAKind conf)
    (hcap : (conf.caps.getD []).get? "token_endpoint_auth_methods_supported" = none) (c : EndpConf) (hc : c ∈ conf.endpoints)
    (hn : c.cls.endpointName = "token_endpoint") (names : List String) (hne : names ≠ [])
    (hv : c.kwargs.get? "client_authn_method" = some (strs names)) (ms : List (Option CAuthn)) (hm : endpointMethods c = .ok ms)
    (C : AuthnCtx) (req : AuthnReq) (header : Option String) (seen seen' : List String) (r : Option AuthInfo)
    (hp : clientAuthentication C ms none req header seen = (.ok r, seen')) :
    ∃ l ai n, (document defaults s).get? "token_endpoint_auth_methods_supported" = some (.arr l) ∧ .str n ∈ l ∧ r = some ai ∧
      (ai.method = n ∨ ai.method = "none" ∧ NoneName n) ∧
      ∀ client, ai.clientId = some client → client ≠ "" → ShownBy C req header client n ∧ InForce C.cdb C.now client := by
  obtain ⟨ai, hr, n, hnn, h2, h3⟩ := passes_named hne hv hm hp
  exact ⟨_, ai, n, C99_published_partial lib conf s defaults h hs h1 hcap c hc hn _ hv, List.mem_map.2 ⟨n, hnn, rfl⟩, hr, h2, h3⟩

/-! ### what is published works -/

theorem try_works {C : AuthnCtx} {req : AuthnReq} {header : Option String} {seen : List String} (P : AuthInfo → Prop)
    {ms : List (Option CAuthn)}
    (h : ∀ m, some m ∈ ms → m.usable req header = false ∨ m.verify C req header seen = (none, seen) ∨
      ∃ ai s', m.verify C req header seen = (some ai, s') ∧ P ai)
    (hm : ∃ m, some m ∈ ms ∧ m.usable req header = true ∧ ∃ ai s', m.verify C req header seen = (some ai, s')) :
    ∃ ai s', tryMethods C req header ms seen = (some ai, s') ∧ P ai := by
  induction ms with
  | nil => obtain ⟨m, hm, -⟩ := hm; cases hm
  | cons o ms ih =>
    have ih' := fun hex => ih (fun m hm => h m (List.mem_cons_of_mem _ hm)) hex
    cases o with
    | none =>
      unfold tryMethods
      obtain ⟨m, hm1, hm2⟩ := hm
      refine ih' ⟨m, ?_, hm2⟩
      rcases List.mem_cons.1 hm1 with e | e
      · cases e
      · exact e
    | some m =>
      unfold tryMethods
      by_cases hu : m.usable req header = true
      · rw [if_pos hu]
        rcases h m List.mem_cons_self with h1 | h1 | ⟨ai, s', h1, h2⟩
        · rw [hu] at h1; cases h1
        · rw [h1]
          simp only []
          obtain ⟨m', hm1, hm2, ai, s', hm3⟩ := hm
          refine ih' ⟨m', ?_, hm2, ai, s', hm3⟩
          rcases List.mem_cons.1 hm1 with e | e
          · cases e
            rw [h1] at hm3
            cases hm3
          · exact e
        · rw [h1]
          exact ⟨ai, s', rfl, h2⟩
      · rw [if_neg hu]
        obtain ⟨m', hm1, hm2, hm3⟩ := hm
        refine ih' ⟨m', ?_, hm2, hm3⟩
        rcases List.mem_cons.1 hm1 with e | e
        · cases e; exact absurd hm2 hu
        · exact e

theorem afterPrefix_isSome {p q : String} : (afterPrefix p (some (p ++ q))).isSome = true := by
  unfold afterPrefix
  simp only [String.toList_append]
  rw [if_pos (by simp)]
  rfl

theorem no_bearer {q : String} : afterPrefix "Bearer " (some ("Basic " ++ q)) = none := by
  unfold afterPrefix
  simp only [String.toList_append]
  rw [if_neg]
  rw [show "Bearer ".toList = ['B', 'e', 'a', 'r', 'e', 'r', ' '] by decide, show "Basic ".toList = ['B', 'a', 's', 'i', 'c', ' '] by decide]
  simp [List.isPrefixOf]

/-- What the names stand for. -/
theorem shownBy_inv {C : AuthnCtx} {req : AuthnReq} {header : Option String} {client n : String} (h : ShownBy C req header client n) :
    (n = "client_secret_basic" → ∃ s, BasicCredentials C header client s ∧ HasSecret C.cdb client s) ∧
    (n = "client_secret_post" → ∃ s, PostCredentials req client s ∧ HasSecret C.cdb client s) ∧
    (n = "client_secret_jwt" → ∃ t A, req.clientAssertion = some t ∧ GoodAssertion C false t A client) ∧
    (n = "private_key_jwt" → ∃ t A, req.clientAssertion = some t ∧ GoodAssertion C true t A client) := by
  cases h with
  | basic s h1 h2 => exact ⟨fun _ => ⟨s, h1, h2⟩, fun e => absurd e (by decide), fun e => absurd e (by decide), fun e => absurd e (by decide)⟩
  | post s h1 h2 => exact ⟨fun e => absurd e (by decide), fun _ => ⟨s, h1, h2⟩, fun e => absurd e (by decide), fun e => absurd e (by decide)⟩
  | secretJwt t A h1 h2 =>
    exact ⟨fun e => absurd e (by decide), fun e => absurd e (by decide), fun _ => ⟨t, A, h1, h2⟩, fun e => absurd e (by decide)⟩
  | privateKeyJwt t A h1 h2 =>
    exact ⟨fun e => absurd e (by decide), fun e => absurd e (by decide), fun e => absurd e (by decide), fun _ => ⟨t, A, h1, h2⟩⟩
  | requestParam =>
    exact ⟨fun e => absurd e (by decide), fun e => absurd e (by decide), fun e => absurd e (by decide), fun e => absurd e (by decide)⟩
  | bearerBody =>
    exact ⟨fun e => absurd e (by decide), fun e => absurd e (by decide), fun e => absurd e (by decide), fun e => absurd e (by decide)⟩
  | named _ hn =>
    refine ⟨?_, ?_, ?_, ?_⟩ <;> (intro e; rw [e] at hn; exact absurd hn (by decide))

/-- A request with the right credentials for one of the methods passes. -/
theorem passes_own {C : AuthnCtx} {ms : List (Option CAuthn)} {req : AuthnReq} {header : Option String} {seen : List String}
    {client n : String} (hmem : ∀ m : CAuthn, m.tag = n → some m ∈ ms) (hcne : client ≠ "") (ho : OnlyFor req header n)
    (hsh : ShownBy C req header client n) (hf : InForce C.cdb C.now client)
    (hj : ∀ t A j, req.clientAssertion = some t → C.unpack t = some A → A.jti = some j → jtiKey client j ∉ seen) :
    ∃ ai seen', verifyClient C ms none req header seen = (.ok (some ai), seen') ∧ ai.clientId = some client := by
  suffices key : ∃ ai s', tryMethods C req header ms seen = (some ai, s') ∧ ai.clientId = some client by
    obtain ⟨ai, s', k1, k2⟩ := key
    refine ⟨ai, s', ?_, k2⟩
    have hfin : finishClient C none req ai = .ok ai := by
      obtain ⟨cl, e1, e2⟩ := hf
      have hval : validClientInfo C.now cl = true := by
        unfold validClientInfo
        rcases e2 with e | e
        · simp [e]
        · simp; exact .inr e
      unfold finishClient checkClient
      simp [truthyStr, hcne, k2, e1, hval]
    unfold verifyClient
    rw [k1]
    simp only [hfin, Except.map]
  cases ho with
  | basic ho a1 a2 a3 a4 =>
    obtain ⟨x, hx⟩ := ho
    have hb : afterPrefix "Bearer " header = none := by rw [hx]; exact no_bearer
    have hmem := hmem .basic rfl
    have hver : CAuthn.basic.verify C req header seen = (some { clientId := some client, method := "client_secret_basic" }, seen) := by
      obtain ⟨sec, k1, k2⟩ := (shownBy_inv hsh).1 rfl
      obtain ⟨tok, k3, k4⟩ := basicAuthn_of k1
      simp [CAuthn.verify, k3, k4, secretMatches_iff.2 k2, CAuthn.tag]
    refine try_works _ (fun m _ => ?_) ⟨.basic, hmem, ?_, _, _, hver⟩
    · cases m with
      | basic => exact .inr (.inr ⟨_, _, hver, rfl⟩)
      | post => left; simp [CAuthn.usable, a1]
      | bearerHeader => left; simp [CAuthn.usable, hb]
      | bearerBody => left; simp [CAuthn.usable, a2]
      | secretJwt => left; simp [CAuthn.usable, a3]
      | privateKeyJwt => left; simp [CAuthn.usable, a3]
      | requestParam => left; simp [CAuthn.usable, a4]
      | dpop => exact .inr (.inl rfl)
    · rw [CAuthn.usable, hx]; exact afterPrefix_isSome
  | post a0 a2 a3 a4 =>
    have hmem := hmem .post rfl
    obtain ⟨sec, k1, k2⟩ := (shownBy_inv hsh).2.1 rfl
    have hver : CAuthn.post.verify C req header seen = (some { clientId := some client, method := "client_secret_post" }, seen) := by
      obtain ⟨cl, e1, e2⟩ := k2
      simp only [CAuthn.verify, k1.1, k1.2, secretMatches, e1, e2, decide_true, if_true, CAuthn.tag]
    refine try_works _ (fun m _ => ?_) ⟨.post, hmem, ?_, _, _, hver⟩
    · cases m with
      | basic => left; simp [CAuthn.usable, a0, afterPrefix]
      | post => exact .inr (.inr ⟨_, _, hver, rfl⟩)
      | bearerHeader => left; simp [CAuthn.usable, a0, afterPrefix]
      | bearerBody => left; simp [CAuthn.usable, a2]
      | secretJwt => left; simp [CAuthn.usable, a3]
      | privateKeyJwt => left; simp [CAuthn.usable, a3]
      | requestParam => left; simp [CAuthn.usable, a4]
      | dpop => exact .inr (.inl rfl)
    · simp [CAuthn.usable, k1.1, k1.2]
  | assertion _ hn' a0 a1 a2 a4 =>
    -- which of the two methods it is
    obtain ⟨priv, t, A, ht, hA, hnp⟩ : ∃ priv t A, req.clientAssertion = some t ∧ GoodAssertion C priv t A client ∧
        n = (if priv then "private_key_jwt" else "client_secret_jwt") := by
      rcases hn' with e | e
      · obtain ⟨t, A, k1, k2⟩ := (shownBy_inv hsh).2.2.2 e
        exact ⟨true, t, A, k1, k2, e⟩
      · obtain ⟨t, A, k1, k2⟩ := (shownBy_inv hsh).2.2.1 e
        exact ⟨false, t, A, k1, k2, e⟩
    obtain ⟨g1, g2, ⟨auds, a, g3, g4, g5⟩, g6, g7⟩ := hA
    have haud : audCheck C A = true := by
      unfold audCheck
      rw [g3]
      simp only [List.any_eq_true, List.contains_iff_mem]
      exact ⟨a, g4, g5⟩
    have hkey : ∀ p, keyCheck C p A = decide (p = priv) := by
      intro p
      cases priv with
      | true => unfold keyCheck; rw [g6 rfl]; cases p <;> rfl
      | false =>
        obtain ⟨e1, ⟨cl, e2⟩, e3⟩ := g7 rfl
        unfold keyCheck
        rw [e1]
        cases p with
        | true => rfl
        | false =>
          simp only [if_true, Bool.false_eq_true, if_false, g2, Option.bind_some, e2]
          cases hsec : truthyStr cl.secret with
          | none => rfl
          | some x =>
            have hx : cl.secret = some x ∧ x ≠ "" := by
              unfold truthyStr at hsec
              cases hs' : cl.secret with
              | none => rw [hs'] at hsec; cases hsec
              | some y =>
                rw [hs'] at hsec
                simp only [] at hsec
                split at hsec
                · cases hsec
                · rename_i hy; cases hsec; exact ⟨rfl, hy⟩
            simp only [e3 x ⟨cl, e2, hx.1⟩ hx.2, decide_true]
    have hjti : ∀ meth, ∃ s', jtiCheck meth A seen = (some { clientId := some client, method := meth, assertion := some A }, s') := by
      intro meth
      unfold jtiCheck
      rw [g2]
      simp only []
      cases hja : A.jti with
      | none => exact ⟨seen, rfl⟩
      | some j =>
        unfold truthyStr
        simp only []
        by_cases hj0 : j = ""
        · rw [if_pos hj0]; exact ⟨seen, rfl⟩
        · rw [if_neg hj0]
          simp only []
          rw [if_neg (hj t A j ht g1 hja)]
          exact ⟨_, rfl⟩
    have hjws : ∀ meth p, (p = priv ∧ ∃ ai s', jwsVerify C meth p req.clientAssertion seen = (some ai, s') ∧ ai.clientId = some client) ∨
        (p ≠ priv ∧ jwsVerify C meth p req.clientAssertion seen = (none, seen)) := by
      intro meth p
      unfold jwsVerify
      rw [ht, Option.bind_some, g1]
      simp only [hkey, haud, Bool.and_true]
      by_cases hp : p = priv
      · left
        obtain ⟨s', hs'⟩ := hjti meth
        refine ⟨hp, { clientId := some client, method := meth, assertion := some A }, s', ?_, rfl⟩
        rw [if_pos (by simpa using hp)]
        exact hs'
      · right
        exact ⟨hp, by rw [if_neg (by simpa using hp)]⟩
    have hboth : ∀ m : CAuthn, (m = .secretJwt ∨ m = .privateKeyJwt) →
        m.verify C req header seen = (none, seen) ∨ ∃ ai s', m.verify C req header seen = (some ai, s') ∧ ai.clientId = some client := by
      intro m hm
      rcases hm with rfl | rfl
      · rcases hjws CAuthn.secretJwt.tag false with ⟨-, k⟩ | ⟨-, k⟩
        · exact .inr k
        · exact .inl k
      · rcases hjws CAuthn.privateKeyJwt.tag true with ⟨-, k⟩ | ⟨-, k⟩
        · exact .inr k
        · exact .inl k
    refine try_works _ (fun m _ => ?_) ?_
    · cases m with
      | basic => left; simp [CAuthn.usable, a0, afterPrefix]
      | post => left; simp [CAuthn.usable, a1]
      | bearerHeader => left; simp [CAuthn.usable, a0, afterPrefix]
      | bearerBody => left; simp [CAuthn.usable, a2]
      | secretJwt => exact .inr (hboth _ (.inl rfl))
      | privateKeyJwt => exact .inr (hboth _ (.inr rfl))
      | requestParam => left; simp [CAuthn.usable, a4]
      | dpop => exact .inr (.inl rfl)
    · cases priv with
      | false =>
        refine ⟨.secretJwt, hmem .secretJwt (by rw [hnp]; rfl), by simp [CAuthn.usable, ht], ?_⟩
        rcases hjws CAuthn.secretJwt.tag false with ⟨-, ai, s', k, -⟩ | ⟨k, -⟩
        · exact ⟨ai, s', k⟩
        · exact absurd rfl k
      | true =>
        refine ⟨.privateKeyJwt, hmem .privateKeyJwt (by rw [hnp]; rfl), by simp [CAuthn.usable, ht], ?_⟩
        rcases hjws CAuthn.privateKeyJwt.tag true with ⟨-, ai, s', k, -⟩ | ⟨k, -⟩
        · exact ⟨ai, s', k⟩
        · exact absurd rfl k

/-- C99, the other direction: for a client whose registration is in force, what the metadata name works.  A request that carries
credentials for one published method (a secret in the header, a secret in the body, or an assertion with an identifier that was not
used before), and those are right, passes as this client. -/
theorem C99_works_partial (lib : CryptoAlgs) (conf : ServerConf) (s : Serv) (defaults : Dict Json)
    (h : makeServer lib conf = .ok s) (hs : Shipped conf) (h1 : OneOfAKind conf)
    (hcap : (conf.caps.getD []).get? "token_endpoint_auth_methods_supported" = none) (c : EndpConf) (hc : c ∈ conf.endpoints)
    (hn : c.cls.endpointName = "token_endpoint") (names : List String) (hne : names ≠ [])
    (hv : c.kwargs.get? "client_authn_method" = some (strs names)) (ms : List (Option CAuthn)) (hm : endpointMethods c = .ok ms)
    (l : List Json) (hl : (document defaults s).get? "token_endpoint_auth_methods_supported" = some (.arr l)) (n : String)
    (hnl : .str n ∈ l) (C : AuthnCtx) (req : AuthnReq) (header : Option String) (seen : List String) (client : String)
    (hcne : client ≠ "") (ho : OnlyFor req header n) (hsh : ShownBy C req header client n) (hf : InForce C.cdb C.now client)
    (hj : ∀ t A j, req.clientAssertion = some t → C.unpack t = some A → A.jti = some j → jtiKey client j ∉ seen) :
    ∃ ai seen', clientAuthentication C ms none req header seen = (.ok (some ai), seen') ∧ ai.clientId = some client := by
  have hnn : n ∈ names := by
    rw [C99_published_partial lib conf s defaults h hs h1 hcap c hc hn _ hv] at hl
    cases hl
    obtain ⟨a, ha, e⟩ := List.mem_map.1 hnl
    cases e
    exact ha
  obtain ⟨-, hsome, -⟩ := methods_named hne hv hm
  obtain ⟨ai, s', k1, k2⟩ := passes_own (fun m e => (hsome m).2 (by rw [e]; exact hnn)) hcne ho hsh hf hj
  refine ⟨ai, s', ?_, k2⟩
  unfold clientAuthentication
  rw [k1]

/-- C100, where the token endpoint is configured with one method: whatever registrations there were, a client that registered a method
is authenticated at the token endpoint by this method. -/
theorem C100_one_method_partial (lib : CryptoAlgs) (conf : ServerConf) (s : Serv) (defaults : Dict Json)
    (h : makeServer lib conf = .ok s) (hs : Shipped conf) (h1 : OneOfAKind conf)
    (hcap : (conf.caps.getD []).get? "token_endpoint_auth_methods_supported" = none) (c : EndpConf) (hc : c ∈ conf.endpoints)
    (hn : c.cls.endpointName = "token_endpoint") (name : String)
    (hv : c.kwargs.get? "client_authn_method" = some (strs [name])) (ms : List (Option CAuthn)) (hm : endpointMethods c = .ok ms)
    (R : RegConf) (hR : ∀ l, R.providerInfo.get? "token_endpoint_auth_methods_supported" = some l →
      (document defaults s).get? "token_endpoint_auth_methods_supported" = some (strs l))
    (r0 : RegState) (calls : List RegCall) (client : String) (hnew : r0.cdb.get? client = none) (rec : Cinfo)
    (hrec : (regHistory R r0 calls).cdb.get? client = some rec) (m : String)
    (hmeth : rec.get? "token_endpoint_auth_method" = some (.json (.str m)))
    (C : AuthnCtx) (req : AuthnReq) (header : Option String) (seen seen' : List String) (ai : AuthInfo)
    (hp : clientAuthentication C ms none req header seen = (.ok (some ai), seen')) (hcl : ai.clientId = some client)
    (hcne : client ≠ "") : ShownBy C req header client m := by
  obtain ⟨j, sup, e1, e2, e3⟩ := C56_history R r0 calls client rec hnew hrec "token_endpoint_auth_method"
    "token_endpoint_auth_methods_supported" _ (by decide) hmeth
  cases e1
  have hpub := C99_published_partial lib conf s defaults h hs h1 hcap c hc hn _ hv
  rw [hR sup e2] at hpub
  have hsup : sup = [name] := by
    have : stringsOf (strs sup) = stringsOf (strs [name]) := by
      simp only [Option.some.injEq] at hpub
      rw [hpub]
    rwa [stringsOf_strs, stringsOf_strs] at this
  have hmn : m = name := by
    unfold Within at e3
    rw [if_neg (by decide), hsup] at e3
    rcases e3 with ⟨x, k1, k2⟩ | ⟨x, k1, -⟩ | ⟨x, k1, -⟩
    · cases k1
      exact List.mem_singleton.1 k2
    · cases k1
    · cases k1
  obtain ⟨ai', hr, n, hnn, -, h3⟩ := passes_named (by simp) hv hm hp
  cases hr
  rw [List.mem_singleton.1 hnn, ← hmn] at h3
  exact (h3 client hcl hcne).1

/-! ### Cases that meet the hypotheses, and what goes wrong -/

namespace Ex

def tokenConf : EndpConf := ⟨tokenClass, "token", [("client_authn_method", strs ["client_secret_post", "private_key_jwt", "None"])]⟩

/-- Where the requests of the examples are checked; assertions are their own audience. -/
def authAt (aud : String) : AuthnCtx :=
  { cdb := [("c1", .info { secret := some "s1" })], now := 5, targets := ["https://op.example/token"], decode := some
    unquote := String.ofList, unpack := fun _ => some { iss := some "c1", aud := some [aud], jti := some "j" } }

/-- C99: a token endpoint with three methods: each of them is published and works, other credentials do not. -/
example :
    let ms := [some CAuthn.post, some CAuthn.privateKeyJwt, none]
    let ms' := [some CAuthn.post, some CAuthn.privateKeyJwt]
    endpointMethods tokenConf = .ok ms ∧
    ((clientAuthentication (authAt "https://op.example/token") ms' none { clientAssertion := some "a" } none []).1.toOption.bind id).map
      (·.method) = some "private_key_jwt" ∧
    (clientAuthentication (authAt "https://op.example/") ms' none { clientAssertion := some "a" } none []).1 =
      .error (.other "UnAuthorizedClient") ∧
    ((clientAuthentication (authAt "") ms' none { clientId := some "c1", clientSecret := some "s1" } none []).1.toOption.bind id).map
      (·.method) = some "client_secret_post" ∧
    ((clientAuthentication (authAt "") ms none { clientId := some "c1" } none []).1.toOption.bind id).map (·.method) = some "none" ∧
    (clientAuthentication (authAt "") ms' none {} (some "Basic c1:s1") []).1 = .error (.other "UnAuthorizedClient") := by
  decide +kernel

example : NoneName "None" ∧ ¬ NoneName "nonce" := by decide

/-- C99: the server of the metadata examples publishes its one method. -/
example : (document [] mserv).get? "token_endpoint_auth_methods_supported" = some (strs ["private_key_jwt"]) ∧
    endpointMethods ⟨tokenClass, "token", [("client_authn_method", strs ["private_key_jwt"])]⟩ = .ok [some .privateKeyJwt] := by
  decide +kernel

/-- C99 is false of the code for the default configuration of the token endpoint: no method is published, and everybody passes client
authentication; there is no method to try and no method that has to succeed (endpoint.py:115-124, 221-231). -/
theorem C99_default_refuted :
    ¬ (∀ (lib : CryptoAlgs) (conf : ServerConf) (s : Serv) (c : EndpConf) (ms : List (Option CAuthn)), makeServer lib conf = .ok s →
      Shipped conf → OneOfAKind conf → conf.caps = none → c ∈ conf.endpoints → c.cls.endpointName = "token_endpoint" →
      endpointMethods c = .ok ms → ∀ (C : AuthnCtx) (req : AuthnReq) (header : Option String) (seen seen' : List String)
        (r : Option AuthInfo), clientAuthentication C ms none req header seen = (.ok r, seen') →
        ∃ l ai n, (document [] s).get? "token_endpoint_auth_methods_supported" = some (.arr l) ∧ .str n ∈ l ∧ r = some ai ∧
          (ai.method = n ∨ ai.method = "none" ∧ NoneName n)) := by
  intro h
  let c : EndpConf := ⟨tokenClass, "token", []⟩
  let conf : ServerConf := { issuer := "https://op.example", endpoints := [c] }
  have hs : makeServer cryptoLib conf = .ok ((makeServer cryptoLib conf).toOption.getD {}) := by decide +kernel
  obtain ⟨l, ai, n, -, -, hr, -⟩ := h cryptoLib conf _ c [] hs
    (by intro x hx; simp only [conf, List.mem_singleton] at hx; subst hx; simp [c, shippedClasses])
    (by unfold OneOfAKind; decide +kernel) rfl (by simp [conf]) rfl (by decide) (authAt "") {} none [] [] none (by decide)
  cases hr

/-- C99 is false of the code where the capabilities in the configuration name methods: those are published, and those that the
endpoint is configured with are taken. -/
theorem C99_capabilities_refuted :
    ¬ (∀ (lib : CryptoAlgs) (conf : ServerConf) (s : Serv) (c : EndpConf) (names : List String) (ms : List (Option CAuthn)),
      makeServer lib conf = .ok s → Shipped conf → OneOfAKind conf → c ∈ conf.endpoints → c.cls.endpointName = "token_endpoint" →
      c.kwargs.get? "client_authn_method" = some (strs names) → names ≠ [] →
      endpointMethods c = .ok ms → ∀ (C : AuthnCtx) (req : AuthnReq) (header : Option String) (seen seen' : List String)
        (r : Option AuthInfo), clientAuthentication C ms none req header seen = (.ok r, seen') →
        ∃ l ai n, (document [] s).get? "token_endpoint_auth_methods_supported" = some (.arr l) ∧ .str n ∈ l ∧ r = some ai ∧
          (ai.method = n ∨ ai.method = "none" ∧ NoneName n)) := by
  intro h
  let c : EndpConf := ⟨tokenClass, "token", [("client_authn_method", strs ["client_secret_post"])]⟩
  let conf : ServerConf :=
    { issuer := "https://op.example", endpoints := [c]
      caps := some [("token_endpoint_auth_methods_supported", strs ["private_key_jwt"])] }
  have hs : makeServer cryptoLib conf = .ok ((makeServer cryptoLib conf).toOption.getD {}) := by decide +kernel
  obtain ⟨l, ai, n, h1, h2, hr, h3⟩ := h cryptoLib conf _ c ["client_secret_post"] [some .post] hs
    (by intro x hx; simp only [conf, List.mem_singleton] at hx; subst hx; simp [c, shippedClasses])
    (by unfold OneOfAKind; decide +kernel) (by simp [conf]) rfl (by decide) (by simp) (by decide) (authAt "")
    { clientId := some "c1", clientSecret := some "s1" } none [] []
    (some { clientId := some "c1", method := "client_secret_post" }) (by decide +kernel)
  have hl : (document [] ((makeServer cryptoLib conf).toOption.getD {})).get? "token_endpoint_auth_methods_supported" =
      some (.arr [.str "private_key_jwt"]) := by decide +kernel
  rw [hl] at h1
  cases h1
  cases hr
  rw [List.mem_singleton] at h2
  cases h2
  rcases h3 with h3 | ⟨h3, -⟩ <;> exact absurd h3 (by decide)

/-- A provider with two methods at the token endpoint, as registration sees it. -/
def regConf3 : RegConf :=
  { regConf2 with providerInfo := ("token_endpoint_auth_methods_supported", ["private_key_jwt", "client_secret_post"]) ::
      regConf.providerInfo }

def regReq3 : Dict Json := ("token_endpoint_auth_method", .str "private_key_jwt") :: regReq

def reg5 : RegState := regHistory regConf3 reg0 [⟨regDraw, regReq3⟩]

/-- C100: the client of the registration has the method in its record; a method that the provider has not is refused. -/
example : ((reg5.cdb.get? "rp1").bind (·.get? "token_endpoint_auth_method")) = some (.json (.str "private_key_jwt")) ∧
    (register regConf3 true true regDraw (("token_endpoint_auth_method", .str "client_secret_jwt") :: regReq) reg0) =
      some (.error "invalid_request", reg0) := by decide +kernel

/-- C100 is false of the code: the method that a client registers for the token endpoint is kept in its record and not looked at again
(client_authn.py:324-420).  A client that registered "private_key_jwt" gets a secret too, and passes with the secret. -/
theorem C100_registered_method_refuted :
    ¬ (∀ (R : RegConf) (r0 : RegState) (calls : List RegCall) (client : String) (rec : Cinfo) (m : String) (C : AuthnCtx)
      (ms : List (Option CAuthn)) (req : AuthnReq) (header : Option String) (seen seen' : List String) (ai : AuthInfo),
      r0.cdb.get? client = none → (regHistory R r0 calls).cdb.get? client = some rec →
      rec.get? "token_endpoint_auth_method" = some (.json (.str m)) → C.cdb = authnDb (regHistory R r0 calls) →
      clientAuthentication C ms none req header seen = (.ok (some ai), seen') → ai.clientId = some client → client ≠ "" →
      ai.method = m) := by
  intro h
  have hrec : reg5.cdb.get? "rp1" = some ((reg5.cdb.get? "rp1").getD []) := by decide +kernel
  have := h regConf3 reg0 [⟨regDraw, regReq3⟩] "rp1" _ "private_key_jwt" { authAt "" with cdb := authnDb reg5 }
    [some .privateKeyJwt, some .post] { clientId := some "rp1", clientSecret := some "s3cret" } none [] []
    { clientId := some "rp1", method := "client_secret_post" } (by decide) hrec (by decide +kernel) rfl (by decide +kernel) rfl (by decide)
  exact absurd this (by decide)

end Ex

end OidcOp
