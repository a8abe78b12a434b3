/-
C98, what add-ons add to the metadata and to the scopes.
-/
import Verif.Props.Metadata
import Verif.Props.Claims

namespace OidcOp
open Spec

theorem mem_union (a b : List String) (x : String) : x ∈ union a b ↔ x ∈ a ∨ x ∈ b := by
  unfold union
  rw [List.mem_append, List.mem_filter]
  by_cases h : x ∈ a <;> simp [h]

theorem mem_strs (l : List String) (x : String) : (∃ l', some (strs l) = some (.arr l') ∧ .str x ∈ l') ↔ x ∈ l := by
  constructor
  · rintro ⟨l', h, hx⟩
    unfold strs at h
    cases h
    obtain ⟨a, ha, e⟩ := List.mem_map.1 hx
    cases e
    exact ha
  · exact fun h => ⟨_, rfl, List.mem_map.2 ⟨x, h, rfl⟩⟩

theorem mem_published (d : Dict Json) (k x : String) : (∃ l, d.get? k = some (.arr l) ∧ .str x ∈ l) ↔ x ∈ publishedStrings d k := by
  unfold publishedStrings
  constructor
  · rintro ⟨l, h, hx⟩
    rw [h]
    exact mem_stringsOf hx
  · intro h
    cases hd : d.get? k with
    | none => rw [hd] at h; cases h
    | some v =>
      rw [hd, Option.getD_some] at h
      cases v with
      | arr l =>
        refine ⟨l, rfl, ?_⟩
        unfold stringsOf at h
        obtain ⟨j, hj, e⟩ := List.mem_filterMap.1 h
        cases j <;> first | (cases e; exact hj) | cases e
      | _ => cases h

/-- Add-ons other than custom scopes. -/
theorem plain_addOns (l : List AddOn) (hl : ∀ m, .customScopes m ∉ l) (x : Dict Json × ScopeCfg) :
    (∀ k, k ≠ "dpop_signing_alg_values_supported" → (l.foldl addOn x).1.get? k = x.1.get? k) ∧ (l.foldl addOn x).2 = x.2 := by
  induction l generalizing x with
  | nil => exact ⟨fun _ _ => rfl, rfl⟩
  | cons a l ih =>
    obtain ⟨h1, h2⟩ := ih (fun m hm => hl m (List.mem_cons_of_mem _ hm)) (addOn x a)
    rw [List.foldl_cons]
    cases a with
    | pkce => exact ⟨h1, h2⟩
    | dpop algs =>
      refine ⟨fun k hk => ?_, h2⟩
      rw [h1 k hk]
      exact Dict.get?_set_ne _ _ (Ne.symm hk)
    | customScopes m => exact absurd List.mem_cons_self (hl m)

theorem dpop_addOns (l : List AddOn) (x y : Dict Json × ScopeCfg)
    (h : x.1.get? "dpop_signing_alg_values_supported" = y.1.get? "dpop_signing_alg_values_supported") :
    (l.foldl addOn x).1.get? "dpop_signing_alg_values_supported" = (l.foldl addOn y).1.get? "dpop_signing_alg_values_supported" := by
  induction l generalizing x y with
  | nil => exact h
  | cons a l ih =>
    rw [List.foldl_cons, List.foldl_cons]
    apply ih
    cases a with
    | pkce => exact h
    | dpop algs => simp [addOn]
    | customScopes m =>
      simp only [addOn]
      rw [Dict.get?_set_ne _ _ (by decide), Dict.get?_set_ne _ _ (by decide), Dict.get?_set_ne _ _ (by decide),
        Dict.get?_set_ne _ _ (by decide)]
      exact h

/-- C98, what the add-on for custom scopes does: compared with the same provider without it, its scopes and their claims are
published in addition to the others and nothing else changes in the metadata; its scopes stand for the claims it names, all other
scopes for what the standard says. -/
theorem C98_custom_scopes_partial (lib : CryptoAlgs) (conf : ServerConf) (pre post : List AddOn) (m : ScopeMap) (hm : m.keys.Nodup)
    (ha : conf.addOns = pre ++ .customScopes m :: post) (h1 : ∀ m', .customScopes m' ∉ pre) (h2 : ∀ m', .customScopes m' ∉ post)
    (s s0 : Serv) (h : makeServer lib conf = .ok s) (h0 : makeServer lib { conf with addOns := pre ++ post } = .ok s0) :
    (∀ k, k ≠ "scopes_supported" → k ≠ "claims_supported" → s.info.get? k = s0.info.get? k) ∧
    (∀ x, Published s "scopes_supported" x ↔ Published s0 "scopes_supported" x ∨ x ∈ m.keys) ∧
    (∀ x, Published s "claims_supported" x ↔ Published s0 "claims_supported" x ∨ ∃ sc names, (sc, names) ∈ m ∧ x ∈ names) ∧
    (∀ sc x, StandsFor s.scopes sc x ↔ ∃ names, x ∈ names ∧
      (m.get? sc = some names ∨ m.get? sc = none ∧ scope2claims.get? sc = some names)) := by
  obtain ⟨endps, idt, hb, hi, _, hinfo, hsc⟩ := makeServer_spec h
  obtain ⟨endps0, idt0, hb0, hi0, _, hinfo0, _⟩ := makeServer_spec h0
  have e1 : endps0 = endps := by
    have : Except.ok endps0 = Except.ok endps := hb0.symm.trans hb
    cases this; rfl
  have e2 : idt0 = idt := by
    have : Except.ok idt0 = Except.ok idt := hi0.symm.trans hi
    cases this; rfl
  subst e1 e2
  have hc : createProviderInfo { conf with addOns := pre ++ post } (collectCaps (conf.caps.getD []) endps0) =
      createProviderInfo conf (collectCaps (conf.caps.getD []) endps0) := rfl
  simp only [hc] at hinfo0
  generalize hbase : (createProviderInfo conf (collectCaps (conf.caps.getD []) endps0), conf.scopes) = base at hinfo hinfo0 hsc
  rw [ha, List.foldl_append, List.foldl_cons] at hinfo hsc
  rw [List.foldl_append] at hinfo0
  obtain ⟨p1, p2⟩ := plain_addOns pre h1 base
  generalize hx : pre.foldl addOn base = x at *
  obtain ⟨q1, q2⟩ := plain_addOns post h2 (addOn x (.customScopes m))
  obtain ⟨r1, _⟩ := plain_addOns post h2 x
  have hid : ∀ k, k ∉ idTokenCaps.keys → s.info.get? k = (post.foldl addOn (addOn x (.customScopes m))).1.get? k := by
    intro k hk
    rw [hinfo, Dict.get?_update, idToken_keys hi (.inl hk)]
  have hid0 : ∀ k, k ∉ idTokenCaps.keys → s0.info.get? k = (post.foldl addOn x).1.get? k := by
    intro k hk
    rw [hinfo0, Dict.get?_update, idToken_keys hi (.inl hk)]
  have hs0 : ∀ k, k ≠ "dpop_signing_alg_values_supported" → k ∉ idTokenCaps.keys →
      publishedStrings s0.info k = stringsOf ((x.1.get? k).getD .null) := by
    intro k hk hk'
    unfold publishedStrings
    rw [hid0 k hk', r1 k hk]
  refine ⟨fun k hk1 hk2 => ?_, fun y => ?_, fun y => ?_, fun sc y => ?_⟩
  · rw [hinfo, hinfo0, Dict.get?_update, Dict.get?_update]
    have same : (post.foldl addOn (addOn x (.customScopes m))).1.get? k = (post.foldl addOn x).1.get? k := by
      by_cases hd : k = "dpop_signing_alg_values_supported"
      · subst hd
        apply dpop_addOns
        simp only [addOn]
        rw [Dict.get?_set_ne _ _ (by decide), Dict.get?_set_ne _ _ (by decide)]
      · rw [q1 k hd, r1 k hd]
        simp only [addOn]
        rw [Dict.get?_set_ne _ _ (Ne.symm hk2), Dict.get?_set_ne _ _ (Ne.symm hk1)]
    rw [same]
  · unfold Published
    rw [mem_published s0.info, hs0 _ (by decide) (by decide), hid _ (by decide), q1 _ (by decide)]
    simp only [addOn]
    rw [Dict.get?_set_ne _ _ (by decide), Dict.get?_set_self, mem_strs, mem_union]
  · unfold Published
    rw [mem_published s0.info, hs0 _ (by decide) (by decide), hid _ (by decide), q1 _ (by decide)]
    simp only [addOn]
    rw [Dict.get?_set_self, mem_strs, mem_union, List.mem_flatMap]
    constructor
    · rintro (h3 | ⟨⟨sc, names⟩, h3, h4⟩)
      · exact .inl h3
      · exact .inr ⟨sc, names, h3, h4⟩
    · rintro (h3 | ⟨sc, names, h3, h4⟩)
      · exact .inl h3
      · exact .inr ⟨(sc, names), h3, h4⟩
  · have hmap : s.scopes.scopesToClaims = some (scope2claims.update m) := by
      rw [hsc, q2]
      rfl
    have hne : scope2claims.update m ≠ [] := by
      intro e
      have h3 := Dict.get?_update_of_nodup (d := scope2claims) hm "openid"
      rw [e] at h3
      have h4 : Dict.get? scope2claims "openid" ≠ none := by decide
      cases h5 : Dict.get? m "openid" with
      | none => rw [h5] at h3; exact h4 h3.symm
      | some v => rw [h5] at h3; cases h3
    have hg := Dict.get?_update_of_nodup (d := scope2claims) hm sc
    constructor
    · rintro ⟨names, hn, ⟨m', h3, _, h4⟩ | ⟨h3 | h3, _⟩⟩
      · rw [hmap] at h3
        cases h3
        rw [hg] at h4
        cases h5 : Dict.get? m sc with
        | none => rw [h5] at h4; exact ⟨names, hn, .inr ⟨rfl, h4⟩⟩
        | some v => rw [h5] at h4; exact ⟨names, hn, .inl h4⟩
      · rw [hmap] at h3; cases h3
      · rw [hmap] at h3
        exact absurd (Option.some.inj h3) hne
    · rintro ⟨names, hn, h3⟩
      refine ⟨names, hn, .inl ⟨_, hmap, hne, ?_⟩⟩
      rw [hg]
      rcases h3 with h3 | ⟨h3, h4⟩
      · rw [h3]
      · rw [h3]; exact h4

/-- C98, with an add-on for custom scopes that names none of the standard ones and a configuration that lists neither scopes nor claims
nor a mapping of its own: every claim in the metadata comes with a scope in the metadata, and every claim of such a scope is there. -/
theorem C98_custom_claims_partial (lib : CryptoAlgs) (conf : ServerConf) (pre post : List AddOn) (m : ScopeMap) (hm : m.keys.Nodup)
    (ha : conf.addOns = pre ++ .customScopes m :: post) (h1 : ∀ m', .customScopes m' ∉ pre) (h2 : ∀ m', .customScopes m' ∉ post)
    (hnew : ∀ sc ∈ m.keys, scope2claims.get? sc = none) (hown : conf.scopes.scopesToClaims = none) (s : Serv)
    (h : makeServer lib conf = .ok s) (hs : Shipped conf)
    (hc : (conf.caps.getD []).get? "scopes_supported" = none) (hc' : (conf.caps.getD []).get? "claims_supported" = none)
    (hk : ∀ c ∈ conf.endpoints, c.kwargs.get? "scopes_supported" = none) (x : String) :
    Published s "claims_supported" x ↔ ∃ sc, Published s "scopes_supported" sc ∧ StandsFor s.scopes sc x := by
  obtain ⟨s0, h0⟩ : ∃ s0, makeServer lib { conf with addOns := pre ++ post } = .ok s0 := by
    obtain ⟨endps, idt, hb, hi, _⟩ := makeServer_spec h
    unfold makeServer
    simp only []
    rw [hb, hi]
    exact ⟨_, rfl⟩
  obtain ⟨-, a2, a3, a4⟩ := C98_custom_scopes_partial lib conf pre post m hm ha h1 h2 s s0 h h0
  obtain ⟨scopes, claims, b1, b2, b3⟩ := C98_claims_partial lib _ s0 h0 hs hc hc' hk (by
    intro m' hm'
    rcases List.mem_append.1 hm' with h3 | h3
    · exact h1 m' h3
    · exact h2 m' h3)
  have hpub : ∀ (k : String) (l : List Json), s0.info.get? k = some (.arr l) → ∀ y, Published s0 k y ↔ .str y ∈ l := by
    intro k l hl y
    constructor
    · rintro ⟨l', h3, h4⟩
      rw [hl] at h3
      cases h3
      exact h4
    · exact fun h3 => ⟨l, hl, h3⟩
  have hstd : ∀ sc y, StandsFor conf.scopes sc y ↔ ∃ names, y ∈ names ∧ scope2claims.get? sc = some names := by
    intro sc y
    unfold StandsFor
    rw [hown]
    constructor
    · rintro ⟨names, hn, ⟨m', h3, _⟩ | ⟨_, h3⟩⟩
      · cases h3
      · exact ⟨names, hn, h3⟩
    · rintro ⟨names, hn, h3⟩
      exact ⟨names, hn, .inr ⟨.inl rfl, h3⟩⟩
  have hkeys : ∀ sc names, (sc, names) ∈ m ↔ m.get? sc = some names := by
    intro sc names
    exact ⟨get?_of_mem_nodup hm, Dict.get?_mem⟩
  rw [a3]
  constructor
  · rintro (h3 | ⟨sc, names, h3, h4⟩)
    · obtain ⟨sc, h4, h5⟩ := (b3 x).1 ((hpub _ _ b2 x).1 h3)
      obtain ⟨names, h6, h7⟩ := (hstd sc x).1 h5
      refine ⟨sc, (a2 sc).2 (.inl ((hpub _ _ b1 sc).2 h4)), (a4 sc x).2 ⟨names, h6, .inr ⟨?_, h7⟩⟩⟩
      cases h8 : m.get? sc with
      | none => rfl
      | some v =>
        have := hnew sc ((Dict.get?_isSome_iff m sc).1 (by rw [h8]; rfl))
        rw [this] at h7
        cases h7
    · exact ⟨sc, (a2 sc).2 (.inr (List.mem_map.2 ⟨_, h3, rfl⟩)), (a4 sc x).2 ⟨names, h4, .inl ((hkeys sc names).1 h3)⟩⟩
  · rintro ⟨sc, h3, h4⟩
    obtain ⟨names, h5, h6 | ⟨h6, h7⟩⟩ := (a4 sc x).1 h4
    · exact .inr ⟨sc, names, (hkeys sc names).2 h6, h5⟩
    · rcases (a2 sc).1 h3 with h8 | h8
      · exact .inl ((hpub _ _ b2 x).2 ((b3 x).2 ⟨sc, (hpub _ _ b1 sc).1 h8, (hstd sc x).2 ⟨names, h5, h7⟩⟩))
      · have := (Dict.get?_isSome_iff m sc).2 h8
        rw [h6] at this
        cases this

/-- C98.  The DPoP algorithms in the metadata are those the add-on is configured with, or RS256 if it is configured with none. -/
theorem C98_dpop_published (lib : CryptoAlgs) (conf : ServerConf) (pre post : List AddOn) (algs : List String)
    (ha : conf.addOns = pre ++ .dpop algs :: post) (hp : ∀ l, .dpop l ∉ post) (s : Serv) (h : makeServer lib conf = .ok s) :
    (algs ≠ [] → s.info.get? "dpop_signing_alg_values_supported" = some (.arr (algs.map .str))) ∧
    (algs = [] → s.info.get? "dpop_signing_alg_values_supported" = some (.arr [.str "RS256"])) := by
  obtain ⟨endps, idt, hb, hi, _, hinfo, _⟩ := makeServer_spec h
  have fold : ∀ (l : List AddOn), (∀ l', .dpop l' ∉ l) → ∀ x : Dict Json × ScopeCfg,
      (l.foldl addOn x).1.get? "dpop_signing_alg_values_supported" = x.1.get? "dpop_signing_alg_values_supported" := by
    intro l
    induction l with
    | nil => intro _ x; rfl
    | cons a l ih =>
      intro hl x
      rw [List.foldl_cons, ih (fun l' hl' => hl l' (List.mem_cons_of_mem _ hl'))]
      cases a with
      | pkce => rfl
      | dpop l' => exact absurd List.mem_cons_self (hl l')
      | customScopes m =>
        simp only [addOn]
        rw [Dict.get?_set_ne _ _ (by decide), Dict.get?_set_ne _ _ (by decide)]
  have key : s.info.get? "dpop_signing_alg_values_supported" = some (strs (if algs.isEmpty then ["RS256"] else algs)) := by
    rw [hinfo, Dict.get?_update, idToken_keys hi (.inl (by decide))]
    simp only []
    rw [ha, List.foldl_append, List.foldl_cons, fold post hp]
    simp only [addOn]
    exact Dict.get?_set_self _ _ _
  refine ⟨fun hne => ?_, fun he => ?_⟩
  · rw [key]
    cases algs with
    | nil => exact absurd rfl hne
    | cons a l => rfl
  · subst he
    rw [key]
    rfl

namespace Ex

/-- The hypotheses can be met: `mconf` has the add-on for custom scopes and DPoP. -/
example : mconf.addOns = [.pkce, .dpop []] ++ .customScopes [("groups", ["groups", "roles"])] :: [] ∧
    mconf.addOns = [.pkce] ++ .dpop [] :: [.customScopes [("groups", ["groups", "roles"])]] ∧
    (∀ sc ∈ Dict.keys [("groups", ["groups", "roles"])], scope2claims.get? sc = none) ∧
    mconf.scopes.scopesToClaims = none ∧ (mconf.caps.getD []).get? "scopes_supported" = none ∧
    (mconf.caps.getD []).get? "claims_supported" = none ∧
    (∀ c ∈ mconf.endpoints, c.kwargs.get? "scopes_supported" = none) ∧
    (mserv.info.get? "scopes_supported").map stringsOf =
      some ["openid", "profile", "email", "address", "phone", "offline_access", "groups"] := by
  decide +kernel

/-- C98 is false of the code for the add-on for custom scopes where the configuration has a mapping of its own: the add-on replaces it,
and the claims of the scopes in it stay in the metadata though nothing stands for them any more (oidc/add_on/custom_scopes.py:19-22). -/
theorem C98_mapping_refuted :
    ¬ (∀ (lib : CryptoAlgs) (conf : ServerConf) (s : Serv), makeServer lib conf = .ok s → Shipped conf →
      ∀ x, Published s "claims_supported" x → ∃ sc, Published s "scopes_supported" sc ∧ StandsFor s.scopes sc x) := by
  intro h
  let conf : ServerConf :=
    { issuer := "https://op.example", scopes := { scopesToClaims := some [("openid", ["sub"]), ("research", ["orcid"])] },
      addOns := [.customScopes [("groups", ["groups"])]] }
  have hs : makeServer cryptoLib conf = .ok ((makeServer cryptoLib conf).toOption.getD {}) := by decide +kernel
  obtain ⟨sc, _, names, hn, h1⟩ := h cryptoLib conf _ hs (fun c hc => by cases hc) "orcid"
    ⟨[.str "sub", .str "orcid", .str "groups"], by decide +kernel, by simp⟩
  have hmap : ((makeServer cryptoLib conf).toOption.getD {}).scopes.scopesToClaims = some (scope2claims.update [("groups", ["groups"])]) := by
    decide +kernel
  have hno : ∀ p ∈ scope2claims.update [("groups", ["groups"])], "orcid" ∉ p.2 := by decide +kernel
  rcases h1 with ⟨m, h2, _, h3⟩ | ⟨h2 | h2, _⟩
  · rw [hmap] at h2
    cases h2
    exact hno _ (Dict.get?_mem h3) hn
  · rw [hmap] at h2; cases h2
  · rw [hmap] at h2
    have : scope2claims.update [("groups", ["groups"])] ≠ [] := by decide +kernel
    cases h2

end Ex

end OidcOp
