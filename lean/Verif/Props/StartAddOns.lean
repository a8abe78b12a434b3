/-
C117, what a provider that starts publishes for its add-ons.
-/
import Verif.Props.MetadataAddOns
import Verif.Props.Startup

namespace OidcOp
open Spec

/-- What is among the published strings stays there. -/
theorem addOns_keep_published (l : List AddOn) (x : Dict Json × ScopeCfg) (k y : String) (hk : k = "scopes_supported" ∨ k = "claims_supported")
    (h : y ∈ publishedStrings x.1 k) : y ∈ publishedStrings (l.foldl addOn x).1 k := by
  induction l generalizing x with
  | nil => exact h
  | cons a l ih =>
    rw [List.foldl_cons]
    apply ih
    cases a with
    | pkce => exact h
    | dpop algs =>
      unfold publishedStrings at h ⊢
      simp only [addOn]
      rwa [Dict.get?_set_ne _ _ (by rcases hk with rfl | rfl <;> decide)]
    | customScopes m =>
      rw [← mem_published]
      simp only [addOn]
      rcases hk with rfl | rfl
      · rw [Dict.get?_set_ne _ _ (by decide), Dict.get?_set_self, mem_strs, mem_union]
        exact .inl h
      · rw [Dict.get?_set_self, mem_strs, mem_union]
        exact .inl h

theorem addOns_custom (l : List AddOn) (x : Dict Json × ScopeCfg) (m : ScopeMap) (h : .customScopes m ∈ l) :
    (∀ y ∈ m.keys, y ∈ publishedStrings (l.foldl addOn x).1 "scopes_supported") ∧
    (∀ y ∈ m.flatMap (·.2), y ∈ publishedStrings (l.foldl addOn x).1 "claims_supported") := by
  obtain ⟨pre, post, rfl⟩ := List.append_of_mem h
  rw [List.foldl_append, List.foldl_cons]
  generalize pre.foldl addOn x = z
  constructor
  · intro y hy
    apply addOns_keep_published _ _ _ _ (.inl rfl)
    rw [← mem_published]
    simp only [addOn]
    rw [Dict.get?_set_ne _ _ (by decide), Dict.get?_set_self, mem_strs, mem_union]
    exact .inr hy
  · intro y hy
    apply addOns_keep_published _ _ _ _ (.inr rfl)
    rw [← mem_published]
    simp only [addOn]
    rw [Dict.get?_set_self, mem_strs, mem_union]
    exact .inr hy

theorem addOns_dpop (l : List AddOn) (x : Dict Json × ScopeCfg) (algs : List String) (h : .dpop algs ∈ l)
    (hu : ∀ a, .dpop a ∈ l → a = algs) :
    (l.foldl addOn x).1.get? "dpop_signing_alg_values_supported" = some (strs (if algs.isEmpty then ["RS256"] else algs)) := by
  have keep : ∀ (l : List AddOn) (x : Dict Json × ScopeCfg), (∀ a, .dpop a ∈ l → a = algs) →
      x.1.get? "dpop_signing_alg_values_supported" = some (strs (if algs.isEmpty then ["RS256"] else algs)) →
      (l.foldl addOn x).1.get? "dpop_signing_alg_values_supported" = some (strs (if algs.isEmpty then ["RS256"] else algs)) := by
    intro l
    induction l with
    | nil => intro x _ h; exact h
    | cons a l ih =>
      intro x hu h
      rw [List.foldl_cons]
      apply ih _ (fun a ha => hu a (List.mem_cons_of_mem _ ha))
      cases a with
      | pkce => exact h
      | dpop a =>
        rw [hu a List.mem_cons_self]
        simp only [addOn]
        rw [Dict.get?_set_self]
      | customScopes m =>
        simp only [addOn]
        rw [Dict.get?_set_ne _ _ (by decide), Dict.get?_set_ne _ _ (by decide)]
        exact h
  obtain ⟨pre, post, rfl⟩ := List.append_of_mem h
  rw [List.foldl_append, List.foldl_cons]
  apply keep _ _ (fun a ha => hu a (by simp [ha]))
  simp only [addOn]
  rw [Dict.get?_set_self]

/-- C117, add-ons.  A provider that starts publishes what its add-ons bring: the algorithms for DPoP proofs ("RS256" if none are
configured; with several DPoP add-ons this is said if they agree), and all scopes of custom scopes with all claims they stand for. -/
theorem C117_add_ons (lib : FactoryLib) (conf : StartConf) (s : Started) (h : startServer lib conf = .ok s) :
    (∀ algs, .dpop algs ∈ conf.addOns → (∀ a, .dpop a ∈ conf.addOns → a = algs) →
      s.serv.info.get? "dpop_signing_alg_values_supported" = some (strs (if algs = [] then ["RS256"] else algs))) ∧
    (∀ m sc names, .customScopes m ∈ conf.addOns → (sc, names) ∈ m →
      Published s.serv "scopes_supported" sc ∧ ∀ x ∈ names, Published s.serv "claims_supported" x) := by
  obtain ⟨idt, -, hm⟩ := (steps h).server
  obtain ⟨endps, i, _, hi, _, hinfo, _⟩ := makeServer_spec hm
  have key : ∀ k, k ∉ idTokenCaps.keys → s.serv.info.get? k =
      ((conf.addOns.map AddOnConf.plain).foldl addOn
        (createProviderInfo (conf.server s.broker idt) (collectCaps (conf.caps.getD []) endps), conf.scopes)).1.get? k := by
    intro k hk
    rw [hinfo, Dict.get?_update, idToken_keys hi (.inl hk)]
    rfl
  refine ⟨fun algs ha hu => ?_, fun m sc names hc hs => ?_⟩
  · rw [key _ (by decide), addOns_dpop _ _ algs (List.mem_map.2 ⟨_, ha, rfl⟩) ?_]
    · cases algs <;> rfl
    · intro a hm
      obtain ⟨b, hb, e⟩ := List.mem_map.1 hm
      cases b <;> cases e
      exact hu a hb
  · obtain ⟨h1, h2⟩ := addOns_custom (conf.addOns.map AddOnConf.plain)
      (createProviderInfo (conf.server s.broker idt) (collectCaps (conf.caps.getD []) endps), conf.scopes) m
      (List.mem_map.2 ⟨_, hc, rfl⟩)
    constructor
    · have := h1 sc (List.mem_map.2 ⟨_, hs, rfl⟩)
      rw [← mem_published, ← key _ (by decide)] at this
      exact this
    · intro x hx
      have := h2 x (List.mem_flatMap.2 ⟨_, hs, hx⟩)
      rw [← mem_published, ← key _ (by decide)] at this
      exact this

/-- C117, the flag for refresh tokens at the token endpoint.  It is set exactly if there is a token endpoint, the configuration has
capabilities, and "refresh_token" is among the grant types published. -/
theorem C117_refresh_flag (lib : FactoryLib) (conf : StartConf) (s : Started) (h : startServer lib conf = .ok s) (l : List Json)
    (hl : s.serv.info.get? "grant_types_supported" = some (.arr l)) :
    s.refresh = true ↔ HasEndpoint conf "token" ∧ conf.caps ≠ none ∧ .str "refresh_token" ∈ l := by
  have st := steps h
  obtain ⟨idt, -, hm⟩ := st.server
  have hr := st.refresh
  unfold tokenAllowRefresh at hr
  by_cases ht : HasEndpoint conf "token"
  · rw [if_pos (has_iff_get.2 ((has_endpoint hm _).2 ht))] at hr
    unfold allowRefresh at hr
    split at hr
    · cases hc : conf.caps with
      | none =>
        rw [hc] at hr
        have hr : s.refresh = false := (Except.ok.inj hr).symm
        simp [hr]
      | some c =>
        rw [hc] at hr
        have hne : s.serv.info.isEmpty = false := by
          cases hi : s.serv.info with
          | nil => rw [hi] at hl; cases hl
          | cons => rfl
        simp only [Option.map_some, hne, hl, Bool.false_eq_true, if_false, pyIn, Except.ok.injEq] at hr
        rw [← hr, List.any_eq_true]
        simp only [pyEq_str]
        constructor
        · rintro ⟨x, hx, rfl⟩
          exact ⟨ht, by simp, hx⟩
        · exact fun hx => ⟨_, hx.2.2, rfl⟩
    · cases hr
  · rw [if_neg (fun e => ht ((has_endpoint hm _).1 (has_iff_get.1 e)))] at hr
    have hr : s.refresh = false := (Except.ok.inj hr).symm
    simp [hr, ht]

end OidcOp

namespace OidcOp.Ex
open Spec

/-- A configuration with all three add-ons. -/
def addOnConf : StartConf :=
  { startConf with
    caps := some [("subject_types_supported", strs ["public"]), ("grant_types_supported", strs ["authorization_code", "refresh_token"])]
    addOns := [.pkce (some ["S256"]), .dpop ["ES256"], .customScopes [("research", ["name", "eduperson_assurance"])]] }

/-- The hypotheses of C117_add_ons. -/
example : (startServer factoryLib addOnConf).toOption.isSome = true ∧ .dpop ["ES256"] ∈ addOnConf.addOns ∧
    (∀ a, .dpop a ∈ addOnConf.addOns → a = ["ES256"]) ∧
    .customScopes [("research", ["name", "eduperson_assurance"])] ∈ addOnConf.addOns := by
  refine ⟨by decide +kernel, by decide, ?_, by decide⟩
  intro a h
  simp [addOnConf] at h
  exact h

/-- The hypotheses of C117_refresh_flag. -/
example : (startServer factoryLib addOnConf).toOption.map (fun s => (s.refresh, s.serv.info.get? "grant_types_supported")) =
    some (true, some (.arr [.str "authorization_code", .str "refresh_token"])) := by
  decide +kernel

end OidcOp.Ex
