/-
C102: what becomes of the settings of a deployment.
-/
import Verif.Spec.Configure

namespace OidcOp
open Spec

theorem truthy_iff (v : Json) : v.truthy = true ↔
    (v ≠ .null ∧ v ≠ .bool false ∧ v ≠ .num 0 ∧ v ≠ .str "" ∧ v ≠ .arr [] ∧ v ≠ .obj []) := by
  cases v with
  | null => simp [Json.truthy]
  | bool b => cases b <;> simp [Json.truthy]
  | num n => simp [Json.truthy]
  | str s => simp [Json.truthy]
  | arr l => cases l <;> simp [Json.truthy]
  | obj l => cases l <;> simp [Json.truthy]

theorem given_iff (conf : Dict Json) (key : String) (v : Json) :
    Given conf key v ↔ conf.get? key = some v ∧ v.truthy = true := by
  unfold Given
  rw [truthy_iff]

theorem confValue_given {L : ConfLib} {d : String} {p : Int} {defaults conf : Dict Json} {key : String} {v : Json}
    (h : Given conf key v) : confValue L d p defaults conf key = some v := by
  rw [given_iff] at h
  unfold confValue
  rw [h.1]
  simp only [h.2, if_true]

theorem confValue_notGiven {L : ConfLib} {d : String} {p : Int} {defaults conf : Dict Json} {key : String}
    (h : NotGiven conf key) : confValue L d p defaults conf key = (defaults.get? key).map (L.format d p) := by
  unfold confValue
  cases hc : conf.get? key with
  | none => rfl
  | some v =>
    have : v.truthy ≠ true := fun ht => h v ((given_iff _ _ _).2 ⟨hc, ht⟩)
    simp only [this, if_false, Bool.false_eq_true]

/-- What the loop leaves under a name. -/
theorem confLoop_spec {L : ConfLib} {d : String} {p : Int} {defaults conf : Dict Json} :
    ∀ (keys : List String) (acc c : Dict Json), (keys.map confName).Nodup →
      confLoop L d p defaults conf acc keys = .ok c →
      (∀ n, n ∉ keys.map confName → c.get? n = acc.get? n) ∧
      (∀ key ∈ keys, key ≠ "template_dir" →
        c.get? (confName key) = (confValue L d p defaults conf key).or (acc.get? (confName key))) ∧
      ("template_dir" ∈ keys → ∀ v, confValue L d p defaults conf "template_dir" = some v →
        ∃ s, v = .str s ∧ c.get? "template_dir" = some (.str (L.abspath s)))
  | [], acc, c, _, h => by
    simp only [confLoop, Except.ok.injEq] at h
    subst h
    exact ⟨fun _ _ => rfl, by simp, by simp⟩
  | key :: r, acc, c, hnd, h => by
    rw [List.map_cons, List.nodup_cons] at hnd
    unfold confLoop at h
    cases hs : confStep L d p defaults conf acc key with
    | error e => rw [hs] at h; cases h
    | ok acc' =>
      rw [hs] at h
      simp only [] at h
      obtain ⟨i1, i2, i3⟩ := confLoop_spec r acc' c hnd.2 h
      have hname : ∀ n, n ≠ confName key → acc'.get? n = acc.get? n := by
        intro n hn
        unfold confStep at hs
        cases hv : confValue L d p defaults conf key with
        | none => rw [hv] at hs; cases hs; rfl
        | some v =>
          rw [hv] at hs
          simp only [] at hs
          by_cases ht : key = "template_dir"
          · rw [if_pos ht] at hs
            cases v <;> cases hs
            subst ht
            exact Dict.get?_set_ne _ _ (Ne.symm hn)
          · rw [if_neg ht] at hs
            cases hs
            exact Dict.get?_set_ne _ _ (Ne.symm hn)
      refine ⟨fun n hn => ?_, fun k hk ht => ?_, fun hk v hv => ?_⟩
      · rw [List.map_cons, List.mem_cons, not_or] at hn
        rw [i1 n hn.2, hname n hn.1]
      · by_cases hkr : k ∈ r
        · rw [i2 k hkr ht, hname]
          intro he
          exact hnd.1 (he ▸ List.mem_map_of_mem hkr)
        · have hkk : k = key := by
            rcases List.mem_cons.1 hk with h | h
            · exact h
            · exact absurd h hkr
          subst hkk
          rw [i1 _ hnd.1]
          unfold confStep at hs
          cases hv : confValue L d p defaults conf k with
          | none => rw [hv] at hs; cases hs; rfl
          | some v =>
            rw [hv] at hs
            simp only [] at hs
            rw [if_neg ht] at hs
            cases hs
            rw [Dict.get?_set_self]
            rfl
      · by_cases hkr : "template_dir" ∈ r
        · exact i3 hkr v hv
        · have hkk : "template_dir" = key := by
            rcases List.mem_cons.1 hk with h | h
            · exact h
            · exact absurd h hkr
          subst hkk
          unfold confStep at hs
          rw [hv] at hs
          simp only [if_true] at hs
          cases v with
          | str s =>
            simp only [] at hs
            refine ⟨s, rfl, ?_⟩
            have : c.get? "template_dir" = acc'.get? "template_dir" := i1 _ hnd.1
            rw [this]
            cases hs
            exact Dict.get?_set_self _ _ _
          | _ => cases hs

theorem confLoop_fails {L : ConfLib} {d : String} {p : Int} {defaults conf : Dict Json} :
    ∀ (keys : List String) (acc : Dict Json) (e : Exc), confLoop L d p defaults conf acc keys = .error e →
      e = .typeError ∧ "template_dir" ∈ keys ∧
        ∃ v, confValue L d p defaults conf "template_dir" = some v ∧ ∀ s, v ≠ .str s
  | [], acc, e, h => by simp [confLoop] at h
  | key :: r, acc, e, h => by
    unfold confLoop at h
    cases hs : confStep L d p defaults conf acc key with
    | ok acc' =>
      rw [hs] at h
      obtain ⟨h1, h2, h3⟩ := confLoop_fails r acc' e h
      exact ⟨h1, List.mem_cons_of_mem _ h2, h3⟩
    | error e' =>
      rw [hs] at h
      simp only [Except.error.injEq] at h
      subst h
      unfold confStep at hs
      cases hv : confValue L d p defaults conf key with
      | none => rw [hv] at hs; cases hs
      | some v =>
        rw [hv] at hs
        simp only [] at hs
        by_cases ht : key = "template_dir"
        · subst ht
          rw [if_pos rfl] at hs
          cases v <;> cases hs <;> exact ⟨rfl, List.mem_cons_self, _, hv, fun s h => by cases h⟩
        · rw [if_neg ht] at hs; cases hs

theorem confLoop_congr {L : ConfLib} {d : String} {p : Int} {defaults conf conf' : Dict Json} :
    ∀ (keys : List String) (acc : Dict Json), (∀ k ∈ keys, conf.get? k = conf'.get? k) →
      confLoop L d p defaults conf acc keys = confLoop L d p defaults conf' acc keys
  | [], acc, _ => rfl
  | key :: r, acc, h => by
    have hs : confStep L d p defaults conf acc key = confStep L d p defaults conf' acc key := by
      unfold confStep confValue
      rw [h key List.mem_cons_self]
    unfold confLoop
    rw [hs]
    cases confStep L d p defaults conf' acc key with
    | error e => rfl
    | ok acc' => exact confLoop_congr r acc' (fun k hk => h k (List.mem_cons_of_mem _ hk))

theorem op_nodup : (opParameter.map confName).Nodup := by decide +kernel

theorem as_nodup : (entityParameter.map confName).Nodup := by decide +kernel

/-- C102 (partial: a setting that is given as something empty counts as not given, see `C102_empty_refuted`; and only the settings
of `opSettings` are taken over, see `C102_dropped_refuted`).  A setting that is given applies as it is given. -/
theorem C102_given_partial (L : ConfLib) (domain : String) (port : Int) (conf c : Dict Json)
    (hc : opConfiguration L domain port conf = .ok c) (key : String) (hk : key ∈ opSettings) (v : Json) (hv : Given conf key v) :
    (key ≠ "template_dir" → c.get? (heldAs key) = some v) ∧
    (key = "template_dir" → ∃ s, v = .str s ∧ c.get? key = some (.str (L.abspath s))) := by
  obtain ⟨_, h2, h3⟩ := confLoop_spec opParameter [] c op_nodup hc
  refine ⟨fun ht => ?_, fun ht => ?_⟩
  · have := h2 key hk ht
    rw [confValue_given hv] at this
    exact this
  · subst ht
    exact h3 hk v (confValue_given hv)

/-- C102. A setting that is not given has the default of `OP_DEFAULT_CONFIG`, with domain and file names put in; without a default
the configuration has no such item. -/
theorem C102_default (L : ConfLib) (domain : String) (port : Int) (conf c : Dict Json)
    (hc : opConfiguration L domain port conf = .ok c) (key : String) (hk : key ∈ opSettings) (hn : NotGiven conf key) :
    (key ≠ "template_dir" → c.get? (heldAs key) = (opDefaults.get? key).map (L.format domain port)) ∧
    (key = "template_dir" → c.get? key = some (.str (L.abspath "templates"))) := by
  obtain ⟨_, h2, h3⟩ := confLoop_spec opParameter [] c op_nodup hc
  refine ⟨fun ht => ?_, fun ht => ?_⟩
  · have := h2 key hk ht
    rw [confValue_notGiven hn] at this
    refine Eq.trans this ?_
    show Option.or _ none = _
    rw [Option.or_none]
  · subst ht
    have hd : opDefaults.get? "template_dir" = some (.str "templates") := by decide +kernel
    have hv : confValue L domain port opDefaults conf "template_dir" = some (.str "templates") := by
      rw [confValue_notGiven hn, hd]
      exact congrArg some (L.format_without _ _ _ (.str _))
    obtain ⟨s, hs, hc⟩ := h3 hk _ hv
    cases hs
    exact hc

/-- C102. The configuration holds nothing but the settings, and nothing else that is given changes it. -/
theorem C102_nothing_else (L : ConfLib) (domain : String) (port : Int) (conf c : Dict Json)
    (hc : opConfiguration L domain port conf = .ok c) :
    (∀ n v, c.get? n = some v → ∃ key ∈ opSettings, n = heldAs key) ∧
    (∀ conf', (∀ key ∈ opSettings, conf'.get? key = conf.get? key) → opConfiguration L domain port conf' = .ok c) := by
  obtain ⟨h1, _⟩ := confLoop_spec opParameter [] c op_nodup hc
  refine ⟨fun n v hv => ?_, fun conf' h => ?_⟩
  · by_cases hn : n ∈ opParameter.map confName
    · obtain ⟨key, hk, he⟩ := List.mem_map.1 hn
      exact ⟨key, hk, he.symm⟩
    · rw [h1 n hn] at hv
      cases hv
  · rw [← hc]
    exact confLoop_congr opParameter [] h

/-- C102. The configuration is refused only for a "template_dir" that is no string. -/
theorem C102_refused (L : ConfLib) (domain : String) (port : Int) (conf : Dict Json) (e : Exc) :
    opConfiguration L domain port conf = .error e ↔
      e = .typeError ∧ ∃ v, Given conf "template_dir" v ∧ ∀ s, v ≠ .str s := by
  constructor
  · intro h
    obtain ⟨h1, _, v, hv, hs⟩ := confLoop_fails _ _ _ h
    refine ⟨h1, v, ?_, hs⟩
    by_cases hg : ∃ v', Given conf "template_dir" v'
    · obtain ⟨v', hv'⟩ := hg
      rw [confValue_given hv'] at hv
      cases hv
      exact hv'
    · have hd : opDefaults.get? "template_dir" = some (.str "templates") := by decide +kernel
      rw [confValue_notGiven (fun v' h' => hg ⟨v', h'⟩), hd] at hv
      simp only [Option.map_some, Option.some.injEq] at hv
      rw [L.format_without _ _ _ (.str _)] at hv
      exact absurd hv.symm (hs _)
  · rintro ⟨rfl, v, hv, hs⟩
    cases h : opConfiguration L domain port conf with
    | error e => rw [(confLoop_fails _ _ _ h).1]
    | ok c =>
      obtain ⟨_, _, h3⟩ := confLoop_spec opParameter [] c op_nodup h
      obtain ⟨s, h4, _⟩ := h3 (by decide) v (confValue_given hv)
      exact absurd h4 (hs s)

/-- C102, for an OAuth2 authorization server. -/
theorem C102_authorization_server_partial (L : ConfLib) (domain : String) (port : Int) (conf c : Dict Json)
    (hc : asConfiguration L domain port conf = .ok c) (key : String) (hk : key ∈ asSettings) (ht : key ≠ "template_dir") :
    (∀ v, Given conf key v → c.get? (heldAs key) = some v) ∧
    (NotGiven conf key → key ≠ "claims_interface" → c.get? (heldAs key) = (opDefaults.get? key).map (L.format domain port)) := by
  obtain ⟨_, h2, _⟩ := confLoop_spec entityParameter [] c as_nodup hc
  refine ⟨fun v hv => ?_, fun hn hci => ?_⟩
  · have := h2 key hk ht
    rw [confValue_given hv] at this
    exact this
  · have := h2 key hk ht
    rw [confValue_notGiven hn] at this
    refine Eq.trans this ?_
    have hd : asDefaults.get? key = opDefaults.get? key := Dict.get?_set_ne _ _ (Ne.symm hci)
    rw [hd]
    show Option.or _ none = _
    rw [Option.or_none]

/-- C102. Whatever "allowed_scopes" is given, it never reaches the scopes handler of a provider with such a configuration. -/
theorem C102_allowed_scopes_ignored (L : ConfLib) (domain : String) (port : Int) (conf c : Dict Json)
    (hc : opConfiguration L domain port conf = .ok c) (cdb : Dict ScopeClient) :
    (scopeCfgOf c cdb).allowedScopes = none ∧
    ∀ v, opConfiguration L domain port (conf.set "allowed_scopes" v) = .ok c := by
  obtain ⟨h1, h2⟩ := C102_nothing_else L domain port conf c hc
  refine ⟨?_, fun v => h2 _ fun key hk => Dict.get?_set_ne _ _ ?_⟩
  · have : c.get? "allowed_scopes" = none := by
      cases h : c.get? "allowed_scopes" with
      | none => rfl
      | some v =>
        obtain ⟨key, hk, he⟩ := h1 _ v h
        have : ∀ key ∈ opSettings, "allowed_scopes" ≠ heldAs key := by decide +kernel
        exact absurd he (this key hk)
    show confList (c.get? "allowed_scopes") = none
    rw [this]
    rfl
  · have : ∀ key ∈ opSettings, "allowed_scopes" ≠ key := by decide +kernel
    exact this key hk

/-- C102. A server that is set up with a dictionary that has not been through the configuration class verifies certificates unless
the dictionary says otherwise, in "verify" or "verify_ssl" of "httpc_params" or, without "httpc_params", in "verify_ssl". -/
theorem C102_tls_plain (conf : Dict Json) :
    (conf.get? "httpc_params" = none → conf.get? "verify_ssl" = none → VerifiesTls (httpVerify conf)) ∧
    (∀ b, conf.get? "httpc_params" = none → conf.get? "verify_ssl" = some (.bool b) → (VerifiesTls (httpVerify conf) ↔ b = true)) ∧
    (∀ l, l ≠ [] → conf.get? "httpc_params" = some (.obj l) → Dict.get? l "verify" = none → Dict.get? l "verify_ssl" = none →
      VerifiesTls (httpVerify conf)) ∧
    (∀ l b, conf.get? "httpc_params" = some (.obj l) → Dict.get? l "verify" = some (.bool b) →
      (VerifiesTls (httpVerify conf) ↔ b = true)) := by
  unfold httpVerify httpVerify.fallback VerifiesTls
  refine ⟨fun h1 h2 => ?_, fun b h1 h2 => ?_, fun l hl h1 h2 h3 => ?_, fun l b h1 h2 => ?_⟩
  · simp [h1, h2]
  · cases b <;> simp [h1, h2]
  · cases l with
    | nil => exact absurd rfl hl
    | cons p r => simp [h1, h2, h3]
  · cases l with
    | nil => cases h2
    | cons p r => cases b <;> simp [h1, h2, Option.filter]

example : VerifiesTls (httpVerify [("issuer", .str "https://op")]) := (C102_tls_plain _).1 (by decide +kernel) (by decide +kernel)

/-- C102. The certificates of other servers are verified exactly if "httpc_params" is given and does not say otherwise: without it
they are not. -/
theorem C102_tls_partial (L : ConfLib) (hL : "verify" ∉ L.names ∧ "timeout" ∉ L.names) (domain : String) (port : Int)
    (conf c : Dict Json) (hc : opConfiguration L domain port conf = .ok c) :
    (NotGiven conf "httpc_params" → ¬ VerifiesTls (httpVerify c)) ∧
    (∀ l, Given conf "httpc_params" (.obj l) → Dict.get? l "verify" = some (.bool true) → VerifiesTls (httpVerify c)) ∧
    (∀ l, Given conf "httpc_params" (.obj l) → Dict.get? l "verify" = some (.bool false) → ¬ VerifiesTls (httpVerify c)) := by
  have hk : "httpc_params" ∈ opSettings := by decide
  have hne : "httpc_params" ≠ "template_dir" := by decide
  have hh : heldAs "httpc_params" = "httpc_params" := by decide
  refine ⟨fun hn => ?_, fun l hl hv => ?_, fun l hl hv => ?_⟩
  · have h := (C102_default L domain port conf c hc _ hk hn).1 hne
    have hd : opDefaults.get? "httpc_params" = some (.obj [("verify", .bool false), ("timeout", .num 4)]) := by decide +kernel
    rw [hd, hh, Option.map_some, L.format_without] at h
    · unfold httpVerify
      rw [h]
      simp only []
      have : (((Dict.get? [("verify", Json.bool false), ("timeout", .num 4)] "verify").filter (· != .null)).or
        (Dict.get? [("verify", Json.bool false), ("timeout", .num 4)] "verify_ssl")) = some (.bool false) := by decide +kernel
      rw [this]
      exact fun h => h rfl
    · refine .obj _ ?_ ?_
      · intro q hq
        simp only [List.mem_cons, List.not_mem_nil, or_false] at hq
        rcases hq with rfl | rfl
        · exact hL.1
        · exact hL.2
      · intro q hq
        simp only [List.mem_cons, List.not_mem_nil, or_false] at hq
        rcases hq with rfl | rfl
        · exact .bool _
        · exact .num _
  all_goals
    have h := (C102_given_partial L domain port conf c hc _ hk _ hl).1 hne
    rw [hh] at h
    have hcons : ∃ a t, l = a :: t := by
      cases l with
      | nil => cases hv
      | cons a t => exact ⟨a, t, rfl⟩
    obtain ⟨a, t, rfl⟩ := hcons
    unfold httpVerify
    rw [h]
    simp only [hv]
  · exact fun h => by cases h
  · exact fun h => h rfl

namespace Ex

/-- A library that puts nothing in. -/
def confLib : ConfLib :=
  { format := fun _ _ j => j, abspath := fun s => "/srv/" ++ s, names := ["issuer", "base_url", "filename"],
    format_without := fun _ _ _ _ => rfl }

/-- Settings of a deployment. -/
def settings : Dict Json :=
  [("issuer", .str "https://op.example.org"), ("keys", .obj [("uri_path", .str "jwks.json")]),
   ("httpc_params", .obj [("verify", .bool true)]), ("allowed_scopes", .arr [.str "openid", .str "email"]),
   ("sso_ttl", .num 3600)]

/-- The theorems of this file are about something: a given, a default and a renamed setting. -/
example : ∃ c, opConfiguration confLib "op.example.org" 443 settings = .ok c ∧
    Given settings "issuer" (.str "https://op.example.org") ∧ c.get? "issuer" = some (.str "https://op.example.org") ∧
    c.get? "key_conf" = some (.obj [("uri_path", .str "jwks.json")]) ∧ c.get? "authz" = some defaultAuthzJson ∧
    c.get? "template_dir" = some (.str "/srv/templates") ∧ c.get? "userinfo" = none := by
  refine ⟨_, rfl, ?_⟩
  rw [given_iff]
  decide +kernel

example : ∃ e, opConfiguration confLib "" 0 [("template_dir", .arr [.str "a"])] = .error e := ⟨_, rfl⟩

example : ∃ c, asConfiguration confLib "op.example.org" 443 settings = .ok c := ⟨_, rfl⟩

/-- C102 fails: settings that the provider reads when it is given a plain dictionary are dropped by the configuration class, without
an error.  With `allowed_scopes` of openid and email, a client still gets the scope `address`. -/
theorem C102_dropped_refuted : ∃ (L : ConfLib) (conf c : Dict Json), opConfiguration L "op.example.org" 443 conf = .ok c ∧
    Given conf "allowed_scopes" (.arr [.str "openid", .str "email"]) ∧
    filterScopes (scopeCfgOf conf []) (some "client_1") ["openid", "address"] = ["openid"] ∧
    filterScopes (scopeCfgOf c []) (some "client_1") ["openid", "address"] = ["openid", "address"] := by
  refine ⟨confLib, settings, _, rfl, ?_⟩
  rw [given_iff]
  decide +kernel

/-- C102 fails: an empty setting is not the same as none for the provider, but it is for the configuration class.  With empty
"httpc_params" the provider verifies certificates, with the configuration made of the same settings it does not. -/
theorem C102_empty_refuted : ∃ (L : ConfLib) (conf c : Dict Json), opConfiguration L "op.example.org" 443 conf = .ok c ∧
    conf.get? "httpc_params" = some (.obj []) ∧ VerifiesTls (httpVerify conf) ∧ ¬ VerifiesTls (httpVerify c) := by
  refine ⟨confLib, [("httpc_params", .obj [])], _, rfl, ?_⟩
  have h : httpVerify [("httpc_params", .obj [])] = some true := by decide +kernel
  refine ⟨rfl, by rw [h]; simp [VerifiesTls], fun hv => hv ?_⟩
  decide +kernel

/-- C102 fails: the domain and the port that a configuration is made with never get into the default issuer. -/
theorem C102_issuer_refuted (L : ConfLib) (domain : String) (port : Int) (conf c : Dict Json)
    (hc : opConfiguration L domain port conf = .ok c) (hn : NotGiven conf "issuer") :
    c.get? "issuer" = some (.str "https://{domain}:{port}") := by
  have h := (C102_default L domain port conf c hc "issuer" (by decide) hn).1 (by decide)
  have hd : opDefaults.get? "issuer" = some (.str "https://{domain}:{port}") := by decide +kernel
  rw [hd, Option.map_some, L.format_without _ _ _ (.str _)] at h
  exact h

end Ex

end OidcOp
