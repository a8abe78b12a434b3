/-
C103: the usage rules of the configuration apply to every token in every history.
-/
import Verif.Spec.UsageCfg
import Verif.Lemmas.GrantRules
import Verif.Props.LifeTime
import Verif.Props.MaxUsage
import Verif.Props.Configure

namespace OidcOp
open Spec

theorem lookup_get? (u : Rules) (c : TokenClass) : u.lookup c = Rules.get? u c := by
  unfold Rules.get?
  induction u with
  | nil => rfl
  | cons p l ih =>
    obtain ⟨k, r⟩ := p
    by_cases h : k = c
    · subst h; simp
    · have h' : ¬ c = k := fun e => h e.symm
      have hb : (c == k) = false := by simp [h']
      rw [List.lookup_cons, hb, List.find?_cons_of_neg (by simp [h])]
      exact ih

theorem usedBy_of {u : Rules} {t : Token} (h : t.rules = setDefaults t.cls ((ruleIn u t.cls).getD {})) : UsedBy u t := by
  have hl := lookup_get? u t.cls
  unfold ruleIn at h
  rw [← hl] at h
  refine ⟨fun hc => ?_, fun hc => ?_, fun r l h1 h2 => ?_, fun hc h1 => ?_, fun hc h1 => ?_⟩
  · rw [h, hc]; rfl
  · rw [h]
    cases hr : u.lookup t.cls with
    | none => cases hcl : t.cls <;> first | rfl | exact absurd hcl hc
    | some r => cases hcl : t.cls <;> first | rfl | exact absurd hcl hc
  · rw [h, h1]
    cases t.cls <;> simp [setDefaults, h2]
  · rw [h, hc]
    cases hr : u.lookup .authorizationCode with
    | none => rfl
    | some r =>
      rw [hc] at h1
      simp [setDefaults, h1 r hr]
  · rw [h, hc]
    cases hr : u.lookup .refreshToken with
    | none => rfl
    | some r =>
      rw [hc] at h1
      simp [setDefaults, h1 r hr]

theorem livesBy_of {u : Rules} {t : Token} (h : if t.basedOn = none then t.expiresAt = rootEnd t.issuedAt (ruleIn u t.cls)
    else t.expiresAt = endOf t.issuedAt (ruleIn u t.cls)) : LivesBy u t := by
  have hl := lookup_get? u t.cls
  unfold ruleIn at h
  rw [← hl] at h
  refine ⟨fun hb n hn hn0 => ?_, fun hb hn => ?_, fun hb n hn hn0 => ?_, fun hb hn => ?_⟩
  · rw [if_neg hb] at h
    have := endOf_lifeTime (g := { id := "", sub := "", usageRules := u }) hn t.issuedAt
    rw [← lookup_rulesFor, if_neg hn0] at this
    rw [h, ← this]
  · rw [if_neg hb] at h
    have := endOf_noLifeTime (g := { id := "", sub := "", usageRules := u }) hn t.issuedAt
    rw [← lookup_rulesFor] at this
    rw [h, ← this]
  · rw [if_pos hb] at h
    obtain ⟨r, h1, h2⟩ := hn
    rw [h, h1]
    simp only [rootEnd, Option.getD_some, h2, if_neg hn0]
  · rw [if_pos hb] at h
    rw [h]
    cases hr : u.lookup t.cls with
    | none => rfl
    | some r =>
      cases he : r.expiresIn with
      | none => simp only [rootEnd, Option.getD_some, he]
      | some n => exact absurd ⟨r, hr, he⟩ (hn n)

theorem ruledStore_init {R : Rules → Prop} (now : Int) : RuledStore R ({ now := now } : World).st := by
  intro r g h
  rw [grantAt_iff] at h
  simp at h

theorem ruled_at {E : Env} (hE : E.authz.usageRules ≠ none) (now : Int) (ops : List WOp) {R : Rules → Prop}
    (hR : ∀ sid req, .authorize sid req ∈ ops → R (E.authz.rulesOf req.clientId)) {r : Nat} {g : Grant}
    (hg : (run E { now := now } ops).st.grantAt r = some g) {t : Token} (ht : t ∈ g.issuedToken) : Ruled R g ∧ TokRuled R t := by
  have h := ruled_run hE ops hR (winv_init E _ now) (ruledStore_init now) r g hg
  rcases h with h | h
  · rw [h] at ht; cases ht
  · exact ⟨h, h.tokens t ht⟩

/-- C103. Where the grant configuration has usage rules: in every history, every token that a grant holds follows the rules that the
configuration has for the client of an authorization request of this history, in how often it can be used and what it can be
exchanged for, and in how long it lives. -/
theorem C103_configured_rules_apply (E : Env) (hE : E.authz.usageRules ≠ none) (now : Int) (ops : List WOp) (r i : Nat) (t : Token)
    (ht : TokenAt (run E { now := now } ops) r i t) :
    (∃ sid req, .authorize sid req ∈ ops ∧ UsedBy (E.authz.rulesOf req.clientId) t) ∧
    (∃ sid req, .authorize sid req ∈ ops ∧ LivesBy (E.authz.rulesOf req.clientId) t) := by
  obtain ⟨g, hg, hi⟩ := ht
  obtain ⟨_, h⟩ := ruled_at hE now ops (R := fun u => ∃ sid req, .authorize sid req ∈ ops ∧ u = E.authz.rulesOf req.clientId)
    (fun sid req hm => ⟨sid, req, hm, rfl⟩) (grantAt_spec.1 hg) (List.mem_of_getElem? hi)
  refine ⟨?_, ?_⟩
  · obtain ⟨u, ⟨sid, req, hm, rfl⟩, h1⟩ := h.rules
    exact ⟨sid, req, hm, usedBy_of h1⟩
  · obtain ⟨u, ⟨sid, req, hm, rfl⟩, h1⟩ := h.ends
    exact ⟨sid, req, hm, livesBy_of h1⟩

/-- C103. The rules of a grant that holds tokens are the ones configured. -/
theorem C103_grants_configured (E : Env) (hE : E.authz.usageRules ≠ none) (now : Int) (ops : List WOp) (r i : Nat) (t : Token) (g : Grant)
    (hg : GrantAt (run E { now := now } ops) r g) (ht : g.issuedToken[i]? = some t) :
    ∃ sid req, .authorize sid req ∈ ops ∧ g.usageRules = E.authz.rulesOf req.clientId := by
  obtain ⟨h, _⟩ := ruled_at hE now ops (R := fun u => ∃ sid req, .authorize sid req ∈ ops ∧ u = E.authz.rulesOf req.clientId)
    (fun sid req hm => ⟨sid, req, hm, rfl⟩) (grantAt_spec.1 hg) (List.mem_of_getElem? ht)
  exact h.own

/-- C103. If the configuration lets every client of a history use a refresh token at most `m` times, no refresh token gets more than
`m` responses, whatever the interleaving. -/
theorem C103_refresh_max_usage (E : Env) (hE : E.authz.usageRules ≠ none) (now : Int) (ops : List WOp) (m : Int)
    (hm : ∀ sid req, .authorize sid req ∈ ops → ∃ rule k, (E.authz.rulesOf req.clientId).lookup .refreshToken = some rule ∧
      rule.maxUsage = some k ∧ k ≤ m) (r i : Nat) (t : Token) (ht : TokenAt (run E { now := now } ops) r i t)
    (hc : t.cls = .refreshToken) :
    (run E { now := now } ops).log.countP (isTokenResponse t.value) ≤ m.toNat := by
  obtain ⟨⟨sid, req, hop, hu⟩, _⟩ := C103_configured_rules_apply E hE now ops r i t ht
  obtain ⟨rule, k, h1, h2, h3⟩ := hm sid req hop
  have hmax : t.rules.maxUsage = some k := by
    rw [hu.other (by rw [hc]; decide), hc, h1]
    exact h2
  have := C76_at_most_max_usage_responses E now ops r i t ht k hmax
  have hk : k.toNat ≤ m.toNat := by omega
  omega

/-! ### When tokens were issued -/

/-- All tokens were issued between the start and now. -/
structure Issued (start : Int) (c : Core) : Prop where
  now : start ≤ c.now
  tokens : ∀ r g, c.st.grantAt r = some g → ∀ t ∈ g.issuedToken, start ≤ t.issuedAt ∧ t.issuedAt ≤ c.now

theorem issued_chain {E : Env} {S : String → Prop} {start : Int} {c c' : Core} (hc : Chain E S c c') (h : Issued start c) :
    Issued start c' := by
  induction hc with
  | refl => exact h
  | @snoc c1 _ _ a ih =>
    cases a with
    | tick d =>
      refine ⟨by have := ih.now; simp only []; omega, fun r g hg t ht => ?_⟩
      have := ih.tokens r g hg t ht
      simp only []
      omega
    | db st' k hd =>
      refine ⟨ih.now, fun r g' hg' t ht => ?_⟩
      rw [grantAt_iff] at hg'
      rcases hd.new r g' hg' with ⟨g, hg⟩ | h1
      · have hw := ih.tokens r g (grantAt_iff.2 hg)
        rcases hd.old r g hg with h2 | h2 <;> (rw [h2] at hg'; cases hg'; exact hw t ht)
      · rw [show g'.issuedToken = [] from h1] at ht
        cases ht
    | micro r sid g gs hg _ hm =>
      have hold := ih.tokens r g hg
      have hnow := ih.now
      have key : ∀ t ∈ gs.g.issuedToken, start ≤ t.issuedAt ∧ t.issuedAt ≤ c1.now := by
        intro t ht
        cases hm with
        | call => exact hold t ht
        | mint cl b v t' _ hf =>
          rcases List.mem_append.1 ht with h1 | h1
          · exact hold t h1
          · rw [List.mem_singleton] at h1
            subst h1
            rw [hf.issuedAt]
            exact ⟨hnow, Int.le_refl _⟩
        | use v =>
          rcases mem_modifyFirst_or ht with h1 | ⟨t0, h1, rfl⟩
          · exact hold t h1
          · exact hold t0 h1
        | revoke ts hr =>
          obtain ⟨i, hi⟩ := List.getElem?_of_mem ht
          have hlt : i < g.issuedToken.length := by
            rw [← hr.1]
            exact (List.getElem?_eq_some_iff.1 hi).1
          obtain ⟨x, h1, _⟩ := hr.2 i _ (List.getElem?_eq_getElem hlt)
          rw [hi] at h1
          cases h1
          exact hold g.issuedToken[i] (List.getElem_mem hlt)
        | attrs g' h1 =>
          rw [h1] at ht
          exact hold t ht
      refine ⟨hnow, fun r' g' hg' t ht => ?_⟩
      by_cases e : r = r'
      · subst e
        rw [grantAt_put_self hg] at hg'
        cases hg'
        exact key t ht
      · rw [grantAt_put_ne _ e] at hg'
        exact ih.tokens r' g' hg' t ht

/-- C103. If the configuration gives refresh tokens a negative life time for every client of a history, no refresh request is ever
answered with tokens. -/
theorem C103_negative_never_refreshed (E : Env) (hE : E.authz.usageRules ≠ none) (now : Int) (ops : List WOp)
    (hneg : ∀ sid req, .authorize sid req ∈ ops → ∃ n, SaysLifeTime (E.authz.rulesOf req.clientId) .refreshToken n ∧ n < 0 ∧ 0 < now + n)
    (ref : Nat) (client v : String) (req : TokenReq) (resp : TokenResp) :
    .token ref client true v req resp ∉ (run E { now := now } ops).log := by
  have main : ∀ (ops' : List WOp) (w : World), (∀ op ∈ ops', op ∈ ops) → WInv E (fun _ => True) w → Issued now w.core →
      RuledStore (fun u => ∃ n, SaysLifeTime u .refreshToken n ∧ n < 0 ∧ 0 < now + n) w.st →
      .token ref client true v req resp ∉ w.log → .token ref client true v req resp ∉ (run E w ops').log := by
    intro ops'
    induction ops' with
    | nil => intro w _ _ _ _ h; exact h
    | cons op rest ih =>
      intro w hsub hw hi hr hlog
      obtain ⟨hc, hw', h3⟩ := step_spec hw (sidClosed_true E) op (fun _ _ _ => trivial)
      refine ih (step E w op) (fun o ho => hsub o (List.mem_cons_of_mem _ ho)) hw' (issued_chain hc hi)
        (ruled_step hE hw hr op (fun sid rq he => hneg sid rq (he ▸ hsub op List.mem_cons_self))) ?_
      rcases h3 with h3 | ⟨e, h3, hne⟩
      · rw [h3]; exact hlog
      · rw [h3]
        intro hmem
        rcases List.mem_append.1 hmem with h4 | h4
        · exact hlog h4
        · rw [List.mem_singleton] at h4
          subst h4
          rcases hne with ⟨_, _, _, _, h, _⟩ | ⟨s, rf, v', req', r', a, he, hp, ha, hout⟩
          · cases h
          · cases he
            have hf := tokFacts hw (sidClosed_true E) hc hp ha hout
            obtain ⟨j, b, _, _, y1, y2, y3, y4, _⟩ := hf.base
            simp only [if_true] at y3
            have hb := List.mem_of_getElem? y1
            have hiss := hi.tokens _ _ hf.before b hb
            have hrl : TokRuled (fun u => ∃ n, SaysLifeTime u .refreshToken n ∧ n < 0 ∧ 0 < now + n) b := by
              rcases hr _ _ hf.before with h5 | h5
              · rw [h5] at hb; cases hb
              · exact h5.tokens b hb
            obtain ⟨u, ⟨n, hn, hneg', hpos⟩, hends⟩ := hrl.ends
            have hl := livesBy_of hends
            have hexp : b.expiresAt = b.issuedAt + n := by
              by_cases hbo : b.basedOn = none
              · exact hl.root hbo n (by rw [y3]; exact hn) (by omega)
              · obtain ⟨r, h6, h7⟩ := hn
                exact hl.made hbo n (by rw [y3]; exact .inl ⟨r, h6, h7⟩) (by omega)
            have hact := y4.2.2.2
            simp only [Token.item] at hact
            have h8 := hact (by omega)
            have h9 : w.core.now = w.now := rfl
            omega
  exact main ops _ (fun _ h => h) (winv_init E _ now) ⟨Int.le_refl _, fun r g hg => by rw [grantAt_iff] at hg; simp [World.core] at hg⟩
    (ruledStore_init now) (by simp)

/-! ### The default grant configuration -/

/-- The grant configuration of a provider whose settings say nothing about it. -/
def defaultGrantConfig : AuthzCfg :=
  { expiresIn := some 43200
    usageRules := some [(.authorizationCode, { supportsMinting := some [.accessToken, .refreshToken, .idToken], maxUsage := some 1 }),
      (.accessToken, {}),
      (.refreshToken, { supportsMinting := some [.accessToken, .refreshToken], expiresIn := some (-1) })] }

theorem default_authz_without {names : List String} (h : ∀ k ∈ grantConfigNames, k ∉ names) : Json.Without names defaultAuthzJson := by
  have h' : ∀ k, k ∈ grantConfigNames → k ∉ names := h
  unfold defaultAuthzJson
  have strs : ∀ l : List Json, (∀ j ∈ l, ∃ s, j = .str s) → Json.Without names (.arr l) := by
    intro l hl
    refine .arr _ fun j hj => ?_
    obtain ⟨s, rfl⟩ := hl j hj
    exact .str s
  refine .obj _ ?_ ?_ <;> simp only [List.forall_mem_cons, List.not_mem_nil, false_imp_iff, implies_true, and_true]
  · exact ⟨h' _ (by decide), h' _ (by decide)⟩
  refine ⟨.str _, .obj _ ?_ ?_⟩ <;> simp only [List.forall_mem_cons, List.not_mem_nil, false_imp_iff, implies_true, and_true]
  · exact h' _ (by decide)
  refine .obj _ ?_ ?_ <;> simp only [List.forall_mem_cons, List.not_mem_nil, false_imp_iff, implies_true, and_true]
  · exact ⟨h' _ (by decide), h' _ (by decide)⟩
  refine ⟨.obj _ ?_ ?_, .num _⟩ <;> simp only [List.forall_mem_cons, List.not_mem_nil, false_imp_iff, implies_true, and_true]
  · exact ⟨h' _ (by decide), h' _ (by decide), h' _ (by decide)⟩
  refine ⟨.obj _ ?_ ?_, .obj _ ?_ ?_, .obj _ ?_ ?_⟩ <;>
    simp only [List.forall_mem_cons, List.not_mem_nil, false_imp_iff, implies_true, and_true]
  · exact ⟨h' _ (by decide), h' _ (by decide)⟩
  · exact ⟨strs _ (by simp), .num _⟩
  · exact ⟨h' _ (by decide), h' _ (by decide)⟩
  · exact ⟨strs _ (by simp), .num _⟩

theorem default_authz (L : ConfLib) (hL : ∀ k ∈ grantConfigNames, k ∉ L.names) (domain : String) (port : Int) (conf c : Dict Json)
    (hc : opConfiguration L domain port conf = .ok c) (hn : NotGiven conf "authz") : authzCfgOf c [] = defaultGrantConfig := by
  have h := (C102_default L domain port conf c hc "authz" (by decide) hn).1 (by decide)
  have hd : opDefaults.get? "authz" = some defaultAuthzJson := by decide +kernel
  rw [hd, Option.map_some, L.format_without _ _ _ (default_authz_without hL)] at h
  have h' : c.get? "authz" = some defaultAuthzJson := h
  unfold authzCfgOf
  rw [h']
  decide +kernel

theorem default_rules (client : Option String) : defaultGrantConfig.rulesOf client = defaultGrantConfig.usageRules.getD [] := by
  unfold AuthzCfg.rulesOf
  cases truthyStr client <;> rfl

/-- C103. A provider whose settings leave the grant configuration out (as it is documented in the default configuration) never
answers a refresh request with tokens: refresh tokens are issued, and are over one second before they are issued. -/
theorem C103_default_refresh_refuted (L : ConfLib) (hL : ∀ k ∈ grantConfigNames, k ∉ L.names) (domain : String) (port : Int)
    (conf c : Dict Json) (hc : opConfiguration L domain port conf = .ok c) (hn : NotGiven conf "authz")
    (E : Env) (hE : E.authz = authzCfgOf c []) (now : Int) (hnow : 1 < now) (ops : List WOp)
    (ref : Nat) (client v : String) (req : TokenReq) (resp : TokenResp) :
    .token ref client true v req resp ∉ (run E { now := now } ops).log := by
  rw [default_authz L hL domain port conf c hc hn] at hE
  refine C103_negative_never_refreshed E (by rw [hE]; decide) now ops (fun sid rq _ => ⟨-1, ?_, by omega, by omega⟩) ref client v req resp
  rw [hE, default_rules]
  exact ⟨_, rfl, rfl⟩

/-- C103. With the default grant configuration every code can be used once and does not end by itself, and an access token from the
token endpoint lives for half an hour. -/
theorem C103_default_lifetimes (L : ConfLib) (hL : ∀ k ∈ grantConfigNames, k ∉ L.names) (domain : String) (port : Int)
    (conf c : Dict Json) (hc : opConfiguration L domain port conf = .ok c) (hn : NotGiven conf "authz")
    (E : Env) (hE : E.authz = authzCfgOf c []) (now : Int) (ops : List WOp) (r i : Nat) (t : Token)
    (ht : TokenAt (run E { now := now } ops) r i t) :
    (t.cls = .authorizationCode → ∀ at', t.isActive at' = true ↔ t.revoked = false ∧ t.used = 0 ∧ (t.notBefore ≠ 0 → t.notBefore ≤ at')) ∧
    (t.cls = .accessToken → t.basedOn ≠ none → t.expiresAt = t.issuedAt + 1800) ∧
    (t.cls = .accessToken → t.basedOn = none → t.expiresAt = 0) := by
  rw [default_authz L hL domain port conf c hc hn] at hE
  obtain ⟨⟨_, rq, _, hu⟩, ⟨_, rq', _, hl⟩⟩ := C103_configured_rules_apply E (by rw [hE]; decide) now ops r i t ht
  rw [hE, default_rules] at hu hl
  have hcode : t.cls = .authorizationCode → t.expiresAt = 0 := by
    intro hc
    by_cases hb : t.basedOn = none
    · refine hl.rootNone hb fun n hn => ?_
      obtain ⟨rr, h1, h2⟩ := hn
      rw [hc] at h1
      cases h1
      cases h2
    · refine hl.madeNone hb ?_
      rw [hc]
      exact ⟨_, rfl, by decide, rfl⟩
  refine ⟨fun hc at' => ?_, fun hc hb => ?_, fun hc hb => ?_⟩
  · have hm := hu.code hc
    unfold Token.isActive
    rw [isActive_clock_iff]
    constructor
    · rintro ⟨h1, h2, h3, _⟩
      have h4 : (t.used : Int) < 1 := h2 1 hm
      exact ⟨h1, by omega, h3⟩
    · rintro ⟨h1, h2, h3⟩
      refine ⟨h1, fun m hm' => ?_, h3, fun h => absurd (hcode hc) h⟩
      have h4 : t.rules.maxUsage = some m := hm'
      rw [hm] at h4
      cases h4
      show (t.used : Int) < 1
      omega
  · refine hl.made hb 1800 ?_ (by decide)
    rw [hc]
    exact .inr ⟨.inr rfl, rfl⟩
  · refine hl.rootNone hb fun n hn => ?_
    obtain ⟨rr, h1, h2⟩ := hn
    rw [hc] at h1
    cases h1
    cases h2

namespace Ex

/-- A provider set up with the default grant configuration. -/
def DE2 : Env := env cfg defaultGrantConfig (fun _ _ => none)

/-- A code exchange and a refresh request with the refresh token of the response. -/
def defaultRefresh : List WOp :=
  defaultHistory ++ [.process 0 none, .parse "c1" (refreshReq (DE2.mkVal 3 .refreshToken (sid "c1" 0)) none), .process 1 none]

/-- C103_configured_rules_apply, C103_refresh_max_usage: the tokens of `thrice`, of which one refresh token can be used twice. -/
example : E2.authz.usageRules ≠ none ∧
    ((run E2 init thrice).st.grantAt 2).map (fun g => g.issuedToken.map (fun t => (t.cls, t.rules.maxUsage, t.expiresAt - t.issuedAt))) =
      some [(.authorizationCode, some 1, 300), (.accessToken, none, 1800), (.refreshToken, some 2, 86400), (.accessToken, none, 1800),
        (.accessToken, none, 1800)] ∧
    (E2.authz.rulesOf (authzReq "c1").clientId).lookup .refreshToken =
      some { supportsMinting := some [.accessToken], maxUsage := some 2, expiresIn := some 86400 } := by
  decide +kernel

/-- C103_default_refresh_refuted, C103_default_lifetimes: the hypotheses can be met, the code is exchanged for an access token and a
refresh token, and the refresh request gets no tokens. -/
example : (∀ k ∈ grantConfigNames, k ∉ confLib.names) ∧ NotGiven settings "authz" ∧
    (∃ c, opConfiguration confLib "op.example.org" 443 settings = .ok c ∧ DE2.authz = authzCfgOf c []) ∧
    ((run DE2 init defaultRefresh).st.grantAt 2).map (fun g => g.issuedToken.map (fun t => (t.cls, t.expiresAt))) =
      some [(.authorizationCode, 0), (.accessToken, 2805), (.refreshToken, 1004), (.idToken, 2805)] ∧
    (run DE2 init defaultRefresh).pool.length = 1 ∧ (run DE2 init defaultRefresh).log.length = 2 := by
  refine ⟨by decide, fun v hv => ?_, ⟨_, rfl, by decide +kernel⟩, ?_⟩
  · rw [given_iff] at hv
    cases hv.1
  decide +kernel

end Ex

end OidcOp
