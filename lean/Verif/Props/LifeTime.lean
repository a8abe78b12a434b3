/-
C23: life times of the tokens in token responses.
-/
import Verif.Spec.LifeTime
import Verif.Props.World
import Verif.Props.WorldExamples

namespace OidcOp
open Spec

theorem lookup_rulesFor (g : Grant) (c : TokenClass) : g.usageRules.lookup c = g.rulesFor c := by
  unfold Grant.rulesFor
  induction g.usageRules with
  | nil => rfl
  | cons p l ih =>
    obtain ⟨k, r⟩ := p
    by_cases h : k = c
    · subst h; simp
    · have h' : ¬ c = k := fun e => h e.symm
      have hb : (c == k) = false := by simp [h']
      rw [List.lookup_cons, hb, List.find?_cons_of_neg (by simp [h])]
      exact ih

theorem endOf_lifeTime {g : Grant} {c : TokenClass} {n : Int} (h : LifeTime g.usageRules c n) (clock : Int) :
    endOf clock (g.rulesFor c) = if n = 0 then 0 else clock + n := by
  unfold LifeTime at h
  rw [lookup_rulesFor] at h
  unfold endOf expIn
  rcases h with ⟨r, h1, h2⟩ | ⟨h1 | h1, rfl⟩
  · have hne : r.nonempty = true := by simp [UsageRules.nonempty, h2]
    simp only [h1, hne, if_true, h2]
  · rw [h1]; rfl
  · rw [h1]; rfl

theorem endOf_noLifeTime {g : Grant} {c : TokenClass} (h : NoLifeTime g.usageRules c) (clock : Int) :
    endOf clock (g.rulesFor c) = 0 := by
  obtain ⟨r, h1, h2, h3⟩ := h
  rw [lookup_rulesFor] at h1
  have hne : r.nonempty = true := by
    cases hb : r.nonempty with
    | true => rfl
    | false =>
      obtain ⟨a, b, e⟩ := r
      cases a <;> cases b <;> cases e <;> simp [UsageRules.nonempty] at hb h2
  unfold endOf expIn
  simp only [h1, hne, if_true, h3]

/-- The call of a handler that made a token is one of those made before. -/
theorem made_between {E : Env} {S : String → Prop} {w : World} (hw : WInv E S w) {r i k n : Nat} {g : Grant} {t : Token} {c : TokenClass}
    {v sid : String} (hg : w.st.grantAt r = some g) (ht : g.issuedToken[i]? = some t) (hv : t.value = v) (hc : t.cls = c)
    (hk : n ≤ k) (hm : E.Made k c sid v) : ∃ k sid, n ≤ k ∧ k < w.n ∧ E.Made k c sid v := by
  obtain ⟨k', sid', h1, h2, _⟩ := hw.core.prov r g i t hg ht
  rw [hv, hc] at h2
  have := E.mkVal_inj hm.ok h2.ok (hm.value.symm.trans h2.value)
  exact ⟨k, sid, hk, by rw [this.1]; exact h1, hm⟩

/-- The tokens of a token response, right after it. -/
theorem handed_out {E : Env} {w : World} (hw : Reachable E w) {op : WOp} {ref : Nat} {client v : String} {rf : Bool}
    {req : TokenReq} {resp : TokenResp} (hresp : (step E w op).log = w.log ++ [.token ref client rf v req resp]) :
    ∃ g, GrantAt w ref g ∧ (∀ c a, HandsOut resp c a → ∃ i t, TokenAt (step E w op) ref i t ∧ t.value = a ∧ t.cls = c ∧
      NewTok w.now g c t ∧ ∃ k sid, w.n ≤ k ∧ k < (step E w op).n ∧ E.Made k c sid a) ∧ resp.expiresIn = leftOf w.now (g.rulesFor .accessToken) := by
  obtain ⟨hc, hw', h3⟩ := step_spec (winv_reachable hw) (sidClosed_true E) op (fun _ _ _ => trivial)
  rcases h3 with h3 | ⟨e, h3, hne⟩
  · rw [hresp] at h3
    have := congrArg List.length h3
    simp at this
  · rw [hresp] at h3
    have he : e = .token ref client rf v req resp := by simpa using h3.symm
    subst he
    rcases hne with ⟨_, _, _, _, h, _⟩ | ⟨s, rf', v', req', r', a, he, hp, ha, hout⟩
    · cases h
    · cases he
      obtain ⟨gs, hgs, ho1, ho2⟩ := hout.out
      have key : ∀ {b : Token} {c : TokenClass} {x : String} {Φ : Token → Prop},
          Minted (minter E s.sid) w.n b c Φ x gs →
          (∀ t, Φ t → NewTok w.now s.grant c t) →
          ∃ i t, TokenAt (step E w op) s.ref i t ∧ t.value = x ∧ t.cls = c ∧ NewTok w.now s.grant c t ∧
            ∃ k sid, w.n ≤ k ∧ k < (step E w op).n ∧ E.Made k c sid x := by
        rintro b c x Φ ⟨⟨k, hk, hmk⟩, t, ht, h1, h2, -, h4⟩ hi
        obtain ⟨i, hi'⟩ := List.getElem?_of_mem ht
        refine ⟨i, t, ⟨gs.g, grantAt_spec.2 hgs, hi'⟩, h1, h2, hi t h4, ?_⟩
        exact made_between hw' (grantAt_spec.1 (grantAt_spec.2 hgs)) hi' h1 h2 hk (minter_ok hmk)
      refine ⟨s.grant, grantAt_spec.2 (sessionByToken_grantAt hout.sess), ?_, ?_⟩
      · cases rf with
        | false =>
          obtain ⟨b, _, _, _, _, k1, k2, k3⟩ := (ho1 rfl).2.2.base
          rintro c x (⟨rfl, hx⟩ | ⟨rfl, hx⟩ | ⟨rfl, hx⟩)
          · exact key (k1 x hx).1 (fun _ h => h)
          · exact key (k2 x hx).1 (fun _ h => h)
          · exact key (k3 x hx).1 (fun _ h => h)
        | true =>
          obtain ⟨b, _, _, a', _, _, _, _, _, _, ha', k1, k2, k3⟩ := (ho2 rfl).2.2.base
          rintro c x (⟨rfl, hx⟩ | ⟨rfl, hx⟩ | ⟨rfl, hx⟩)
          · rw [ha'] at hx
            cases hx
            exact key k1.1 (fun _ h => h.2)
          · exact key (k2 x hx).1 (fun _ h => h.2)
          · exact key (k3 x hx).1 (fun _ h => h.2)
      · cases rf with
        | false => exact (ho1 rfl).2.2.expires (by rw [ha]; simp)
        | true => exact (ho2 rfl).2.2.expires

/-- C23 (partial: it is exact for every configured life time, but a negative one, as in the default configuration, makes the
token useless from the start, see `C23_usable_refuted`).  Every token in a token response is held by the grant, and at every
time in every later history it is active exactly as long as it is not revoked, not used up, and no more than the configured
life time has passed since the response. -/
theorem C23_lifetime_partial (E : Env) (w : World) (hw : Reachable E w) (op : WOp) (ref : Nat) (client v : String) (rf : Bool)
    (req : TokenReq) (resp : TokenResp) (hresp : (step E w op).log = w.log ++ [.token ref client rf v req resp])
    (c : TokenClass) (a : String) (ha : HandsOut resp c a) :
    ∃ g, GrantAt w ref g ∧ ∃ i, ∀ ops, ∃ t, TokenAt (run E (step E w op) ops) ref i t ∧ t.value = a ∧ t.cls = c ∧
      ∀ n, LifeTime g.usageRules c n → n ≠ 0 → w.now + n ≠ 0 →
        ∀ at', t.isActive at' = true ↔
          t.revoked = false ∧ (∀ m, t.rules.maxUsage = some m → t.used < m) ∧ at' ≤ w.now + n := by
  obtain ⟨g, hg, h1, _⟩ := handed_out hw hresp
  obtain ⟨i, t, ⟨g', hg', ht⟩, hv, hcl, hnew, _⟩ := h1 c a ha
  refine ⟨g, hg, i, fun ops => ?_⟩
  have hc := chain_run (reachable_run hw [op]) ops
  obtain ⟨g2, t2, e1, e2, e3⟩ := tokenAt_later hc (grantAt_spec.1 hg') ht
  have hs := static_fields e3.static
  refine ⟨t2, ⟨g2, grantAt_spec.2 e1, e2⟩, hs.2.1.trans hv, hs.1.trans hcl, fun n hn hn0 hend at' => ?_⟩
  have hexp : t2.expiresAt = w.now + n := by
    rw [hs.2.2.2.2.2.2.1, hnew.expiresAt, endOf_lifeTime hn, if_neg hn0]
  have hnb : t2.notBefore = 0 := by rw [hs.2.2.2.2.2.2.2, hnew.notBefore]
  unfold Token.isActive
  rw [isActive_clock_iff]
  constructor
  · intro h
    exact ⟨h.1, h.2.1, by simpa [Token.item, hexp] using h.2.2.2 (by simpa [Token.item, hexp] using hend)⟩
  · intro h
    exact ⟨h.1, h.2.1, by simp [Token.item, hnb], fun _ => by simpa [Token.item, hexp] using h.2.2⟩

/-- C23. With a positive life time `n` every token of a token response that may be used at all is active when it is handed
out and for `n` seconds. -/
theorem C23_handed_out_usable (E : Env) (w : World) (hw : Reachable E w) (op : WOp) (ref : Nat) (client v : String) (rf : Bool)
    (req : TokenReq) (resp : TokenResp) (hresp : (step E w op).log = w.log ++ [.token ref client rf v req resp])
    (c : TokenClass) (a : String) (ha : HandsOut resp c a) :
    ∃ g, GrantAt w ref g ∧ ∃ i t, TokenAt (step E w op) ref i t ∧ t.value = a ∧ t.cls = c ∧ t.revoked = false ∧ t.used = 0 ∧
      ∀ n, LifeTime g.usageRules c n → 0 < n → (∀ m, t.rules.maxUsage = some m → 0 < m) →
        ∀ at', w.now ≤ at' → at' ≤ w.now + n → t.isActive at' = true := by
  obtain ⟨g, hg, h1, _⟩ := handed_out hw hresp
  obtain ⟨i, t, ht, hv, hcl, hnew, _⟩ := h1 c a ha
  refine ⟨g, hg, i, t, ht, hv, hcl, hnew.revoked, hnew.used, fun n hn hpos hmax at' h2 h3 => ?_⟩
  have hexp : t.expiresAt = w.now + n := by
    rw [hnew.expiresAt, endOf_lifeTime hn, if_neg (by omega)]
  unfold Token.isActive
  rw [isActive_clock_iff]
  refine ⟨hnew.revoked, fun m hm => ?_, by simp [Token.item, hnew.notBefore], fun _ => by simpa [Token.item, hexp] using h3⟩
  have := hmax m hm
  simpa [Token.item, hnew.used] using this

/-- C23. Rules that say something, but nothing about the life time, or a life time of 0: the token does not expire. -/
theorem C23_without_lifetime (E : Env) (w : World) (hw : Reachable E w) (op : WOp) (ref : Nat) (client v : String) (rf : Bool)
    (req : TokenReq) (resp : TokenResp) (hresp : (step E w op).log = w.log ++ [.token ref client rf v req resp])
    (c : TokenClass) (a : String) (ha : HandsOut resp c a) :
    ∃ g, GrantAt w ref g ∧ ∃ i, ∀ ops, ∃ t, TokenAt (run E (step E w op) ops) ref i t ∧ t.value = a ∧ t.cls = c ∧
      (NoLifeTime g.usageRules c ∨ LifeTime g.usageRules c 0 →
        ∀ at', t.isActive at' = true ↔ t.revoked = false ∧ ∀ m, t.rules.maxUsage = some m → t.used < m) := by
  obtain ⟨g, hg, h1, _⟩ := handed_out hw hresp
  obtain ⟨i, t, ⟨g', hg', ht⟩, hv, hcl, hnew, _⟩ := h1 c a ha
  refine ⟨g, hg, i, fun ops => ?_⟩
  have hc := chain_run (reachable_run hw [op]) ops
  obtain ⟨g2, t2, e1, e2, e3⟩ := tokenAt_later hc (grantAt_spec.1 hg') ht
  have hs := static_fields e3.static
  refine ⟨t2, ⟨g2, grantAt_spec.2 e1, e2⟩, hs.2.1.trans hv, hs.1.trans hcl, fun hn at' => ?_⟩
  have hexp : t2.expiresAt = 0 := by
    rw [hs.2.2.2.2.2.2.1, hnew.expiresAt]
    rcases hn with h | h
    · exact endOf_noLifeTime h _
    · rw [endOf_lifeTime h, if_pos rfl]
  have hnb : t2.notBefore = 0 := by rw [hs.2.2.2.2.2.2.2, hnew.notBefore]
  unfold Token.isActive
  rw [isActive_clock_iff]
  exact ⟨fun h => ⟨h.1, h.2.1⟩, fun h => ⟨h.1, h.2, by simp [Token.item, hnb], by simp [Token.item, hexp]⟩⟩

/-- C23. The response tells the client the configured life time of the access token. -/
theorem C23_reported_lifetime (E : Env) (w : World) (hw : Reachable E w) (op : WOp) (ref : Nat) (client v : String) (rf : Bool)
    (req : TokenReq) (resp : TokenResp) (hresp : (step E w op).log = w.log ++ [.token ref client rf v req resp]) :
    ∃ g, GrantAt w ref g ∧ (∀ n, LifeTime g.usageRules .accessToken n → n ≠ 0 → w.now + n ≠ 0 → resp.expiresIn = some n) ∧
      (NoLifeTime g.usageRules .accessToken ∨ LifeTime g.usageRules .accessToken 0 → resp.expiresIn = none) := by
  obtain ⟨g, hg, _, h2⟩ := handed_out hw hresp
  refine ⟨g, hg, fun n hn hn0 hend => ?_, fun hn => ?_⟩
  · rw [h2]
    unfold leftOf
    rw [endOf_lifeTime hn, if_neg hn0, if_pos hend]
    congr 1
    omega
  · rw [h2]
    unfold leftOf
    rcases hn with h | h
    · rw [endOf_noLifeTime h]; rfl
    · rw [endOf_lifeTime h]; rfl

/-! ### Tokens of authorization responses -/

theorem rootEnd_says {g : Grant} {c : TokenClass} {n : Int} (h : SaysLifeTime g.usageRules c n) (clock : Int) :
    rootEnd clock (g.rulesFor c) = if n = 0 then 0 else clock + n := by
  obtain ⟨r, h1, h2⟩ := h
  rw [lookup_rulesFor] at h1
  unfold rootEnd
  simp only [h1, Option.getD_some, h2]

theorem rootEnd_silent {g : Grant} {c : TokenClass} (h : ∀ n, ¬ SaysLifeTime g.usageRules c n) (clock : Int) :
    rootEnd clock (g.rulesFor c) = 0 := by
  unfold rootEnd
  cases hr : g.rulesFor c with
  | none => rfl
  | some r =>
    simp only [Option.getD_some]
    cases he : r.expiresIn with
    | none => rfl
    | some n => exact absurd ⟨r, by rw [lookup_rulesFor, hr], he⟩ (h n)

theorem authz_handed_out {E : Env} {w : World} (hw : Reachable E w) {op : WOp} {ref : Nat} {client : String}
    {resp : AuthzResp} (hresp : (step E w op).log = w.log ++ [.authz ref client resp]) :
    ∃ g, GrantAt (step E w op) ref g ∧ (∀ c a, AuthzHandsOut resp c a → ∃ i t, TokenAt (step E w op) ref i t ∧ t.value = a ∧
      t.cls = c ∧ NewRoot w.now g c t ∧ ∃ k sid, w.n ≤ k ∧ k < (step E w op).n ∧ E.Made k c sid a) ∧
      (resp.accessToken ≠ none → resp.expiresIn = rootLeft w.now (g.rulesFor .accessToken)) := by
  obtain ⟨hc, hw', h3⟩ := step_spec (winv_reachable hw) (sidClosed_true E) op (fun _ _ _ => trivial)
  rcases h3 with h3 | ⟨e, h3, hne⟩
  · rw [hresp] at h3
    have := congrArg List.length h3
    simp at this
  · rw [hresp] at h3
    have he : e = .authz ref client resp := by simpa using h3.symm
    subst he
    rcases hne with ⟨sid, ref', client', x, he, _, hout⟩ | ⟨s, rf', v', req', r', a, he, _⟩
    · cases he
      obtain ⟨gs, hgs, hex, k1, k2, k3⟩ := hout.minted
      have key : ∀ {c : TokenClass} {x : String}, MintedRoot (minter E sid) w.now w.n c x gs →
          ∃ i t, TokenAt (step E w op) ref i t ∧ t.value = x ∧ t.cls = c ∧ NewRoot w.now gs.g c t ∧
            ∃ k sid, w.n ≤ k ∧ k < (step E w op).n ∧ E.Made k c sid x := by
        rintro c x ⟨⟨k, hk, hmk⟩, t, ht, h1, h2, -, h4⟩
        obtain ⟨i, hi'⟩ := List.getElem?_of_mem ht
        refine ⟨i, t, ⟨gs.g, grantAt_spec.2 hgs, hi'⟩, h1, h2, h4, ?_⟩
        exact made_between hw' (grantAt_spec.1 (grantAt_spec.2 hgs)) hi' h1 h2 hk (minter_ok hmk)
      refine ⟨gs.g, grantAt_spec.2 hgs, ?_, hex⟩
      rintro c x (⟨rfl, hx⟩ | ⟨rfl, hx⟩ | ⟨rfl, hx⟩)
      · exact key (k1 x hx)
      · exact key (k2 x hx)
      · exact key (k3 x hx)
    · cases he

/-- C23, authorization responses. Every code, access token and ID token of an authorization response is held by the grant, and
at every time in every later history it is active exactly as long as it is not revoked, not used up, and no more than the
configured life time has passed since the response; without a configured life time, or with 0, it does not expire (the default
of 1800 seconds is not applied here, oauth2/authorization.py:329-349). -/
theorem C23_authorization_lifetime (E : Env) (w : World) (hw : Reachable E w) (op : WOp) (ref : Nat) (client : String)
    (resp : AuthzResp) (hresp : (step E w op).log = w.log ++ [.authz ref client resp])
    (c : TokenClass) (a : String) (ha : AuthzHandsOut resp c a) :
    ∃ g, GrantAt (step E w op) ref g ∧ ∃ i, ∀ ops, ∃ t, TokenAt (run E (step E w op) ops) ref i t ∧ t.value = a ∧ t.cls = c ∧
      (∀ n, SaysLifeTime g.usageRules c n → n ≠ 0 → w.now + n ≠ 0 →
        ∀ at', t.isActive at' = true ↔
          t.revoked = false ∧ (∀ m, t.rules.maxUsage = some m → t.used < m) ∧ at' ≤ w.now + n) ∧
      ((∀ n, SaysLifeTime g.usageRules c n → n = 0) →
        ∀ at', t.isActive at' = true ↔ t.revoked = false ∧ ∀ m, t.rules.maxUsage = some m → t.used < m) := by
  obtain ⟨g, hg, h1, _⟩ := authz_handed_out hw hresp
  obtain ⟨i, t, ⟨g', hg', ht⟩, hv, hcl, hnew, _⟩ := h1 c a ha
  refine ⟨g, hg, i, fun ops => ?_⟩
  have hc := chain_run (reachable_run hw [op]) ops
  obtain ⟨g2, t2, e1, e2, e3⟩ := tokenAt_later hc (grantAt_spec.1 hg') ht
  have hs := static_fields e3.static
  have hnb : t2.notBefore = 0 := by rw [hs.2.2.2.2.2.2.2, hnew.notBefore]
  refine ⟨t2, ⟨g2, grantAt_spec.2 e1, e2⟩, hs.2.1.trans hv, hs.1.trans hcl, fun n hn hn0 hend at' => ?_, fun hn at' => ?_⟩
  · have hexp : t2.expiresAt = w.now + n := by
      rw [hs.2.2.2.2.2.2.1, hnew.expiresAt, rootEnd_says hn, if_neg hn0]
    unfold Token.isActive
    rw [isActive_clock_iff]
    constructor
    · intro h
      exact ⟨h.1, h.2.1, by simpa [Token.item, hexp] using h.2.2.2 (by simpa [Token.item, hexp] using hend)⟩
    · intro h
      exact ⟨h.1, h.2.1, by simp [Token.item, hnb], fun _ => by simpa [Token.item, hexp] using h.2.2⟩
  · have hexp : t2.expiresAt = 0 := by
      rw [hs.2.2.2.2.2.2.1, hnew.expiresAt]
      by_cases h : ∃ n, SaysLifeTime g.usageRules c n
      · obtain ⟨n, h⟩ := h
        rw [rootEnd_says h, if_pos (hn n h)]
      · exact rootEnd_silent (fun n hn => h ⟨n, hn⟩) _
    unfold Token.isActive
    rw [isActive_clock_iff]
    exact ⟨fun h => ⟨h.1, h.2.1⟩, fun h => ⟨h.1, h.2, by simp [Token.item, hnb], by simp [Token.item, hexp]⟩⟩

/-- C23. An authorization response tells the client the configured life time of the access token. -/
theorem C23_authorization_reported_lifetime (E : Env) (w : World) (hw : Reachable E w) (op : WOp) (ref : Nat) (client : String)
    (resp : AuthzResp) (hresp : (step E w op).log = w.log ++ [.authz ref client resp]) (ha : resp.accessToken ≠ none) :
    ∃ g, GrantAt (step E w op) ref g ∧
      (∀ n, SaysLifeTime g.usageRules .accessToken n → n ≠ 0 → w.now + n ≠ 0 → resp.expiresIn = some n) ∧
      ((∀ n, SaysLifeTime g.usageRules .accessToken n → n = 0) → resp.expiresIn = none) := by
  obtain ⟨g, hg, _, h2⟩ := authz_handed_out hw hresp
  refine ⟨g, hg, fun n hn hn0 hend => ?_, fun hn => ?_⟩
  · rw [h2 ha]
    unfold rootLeft
    rw [rootEnd_says hn, if_neg hn0, if_pos hend]
    congr 1
    omega
  · rw [h2 ha]
    unfold rootLeft
    by_cases h : ∃ n, SaysLifeTime g.usageRules .accessToken n
    · obtain ⟨n, h⟩ := h
      rw [rootEnd_says h, if_pos (hn n h)]; rfl
    · rw [rootEnd_silent (fun n hn => h ⟨n, hn⟩)]; rfl

namespace Ex

/-- The authorization response of `start`. -/
def startAuthz : AuthzResp :=
  { state := some "s", scope := some ["openid", "email", "offline_access"]
    code := some (E.mkVal 1 .authorizationCode (sid "c1" 0)) }

/-- C23: the authorization response of `start` has a code, and the rules of its grant give it 300 seconds. -/
example : ∃ x, (step E (run E init ((start "c1").take 1)) (.authorize (sid "c1" 0) (authzReq "c1"))).log =
      (run E init ((start "c1").take 1)).log ++ [.authz 2 "c1" x] ∧
    AuthzHandsOut x .authorizationCode (E.mkVal 1 .authorizationCode (sid "c1" 0)) ∧
    SaysLifeTime (((step E (run E init ((start "c1").take 1)) (.authorize (sid "c1" 0) (authzReq "c1"))).st.grantAt 2).getD
      {}).usageRules .authorizationCode 300 := by
  refine ⟨startAuthz, by decide +kernel, .inl ⟨rfl, rfl⟩, ⟨{ supportsMinting := some [.accessToken, .refreshToken, .idToken], expiresIn := some 300 }, by decide +kernel, rfl⟩⟩

end Ex

namespace Ex

/-- The usage rules of the default configuration, configure.py:49-62. -/
def defaultAuthz : AuthzCfg :=
  { usageRules := some
      [(.authorizationCode, { supportsMinting := some [.accessToken, .refreshToken, .idToken], maxUsage := some 1 }),
       (.accessToken, {}),
       (.refreshToken, { supportsMinting := some [.accessToken, .refreshToken], expiresIn := some (-1) })] }

def DE : Env := env cfg defaultAuthz (fun _ _ => none)

/-- A code exchange. -/
def defaultHistory : List WOp :=
  [.login "d" "c1" (authzReq "c1") event, .authorize (DE.encSid 0 ["d", "c1", DE.uuid 0]) (authzReq "c1"), .tick 5,
   .parse "c1" (codeReq (DE.mkVal 1 .authorizationCode (DE.encSid 0 ["d", "c1", DE.uuid 0])))]

/-- The response to the code in the history `start`. -/
def startResp (E : Env) (w : World) (op : WOp) : TokenResp :=
  match (step E w op).log.getLast? with
  | some (.token _ _ _ _ _ r) => r
  | _ => {}

end Ex

/-- C23 is false of the code: with the default configuration (configure.py:49-62, 245-258: `expires_in = -1`) the refresh
token of a token response is not active when it is handed out. -/
theorem C23_usable_refuted :
    ¬ (∀ (E : Env) (w : World), Reachable E w → ∀ (op : WOp) (ref : Nat) (client v : String) (rf : Bool) (req : TokenReq)
        (resp : TokenResp), (step E w op).log = w.log ++ [.token ref client rf v req resp] →
      ∀ (c : TokenClass) (a : String), HandsOut resp c a → ∀ i t, TokenAt (step E w op) ref i t → t.value = a →
        t.isActive (step E w op).now = true) := by
  intro h
  have := h Ex.DE (run Ex.DE Ex.init Ex.defaultHistory) ⟨1000, Ex.defaultHistory, rfl⟩ (.process 0 none) 2 "c1"
    (Ex.DE.mkVal 1 .authorizationCode (Ex.DE.encSid 0 ["d", "c1", Ex.DE.uuid 0])) false
    { Ex.codeReq (Ex.DE.mkVal 1 .authorizationCode (Ex.DE.encSid 0 ["d", "c1", Ex.DE.uuid 0])) with clientId := some "c1" }
    (Ex.startResp Ex.DE (run Ex.DE Ex.init Ex.defaultHistory) (.process 0 none)) (by decide +kernel)
    .refreshToken (Ex.DE.mkVal 3 .refreshToken (Ex.DE.encSid 0 ["d", "c1", Ex.DE.uuid 0])) (.inr (.inl ⟨rfl, by decide +kernel⟩)) 2
    ((((step Ex.DE (run Ex.DE Ex.init Ex.defaultHistory) (.process 0 none)).st.grantAt 2).getD {}).issuedToken.getD 2 default)
    ⟨((step Ex.DE (run Ex.DE Ex.init Ex.defaultHistory) (.process 0 none)).st.grantAt 2).getD {}, by decide +kernel, by decide +kernel⟩
    (by decide +kernel)
  revert this
  decide +kernel

namespace Ex

/-- C23: a response meets the hypotheses: the code exchange of `start`; access tokens of the grant live 600 seconds, ID tokens,
which have no rules, 1800. -/
example : (step E (run E init ((start "c1").take 4)) (.process 0 none)).log =
      (run E init ((start "c1").take 4)).log ++ [.token 2 "c1" false (E.mkVal 1 .authorizationCode (sid "c1" 0))
        { codeReq (E.mkVal 1 .authorizationCode (sid "c1" 0)) with clientId := some "c1" }
        (startResp E (run E init ((start "c1").take 4)) (.process 0 none))] ∧
    HandsOut (startResp E (run E init ((start "c1").take 4)) (.process 0 none)) .accessToken (E.mkVal 2 .accessToken (sid "c1" 0)) ∧
    LifeTime (((run E init ((start "c1").take 4)).st.grantAt 2).getD {}).usageRules .accessToken 600 ∧
    LifeTime (((run E init ((start "c1").take 4)).st.grantAt 2).getD {}).usageRules .idToken 1800 :=
  ⟨by decide +kernel, .inl ⟨rfl, by decide +kernel⟩, .inl ⟨{ expiresIn := some 600 }, by decide +kernel, rfl⟩,
    .inr ⟨.inl (by decide +kernel), rfl⟩⟩

/-- Rules without a life time. -/
example : NoLifeTime [(.accessToken, { maxUsage := some 3 })] .accessToken := ⟨{ maxUsage := some 3 }, rfl, by decide, rfl⟩

end Ex
end OidcOp
