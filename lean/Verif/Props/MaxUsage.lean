/-
C76: how often a code or refresh token can be exchanged.
-/
import Verif.Spec.MaxUsage
import Verif.Props.World
import Verif.Props.WorldExamples
import Verif.Props.LifeTime

namespace OidcOp
open Spec

/-- The responses given for a token are at most as many as its registered uses. -/
theorem responses_le_used (E : Env) (now : Int) (ops : List WOp) (v : String) :
    0 < (run E { now := now } ops).log.countP (isTokenResponse v) →
      ∃ r i t, TokenAt (run E { now := now } ops) r i t ∧ t.value = v ∧
        (run E { now := now } ops).log.countP (isTokenResponse v) ≤ t.used ∧
        ∀ m, t.rules.maxUsage = some m → (run E { now := now } ops).log.countP (isTokenResponse v) ≤ m := by
  let P : Nat → Core → Prop := fun k c => ∃ r g i t, c.st.grantAt r = some g ∧ g.issuedToken[(i : Nat)]? = some t ∧
    t.value = v ∧ k ≤ t.used ∧ ∀ m, t.rules.maxUsage = some m → k ≤ m
  have main : ∀ (ops : List WOp) (w : World), WInv E (fun _ => True) w →
      (0 < w.log.countP (isTokenResponse v) → P (w.log.countP (isTokenResponse v)) w.core) →
      (0 < (run E w ops).log.countP (isTokenResponse v) →
        P ((run E w ops).log.countP (isTokenResponse v)) (run E w ops).core) := by
    intro ops
    induction ops with
    | nil => intro w _ h; exact h
    | cons op rest ih =>
      intro w hw hP
      obtain ⟨hc, hw', h3⟩ := step_spec hw (sidClosed_true E) op (fun _ _ _ => trivial)
      have mono : ∀ k, P k w.core → P k (step E w op).core := by
        rintro k ⟨r, g, i, t, h1, h2, h3, h4, h5⟩
        obtain ⟨g'', t'', h6, h7, h8⟩ := tokenAt_later hc h1 h2
        have hf := static_fields h8.static
        exact ⟨r, g'', i, t'', h6, h7, hf.2.1.trans h3, Nat.le_trans h4 h8.used, by rw [hf.2.2.2.1]; exact h5⟩
      apply ih (step E w op) hw'
      intro hpos
      rcases h3 with h3 | ⟨e, h3, hne⟩
      · rw [h3] at hpos ⊢; exact mono _ (hP hpos)
      · rw [h3, List.countP_append, List.countP_singleton] at hpos ⊢
        by_cases he : isTokenResponse v e = true
        · rw [if_pos he]
          rcases hne with ⟨_, _, _, _, h, _⟩ | ⟨s, rf, v', req, r', a, he', hp, ha, hout⟩
          · subst h; cases he
          · subst he'
            simp only [isTokenResponse, decide_eq_true_eq] at he
            subst he
            have hf := tokFacts hw (sidClosed_true E) hc hp ha hout
            obtain ⟨j, b, b', g2, y1, y2, y3, y4, y5, y6, y7, y8, _⟩ := hf.base
            have hs := static_fields y7.static
            have hle : w.log.countP (isTokenResponse v') ≤ b.used := by
              by_cases h0 : w.log.countP (isTokenResponse v') = 0
              · omega
              · obtain ⟨r, g, i, t, x1, x2, x3, x4, _⟩ := hP (by omega)
                obtain ⟨e1, e2⟩ := hw.core.uniq _ _ _ _ _ _ _ _ x1 hf.before x2 y1 (x3.trans y2.symm)
                subst e1 e2
                have := hf.before
                rw [x1] at this
                cases this
                rw [x2] at y1
                cases y1
                exact x4
            refine ⟨_, g2, j, b', y5, y6, hs.2.1.trans y2, by omega, fun m hm => ?_⟩
            rw [hs.2.2.2.1] at hm
            have := y4.2.1 m hm
            simp only [Token.item] at this
            omega
        · rw [if_neg he] at hpos ⊢
          exact mono _ (hP (by simpa using hpos))
  intro hpos
  obtain ⟨r, g, i, t, h1, h2, h3, h4, h5⟩ := main ops _ (winv_init E _ now) (by simp) hpos
  exact ⟨r, i, t, ⟨g, grantAt_spec.2 h1, h2⟩, h3, h4, h5⟩

/-- C76. In every history, whatever the interleaving of token requests and whatever minting fails, a code or refresh token
with a `max_usage` of `m` gets at most `m` token responses. -/
theorem C76_at_most_max_usage_responses (E : Env) (now : Int) (ops : List WOp) (r i : Nat) (t : Token)
    (ht : TokenAt (run E { now := now } ops) r i t) (m : Int) (hm : t.rules.maxUsage = some m) :
    (run E { now := now } ops).log.countP (isTokenResponse t.value) ≤ m.toNat := by
  by_cases h0 : (run E { now := now } ops).log.countP (isTokenResponse t.value) = 0
  · omega
  · obtain ⟨r', i', t', ⟨g', hg', hi'⟩, hv, _, hmax⟩ := responses_le_used E now ops t.value (by omega)
    obtain ⟨g, hg, hi⟩ := ht
    have hw := winv_reachable (E := E) (w := run E { now := now } ops) ⟨now, ops, rfl⟩
    obtain ⟨e1, e2⟩ := hw.core.uniq _ _ _ _ _ _ _ _ (grantAt_spec.1 hg) (grantAt_spec.1 hg') hi hi' hv.symm
    subst e1 e2
    have := grantAt_spec.1 hg'
    rw [grantAt_spec.1 hg] at this
    cases this
    rw [hi] at hi'
    cases hi'
    have := hmax m hm
    omega

/-- C76. Tokens minted at the token endpoint carry the `max_usage` of the grant's rules for their class. -/
theorem C76_minted_max_usage (mk : Minter) (clock : Int) (c : TokenClass) (b : Option Token) (scope : Option (List String))
    (tt : String) (s s' : GS) (t : Token) (hm : mintEP mk clock c b scope tt s = (.ok t, s')) (hc : c ≠ .authorizationCode)
    (r : UsageRules) (hr : s.g.usageRules.lookup c = some r) : t.rules.maxUsage = r.maxUsage := by
  rw [lookup_rulesFor] at hr
  unfold mintEP at hm
  simp only [] at hm
  split at hm
  · simp at hm
  · simp at hm
  · rename_i t0 g' h
    obtain ⟨-, -, -, ⟨v, sc, ty, -, -, h6⟩, h7⟩ := mintToken_some h
    have ht0 : t0.rules.maxUsage = r.maxUsage := by
      rw [h6, hr]
      simp only [newToken, Option.or_self, Option.getD_some]
      cases c <;> first | rfl | exact absurd rfl hc
    have : (withExpiry clock (expIn (s.g.rulesFor c)) t0).rules = t0.rules := by
      unfold withExpiry; split <;> (try split) <;> rfl
    simp only [Prod.mk.injEq, Except.ok.injEq] at hm
    rw [← hm.1, this, ht0]

/-- C76. A refresh token that comes with a refresh has the `max_usage` of the one that was presented. -/
theorem C76_refreshed_max_usage (mk : Minter) (clock : Int) (tok : Token) (scope : List String) (s s' : GS) (v : String)
    (hm : mintRefresh mk clock tok scope true s = (.ok (some v), s')) :
    ∃ t, s'.g.issuedToken.getLast? = some t ∧ t.value = v ∧ t.cls = .refreshToken ∧ t.rules.maxUsage = tok.rules.maxUsage := by
  unfold mintRefresh mintEP at hm
  simp only [if_true] at hm
  cases h : s.g.mintToken clock .refreshToken (some tok) (s.g.rulesFor .refreshToken) (some scope) "" (mk s.n .refreshToken) with
  | mk x g' =>
    rw [h] at hm
    cases x with
    | error e => simp at hm
    | ok o =>
      cases o with
      | none => simp at hm
      | some t0 =>
        obtain ⟨-, -, -, ⟨v', sc, ty, -, -, h6⟩, h7⟩ := mintToken_some h
        have h8 : t0.expiresAt = 0 := by rw [h6]; rfl
        have hc : t0.cls = .refreshToken := by rw [h6]; rfl
        simp only [withExpiry_eq h8, h7, updateLast_append, Prod.mk.injEq, Except.ok.injEq, Option.some.injEq] at hm
        obtain ⟨hv, hs⟩ := hm
        rw [← hs]
        simp only [Grant.updateLast]
        exact ⟨{ { t0 with expiresAt := endOf clock (s.g.rulesFor .refreshToken) } with rules := tok.rules }, by simp, hv, hc, rfl⟩

end OidcOp

namespace OidcOp.Ex
open OidcOp Spec

/-- Refresh tokens may be used twice. -/
def twice : AuthzCfg :=
  { usageRules := some
      [(.authorizationCode, { supportsMinting := some [.accessToken, .refreshToken], expiresIn := some 300 }),
       (.refreshToken, { supportsMinting := some [.accessToken], maxUsage := some 2, expiresIn := some 86400 })] }

def E2 : Env := env cfg twice (fun _ _ => none)

/-- Three refresh requests are parsed before the first is processed. -/
def thrice : List WOp :=
  let r := refreshReq (E2.mkVal 3 .refreshToken (sid "c1" 0)) none
  start "c1" ++ [.parse "c1" r, .parse "c1" r, .parse "c1" r, .process 1 none, .process 2 none, .process 3 none]

/-- C76: the first two are answered, the third is not. -/
example : (∃ t, TokenAt (run E2 init thrice) 2 2 t ∧ t.rules.maxUsage = some 2 ∧ t.used = 2 ∧
      t.value = E2.mkVal 3 .refreshToken (sid "c1" 0)) ∧
    (run E2 init thrice).pool.length = 4 ∧
    (run E2 init thrice).log.countP (isTokenResponse (E2.mkVal 3 .refreshToken (sid "c1" 0))) = 2 := by
  refine ⟨?_, by decide +kernel, by decide +kernel⟩
  let g := ((run E2 init thrice).st.grantAt 2).getD {}
  exact ⟨(g.issuedToken[2]?).getD default, ⟨g, by decide +kernel, by decide +kernel⟩, by decide +kernel, by decide +kernel,
    by decide +kernel⟩

end OidcOp.Ex
