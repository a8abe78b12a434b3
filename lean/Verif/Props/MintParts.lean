/-
C131: a revocation while tokens are being minted.
-/
import Verif.Model.MintParts
import Verif.Props.Token
import Verif.Lemmas.Micro

namespace OidcOp
open Spec

/-- C131: without another thread in between the two parts are `mint_token`. -/
theorem C131_alone (g : Grant) (clock : Int) (c : TokenClass) (b : Option Token) (rules : Option UsageRules)
    (scope : Option (List String)) (tt : String) (handler : Except Exc String) :
    g.mintToken clock c b rules scope tt handler =
      (g.mintPrepare clock c b rules scope tt handler,
        match g.mintPrepare clock c b rules scope tt handler with
        | .ok (some t) => g.mintAppend t
        | _ => g) := by
  unfold Grant.mintToken Grant.mintPrepare Grant.mintAppend
  by_cases hg : g.isActive clock = false
  · simp [hg]
  · by_cases hk : c.known = false
    · cases b with
      | none => simp [hg, hk]
      | some p => by_cases h1 : p.supportsMintingOf c = false <;> by_cases h2 : p.isActive clock = false <;> simp [hg, hk, h1, h2]
    · cases b with
      | none => cases scope <;> cases handler <;> simp [hg, hk]
      | some p =>
        by_cases h1 : p.supportsMintingOf c = false
        · simp [hg, h1]
        · by_cases h2 : p.isActive clock = false
          · simp [hg, h1, h2]
          · cases scope with
            | some sc => cases handler <;> simp [hg, hk, h1, h2]
            | none => cases h3 : g.findScopeTok p <;> cases handler <;> simp [hg, hk, h1, h2, h3]

/-- What is prepared has the value made for it, and is based on the token given, which is active. -/
theorem mintPrepare_ok {g : Grant} {clock : Int} {c : TokenClass} {b : Option Token} {rules : Option UsageRules}
    {scope : Option (List String)} {tt v : String} {t : Token}
    (h : g.mintPrepare clock c b rules scope tt (.ok v) = .ok (some t)) :
    t.value = v ∧ t.basedOn = b.map Token.value ∧ ∀ p, b = some p → p.isActive clock = true := by
  unfold Grant.mintPrepare at h
  split at h
  · cases h
  · simp only [] at h
    split at h
    · cases h
    · rename_i ref href
      split at h
      · cases h
      · split at h
        · cases h
        · simp only [Except.ok.injEq, Option.some.injEq] at h
          subst h
          cases b with
          | none => simp at href; exact ⟨rfl, by simp [newToken, ← href], by simp⟩
          | some p =>
            simp only [] at href
            split at href
            · cases href
            · split at href
              · cases href
              · rename_i ha
                simp only [Except.ok.injEq] at href
                refine ⟨rfl, by simp [newToken, ← href], ?_⟩
                rintro q hq
                cases hq
                simpa using ha

/-- `ts'` has the tokens of `ts`: same values, bases and rules, what is revoked stays so, and uses are not taken back. -/
def KeptTokens (ts ts' : List Token) : Prop :=
  ts'.length = ts.length ∧ ∀ (i : Nat) (t : Token), ts[i]? = some t →
    ∃ t', ts'[i]? = some t' ∧ t'.value = t.value ∧ t'.basedOn = t.basedOn ∧ (t.revoked = true → t'.revoked = true) ∧
      t'.rules = t.rules ∧ t.used ≤ t'.used

theorem KeptTokens.back {ts ts' : List Token} (h : KeptTokens ts ts') {i : Nat} {t' : Token} (ht : ts'[i]? = some t') :
    ∃ t, ts[i]? = some t ∧ t'.value = t.value ∧ t'.basedOn = t.basedOn ∧ (t.revoked = true → t'.revoked = true) ∧
      t'.rules = t.rules ∧ t.used ≤ t'.used := by
  have hlt : i < ts.length := h.1 ▸ (List.getElem?_eq_some_iff.1 ht).1
  obtain ⟨t2, h1, h2⟩ := h.2 i _ (List.getElem?_eq_getElem hlt)
  rw [ht] at h1
  cases h1
  exact ⟨_, List.getElem?_eq_getElem hlt, h2⟩

theorem KeptTokens.values {ts ts' : List Token} (h : KeptTokens ts ts') : ts'.map Token.value = ts.map Token.value := by
  apply List.ext_getElem?
  intro i
  simp only [List.getElem?_map]
  cases ht : ts[i]? with
  | none =>
    have hl := h.1
    have : ts'[i]? = none := by
      rw [List.getElem?_eq_none_iff] at ht ⊢
      omega
    simp [this]
  | some t =>
    obtain ⟨t', h1, h2, _⟩ := h.2 i t ht
    simp [h1, h2]

theorem kept_use (v : String) (ts : List Token) : KeptTokens ts (modifyFirst v Token.registerUsage ts) := by
  induction ts with
  | nil => exact ⟨rfl, by simp⟩
  | cons x r ih =>
    unfold modifyFirst
    split
    · refine ⟨by simp, fun i t ht => ?_⟩
      cases i with
      | zero =>
        simp at ht
        subst ht
        exact ⟨x.registerUsage, rfl, rfl, rfl, id, rfl, Nat.le_succ _⟩
      | succ i => exact ⟨t, by simpa using ht, rfl, rfl, id, rfl, Nat.le_refl _⟩
    · refine ⟨by simp [ih.1], fun i t ht => ?_⟩
      cases i with
      | zero =>
        simp at ht
        subst ht
        exact ⟨_, by simp, rfl, rfl, id, rfl, Nat.le_refl _⟩
      | succ i => simpa using ih.2 i t (by simpa using ht)

theorem kept_revoke {g g' : Grant} {v b : String} {r : Bool} (h : g.revokeToken v b r = .ok g') :
    KeptTokens g.issuedToken g'.issuedToken := by
  unfold Grant.revokeToken at h
  split at h
  · rename_i ts hts
    cases h
    obtain ⟨h1, h2⟩ := revokeTokensFuel_revMono _ _ _ _ _ _ hts
    refine ⟨h1, fun i t ht => ?_⟩
    obtain ⟨r', h3, h4⟩ := h2 i t ht
    exact ⟨_, h3, rfl, rfl, h4, rfl, Nat.le_refl _⟩
  · cases h

/-- What a step does: it keeps the tokens, prepares one, or appends one that was prepared. -/
theorem mstep_cases (mk : Nat → String) (m : MWorld) (op : MOp) :
    (KeptTokens m.g.issuedToken (mstep mk m op).g.issuedToken ∧ (mstep mk m op).waiting = m.waiting ∧ m.n ≤ (mstep mk m op).n) ∨
    (∃ t, (mstep mk m op) = { m with n := m.n + 1, waiting := m.waiting ++ [t] } ∧ t.value = mk m.n ∧
      (t.basedOn = none ∨ ∃ p ∈ m.g.issuedToken, t.basedOn = some p.value ∧ p.isActive m.now = true)) ∨
    (∃ j t, m.waiting[j]? = some t ∧ mstep mk m op = { m with g := m.g.mintAppend t, waiting := m.waiting.eraseIdx j }) := by
  have keep : KeptTokens m.g.issuedToken m.g.issuedToken := ⟨rfl, fun _ t h => ⟨t, h, rfl, rfl, id, rfl, Nat.le_refl _⟩⟩
  cases op with
  | prepare c base rules scope tt =>
    cases base with
    | none =>
      unfold mstep
      simp only []
      split
      · rename_i t ht
        obtain ⟨h1, h2, _⟩ := mintPrepare_ok ht
        exact .inr (.inl ⟨t, rfl, h1, .inl (by simpa using h2)⟩)
      · exact .inl ⟨keep, rfl, Nat.le_succ _⟩
    | some v =>
      unfold mstep
      simp only []
      split
      · exact .inl ⟨keep, rfl, Nat.le_refl _⟩
      · rename_i b hb
        split
        · rename_i t ht
          obtain ⟨h1, h2, h3⟩ := mintPrepare_ok ht
          exact .inr (.inl ⟨t, rfl, h1, .inr ⟨b, List.mem_of_find?_eq_some hb, by simpa using h2, h3 b rfl⟩⟩)
        · exact .inl ⟨keep, rfl, Nat.le_succ _⟩
  | append j =>
    unfold mstep
    simp only []
    split
    · exact .inl ⟨keep, rfl, Nat.le_refl _⟩
    · rename_i t ht
      exact .inr (.inr ⟨j, t, ht, rfl⟩)
  | use v => exact .inl ⟨kept_use v _, rfl, Nat.le_refl _⟩
  | revoke v b r =>
    unfold mstep
    simp only []
    split
    · rename_i g' hg
      exact .inl ⟨kept_revoke hg, rfl, Nat.le_refl _⟩
    · exact .inl ⟨keep, rfl, Nat.le_refl _⟩
  | tick d => exact .inl ⟨keep, rfl, Nat.le_refl _⟩

/-- Invariant: values are made by `mk`, no two are the same, and bases are in the grant. -/
structure MInv (mk : Nat → String) (m : MWorld) : Prop where
  made : ∀ x ∈ m.g.issuedToken.map Token.value ++ m.waiting.map Token.value, ∃ k, k < m.n ∧ x = mk k
  distinct : (m.g.issuedToken.map Token.value ++ m.waiting.map Token.value).Nodup
  earlier : ∀ (i : Nat) (t : Token) (v : String), m.g.issuedToken[i]? = some t → t.basedOn = some v →
    ∃ (j : Nat) (p : Token), j < i ∧ m.g.issuedToken[j]? = some p ∧ p.value = v
  base : ∀ t ∈ m.waiting, ∀ v, t.basedOn = some v → ∃ p ∈ m.g.issuedToken, p.value = v

theorem minv_step {mk : Nat → String} (hmk : ∀ i j, mk i = mk j → i = j) {m : MWorld} (h : MInv mk m) (op : MOp) :
    MInv mk (mstep mk m op) := by
  rcases mstep_cases mk m op with ⟨hk, hw, hn⟩ | ⟨t, e, hv, hb⟩ | ⟨j, t, hj, e⟩
  · refine ⟨?_, ?_, ?_, ?_⟩
    · rw [hk.values, hw]
      intro x hx
      obtain ⟨k, h1, h2⟩ := h.made x hx
      exact ⟨k, by omega, h2⟩
    · rw [hk.values, hw]; exact h.distinct
    · intro i t v ht hv
      obtain ⟨t0, h1, h2, h3, _⟩ := hk.back ht
      obtain ⟨j, p, h4, h5, h6⟩ := h.earlier i t0 v h1 (h3 ▸ hv)
      obtain ⟨p', h7, h8, _⟩ := hk.2 j p h5
      exact ⟨j, p', h4, h7, h8.trans h6⟩
    · rw [hw]
      intro t ht v hv
      obtain ⟨p, hp, h1⟩ := h.base t ht v hv
      obtain ⟨k, hk'⟩ := List.getElem?_of_mem hp
      obtain ⟨p', h2, h3, _⟩ := hk.2 k p hk'
      exact ⟨p', List.mem_of_getElem? h2, h3.trans h1⟩
  · rw [e]
    refine ⟨?_, ?_, h.earlier, ?_⟩
    · intro x hx
      simp only [List.map_append, List.map_cons, List.map_nil, ← List.append_assoc, List.mem_append, List.mem_singleton] at hx
      rcases hx with hx | rfl
      · obtain ⟨k, h1, h2⟩ := h.made x (List.mem_append.2 hx)
        exact ⟨k, Nat.lt_succ_of_lt h1, h2⟩
      · exact ⟨m.n, Nat.lt_succ_self _, hv⟩
    · simp only [List.map_append, List.map_cons, List.map_nil, ← List.append_assoc]
      rw [List.nodup_append]
      refine ⟨h.distinct, by simp, ?_⟩
      intro a ha b hb' hab
      simp only [List.mem_singleton] at hb'
      obtain ⟨k, h1, h2⟩ := h.made a ha
      have := hmk k m.n (by rw [← h2, hab, hb', hv])
      omega
    · intro t' ht' v hv'
      rcases List.mem_append.1 ht' with ht' | ht'
      · exact h.base t' ht' v hv'
      · simp only [List.mem_singleton] at ht'
        subst ht'
        rcases hb with hb | ⟨p, hp, hb, _⟩
        · rw [hb] at hv'; cases hv'
        · rw [hb] at hv'; exact ⟨p, hp, Option.some.inj hv'⟩
  · rw [e]
    have hperm : ((m.g.issuedToken ++ [t]).map Token.value ++ (m.waiting.eraseIdx j).map Token.value).Perm
        (m.g.issuedToken.map Token.value ++ m.waiting.map Token.value) := by
      have hlt := (List.getElem?_eq_some_iff.1 hj).1
      have h1 : (t :: m.waiting.eraseIdx j).Perm m.waiting := by
        have h2 : m.waiting = m.waiting.take j ++ t :: m.waiting.drop (j + 1) := by
          rw [← (List.getElem?_eq_some_iff.1 hj).2, List.getElem_cons_drop, List.take_append_drop]
        rw [List.eraseIdx_eq_take_drop_succ]
        conv => rhs; rw [h2]
        exact List.perm_middle.symm
      simpa using (h1.map Token.value).append_left (m.g.issuedToken.map Token.value)
    refine ⟨fun x hx => h.made x (hperm.mem_iff.1 hx), hperm.nodup_iff.2 h.distinct, ?_, ?_⟩
    · intro i t' v ht' hv
      simp only [Grant.mintAppend] at ht' ⊢
      by_cases hi : i < m.g.issuedToken.length
      · rw [List.getElem?_append_left hi] at ht'
        obtain ⟨k, p, h1, h2, h3⟩ := h.earlier i t' v ht' hv
        exact ⟨k, p, h1, by rw [List.getElem?_append_left (by omega)]; exact h2, h3⟩
      · have hlt := (List.getElem?_eq_some_iff.1 ht').1
        simp only [List.length_append, List.length_singleton] at hlt
        rw [List.getElem?_append_right (Nat.le_of_not_lt hi), show i - m.g.issuedToken.length = 0 by omega] at ht'
        simp at ht'
        subst ht'
        obtain ⟨p, hp, h1⟩ := h.base t (List.mem_of_getElem? hj) v hv
        obtain ⟨k, hk⟩ := List.getElem?_of_mem hp
        have hkl := (List.getElem?_eq_some_iff.1 hk).1
        exact ⟨k, p, by omega, by rw [List.getElem?_append_left hkl]; exact hk, h1⟩
    · intro t' ht' v hv
      obtain ⟨p, hp, h1⟩ := h.base t' (List.mem_of_mem_eraseIdx ht') v hv
      exact ⟨p, List.mem_append_left _ hp, h1⟩

theorem minv_run {mk : Nat → String} (hmk : ∀ i j, mk i = mk j → i = j) {m : MWorld} (h : MInv mk m) (ops : List MOp) :
    MInv mk (mrun mk m ops) := by
  induction ops generalizing m with
  | nil => exact h
  | cons op rest ih => exact ih (minv_step hmk h op)

theorem minv_init (mk : Nat → String) (g : Grant) (hg : g.issuedToken = []) (now : Int) : MInv mk { g := g, now := now } :=
  ⟨by simp [hg], by simp [hg], by simp [hg], by simp⟩

/-- The values in `D` are dead and those in `V` mint nothing: the tokens of `D` are revoked, those of `V` are revoked or used up, what is
based on either is in `D`, and no thread is about to append a token based on one. -/
structure Dead (mk : Nat → String) (D V : String → Prop) (m : MWorld) : Prop where
  revoked : ∀ t ∈ m.g.issuedToken, D t.value → t.revoked = true
  stuck : ∀ t ∈ m.g.issuedToken, V t.value → t.revoked = true ∨ (t.rules.maxUsage = some 1 ∧ 1 ≤ t.used)
  closed : ∀ t ∈ m.g.issuedToken, ∀ u, t.basedOn = some u → D u ∨ V u → D t.value
  wait : ∀ t ∈ m.waiting, ¬ (D t.value ∨ V t.value) ∧ ∀ u, t.basedOn = some u → ¬ (D u ∨ V u)
  later : ∀ k, m.n ≤ k → ¬ (D (mk k) ∨ V (mk k))

theorem dead_step {mk : Nat → String} {D V : String → Prop} {m : MWorld} (h : Dead mk D V m) (op : MOp) :
    Dead mk D V (mstep mk m op) := by
  rcases mstep_cases mk m op with ⟨hk, hw, hn⟩ | ⟨t, e, hv, hb⟩ | ⟨j, t, hj, e⟩
  · refine ⟨fun t ht hd => ?_, fun t ht hd => ?_, fun t ht u hu hd => ?_, hw ▸ h.wait, fun k hk' => h.later k (by omega)⟩
    · obtain ⟨i, hi⟩ := List.getElem?_of_mem ht
      obtain ⟨t0, h1, h2, _, h4, _⟩ := hk.back hi
      exact h4 (h.revoked t0 (List.mem_of_getElem? h1) (h2 ▸ hd))
    · obtain ⟨i, hi⟩ := List.getElem?_of_mem ht
      obtain ⟨t0, h1, h2, _, h4, h5, h6⟩ := hk.back hi
      rcases h.stuck t0 (List.mem_of_getElem? h1) (h2 ▸ hd) with h7 | ⟨h7, h8⟩
      · exact .inl (h4 h7)
      · exact .inr ⟨h5 ▸ h7, Nat.le_trans h8 h6⟩
    · obtain ⟨i, hi⟩ := List.getElem?_of_mem ht
      obtain ⟨t0, h1, h2, h3, _⟩ := hk.back hi
      rw [h2]
      exact h.closed t0 (List.mem_of_getElem? h1) u (h3 ▸ hu) hd
  · rw [e]
    refine ⟨h.revoked, h.stuck, h.closed, fun t' ht' => ?_, fun k hk => h.later k (Nat.le_of_succ_le hk)⟩
    rcases List.mem_append.1 ht' with ht' | ht'
    · exact h.wait t' ht'
    · simp only [List.mem_singleton] at ht'
      subst ht'
      refine ⟨hv ▸ h.later m.n (Nat.le_refl _), fun u hu hd => ?_⟩
      rcases hb with hb | ⟨p, hp, hb, ha⟩
      · rw [hb] at hu; cases hu
      · rw [hb] at hu
        cases hu
        have hact := (isActive_iff _ _ _).1 ha
        have hs : p.revoked = true ∨ (p.rules.maxUsage = some 1 ∧ 1 ≤ p.used) :=
          hd.elim (fun hd => .inl (h.revoked p hp hd)) (h.stuck p hp)
        rcases hs with hr | ⟨h1, h2⟩
        · have := hact.1
          simp [Token.item, hr] at this
        · have := hact.2.1 1 h1
          simp [Token.item] at this
          omega
  · rw [e]
    have hw := h.wait t (List.mem_of_getElem? hj)
    refine ⟨fun t' ht' hd => ?_, fun t' ht' hd => ?_, fun t' ht' u hu hd => ?_,
      fun t' ht' => h.wait t' (List.mem_of_mem_eraseIdx ht'), h.later⟩
    · rcases List.mem_append.1 ht' with ht' | ht'
      · exact h.revoked t' ht' hd
      · simp only [List.mem_singleton] at ht'
        exact absurd (.inl (ht' ▸ hd)) hw.1
    · rcases List.mem_append.1 ht' with ht' | ht'
      · exact h.stuck t' ht' hd
      · simp only [List.mem_singleton] at ht'
        exact absurd (.inr (ht' ▸ hd)) hw.1
    · rcases List.mem_append.1 ht' with ht' | ht'
      · exact h.closed t' ht' u hu hd
      · simp only [List.mem_singleton] at ht'
        exact absurd hd (hw.2 u (ht' ▸ hu))

theorem dead_run {mk : Nat → String} {D V : String → Prop} {m : MWorld} (h : Dead mk D V m) (ops : List MOp) :
    Dead mk D V (mrun mk m ops) := by
  induction ops generalizing m with
  | nil => exact h
  | cons op rest ih => exact ih (dead_step h op)

theorem dead_derived {mk : Nat → String} {D V : String → Prop} {m : MWorld} (h : Dead mk D V m) {v : String} (hv : D v ∨ V v) {i : Nat}
    (hd : DerivedFrom m.g.issuedToken v i) : ∀ t, m.g.issuedToken[i]? = some t → D t.value := by
  induction hd with
  | child h4 h5 =>
    intro t h6
    rw [h4] at h6
    cases h6
    exact h.closed _ (List.mem_of_getElem? h4) v h5 hv
  | step _ h4 h5 h6 ih =>
    intro t h7
    rw [h5] at h7
    cases h7
    exact h.closed _ (List.mem_of_getElem? h5) _ h6 (.inl (ih _ h4))

theorem dead_revoked {mk : Nat → String} (hmk : ∀ i j, mk i = mk j → i = j) {m : MWorld} (hi : MInv mk m) {v : String}
    (hin : ∃ t ∈ m.g.issuedToken, t.value = v)
    (hwait : ∀ t ∈ m.waiting, ∀ u, t.basedOn = some u → u ≠ v ∧
      ∀ (i : Nat) (p : Token), DerivedFrom m.g.issuedToken v i → m.g.issuedToken[i]? = some p → p.value ≠ u)
    {S : Nat → Prop} {ts : List Token} (hts : RevokedExactly S m.g.issuedToken ts) (hS : ∀ i, DerivedFrom m.g.issuedToken v i → S i)
    (C : Prop) (hC : C → ∀ t ∈ ts, t.value = v → t.revoked = true)
    (hV : ∀ t ∈ ts, t.value = v → t.revoked = true ∨ (t.rules.maxUsage = some 1 ∧ 1 ≤ t.used)) :
    Dead mk (fun x => (C ∧ x = v) ∨ ∃ i p, DerivedFrom m.g.issuedToken v i ∧ m.g.issuedToken[i]? = some p ∧ p.value = x)
      (fun x => x = v) { m with g := { m.g with issuedToken := ts } } := by
  obtain ⟨h2, h3⟩ := hts
  obtain ⟨tv, htv, hv⟩ := hin
  have same : ∀ {i j : Nat} {a b : Token}, m.g.issuedToken[i]? = some a → m.g.issuedToken[j]? = some b → a.value = b.value → i = j := by
    intro i j a b ha hb hab
    have hil := (List.getElem?_eq_some_iff.1 ha).1
    refine (List.getElem?_inj (by simpa using hil) (List.nodup_append.1 hi.distinct).1).1 ?_
    simp [List.getElem?_map, ha, hb, hab]
  have back : ∀ {i : Nat} {t : Token}, ts[i]? = some t → ∃ t0, m.g.issuedToken[i]? = some t0 ∧ t.value = t0.value ∧
      t.basedOn = t0.basedOn ∧ (DerivedFrom m.g.issuedToken v i → t.revoked = true) := by
    intro i t hti
    have hlt : i < m.g.issuedToken.length := h2 ▸ (List.getElem?_eq_some_iff.1 hti).1
    have h0 := List.getElem?_eq_getElem hlt
    obtain ⟨r, h4, h5⟩ := h3 i _ h0
    rw [hti] at h4
    cases h4
    exact ⟨_, h0, rfl, rfl, fun hd => h5.2 (.inr (hS i hd))⟩
  have hDin : ∀ x, (((C ∧ x = v) ∨ ∃ i p, DerivedFrom m.g.issuedToken v i ∧ m.g.issuedToken[i]? = some p ∧ p.value = x) ∨ x = v) →
      ∃ p ∈ m.g.issuedToken, p.value = x := by
    rintro x ((⟨_, rfl⟩ | ⟨i, p, _, h4, h5⟩) | rfl)
    · exact ⟨tv, htv, hv⟩
    · exact ⟨p, List.mem_of_getElem? h4, h5⟩
    · exact ⟨tv, htv, hv⟩
  refine ⟨fun t ht hd => ?_, hV, fun t ht u hu hd => ?_, fun t ht => ⟨fun hd => ?_, fun u hu hd => ?_⟩, fun k hk hd => ?_⟩
  · rcases hd with ⟨hc, hd⟩ | ⟨j, p, h8, h9, h10⟩
    · exact hC hc t ht hd
    · obtain ⟨i, hi'⟩ := List.getElem?_of_mem ht
      obtain ⟨t0, h4, h5, _, h7⟩ := back hi'
      exact h7 (same h9 h4 (h10.trans h5) ▸ h8)
  · obtain ⟨i, hi'⟩ := List.getElem?_of_mem ht
    obtain ⟨t0, h4, h5, h6, _⟩ := back hi'
    right
    rcases hd with (⟨_, hd⟩ | ⟨j, p, h8, h9, h10⟩) | hd
    · exact ⟨i, t0, .child h4 (by rw [← h6, hu, hd]), h4, h5.symm⟩
    · exact ⟨i, t0, .step h8 h9 h4 (by rw [← h6, hu, h10]), h4, h5.symm⟩
    · exact ⟨i, t0, .child h4 (by rw [← h6, hu, hd]), h4, h5.symm⟩
  · obtain ⟨p, hp, h4⟩ := hDin _ hd
    exact (List.nodup_append.1 hi.distinct).2.2 _ (List.mem_map_of_mem hp) _ (List.mem_map_of_mem ht) h4
  · obtain ⟨h4, h5⟩ := hwait t ht u hu
    rcases hd with (⟨_, hd⟩ | ⟨j, p, h8, h9, h10⟩) | hd
    · exact h4 hd
    · exact h5 j p h8 h9 h10
    · exact h4 hd
  · obtain ⟨p, hp, h4⟩ := hDin _ hd
    obtain ⟨k', h5, h6⟩ := hi.made _ (List.mem_append_left _ (List.mem_map_of_mem hp))
    have := hmk k' k (by rw [← h6, h4])
    simp only [] at hk
    omega

theorem minv_ancestry {mk : Nat → String} (hne : ∀ i, mk i ≠ "") {m : MWorld} (hi : MInv mk m) : Ancestry m.g.issuedToken := by
  refine ⟨fun t ht => ?_, (List.nodup_append.1 hi.distinct).1, hi.earlier⟩
  obtain ⟨k, _, h2⟩ := hi.made _ (List.mem_append_left _ (List.mem_map_of_mem ht))
  rw [h2]
  exact hne k

/-- C131 (partial): when a token is revoked with all that is derived from it, and at that moment no thread is about to append a token
based on it or on something derived from it, then in every later state the token and everything derived from it is revoked, whatever
threads mint.  Missing: threads that have passed the check and have not yet appended, for which it is false (`C131_refuted`). -/
theorem C131_revoked_partial (mk : Nat → String) (hmk : ∀ i j, mk i = mk j → i = j) (hne : ∀ i, mk i ≠ "")
    (g : Grant) (hg : g.issuedToken = []) (now : Int) (before after : List MOp) (v : String)
    (hin : ∃ t ∈ (mrun mk { g := g, now := now } before).g.issuedToken, t.value = v)
    (hwait : ∀ t ∈ (mrun mk { g := g, now := now } before).waiting, ∀ u, t.basedOn = some u → u ≠ v ∧
      ∀ (i : Nat) (p : Token), DerivedFrom (mrun mk { g := g, now := now } before).g.issuedToken v i →
        (mrun mk { g := g, now := now } before).g.issuedToken[i]? = some p → p.value ≠ u)
    (i : Nat) (t : Token)
    (ht : (mrun mk { g := g, now := now } (before ++ .revoke v "" true :: after)).g.issuedToken[i]? = some t)
    (hd : t.value = v ∨ DerivedFrom (mrun mk { g := g, now := now } (before ++ .revoke v "" true :: after)).g.issuedToken v i) :
    t.revoked = true := by
  have e : mrun mk { g := g, now := now } (before ++ .revoke v "" true :: after) =
      mrun mk (mstep mk (mrun mk { g := g, now := now } before) (.revoke v "" true)) after := by
    simp [mrun, List.foldl_append]
  rw [e] at ht hd
  have hi := minv_run hmk (minv_init mk g hg now) before
  generalize mrun mk { g := g, now := now } before = m at *
  have hanc := minv_ancestry hne hi
  have hvne : v ≠ "" := by
    obtain ⟨tv, htv, hv⟩ := hin
    exact hv ▸ hanc.nonempty tv htv
  obtain ⟨ts, h1, h2⟩ := C17_revoke_recursive m.g hanc v hvne
  have hstep : mstep mk m (.revoke v "" true) = { m with g := { m.g with issuedToken := ts } } := by
    simp [mstep, h1]
  rw [hstep] at ht hd
  have hrev : ∀ t ∈ ts, t.value = v → t.revoked = true := by
    intro t ht hv
    obtain ⟨i, hi'⟩ := List.getElem?_of_mem ht
    have hlt : i < m.g.issuedToken.length := h2.1 ▸ (List.getElem?_eq_some_iff.1 hi').1
    obtain ⟨r, h4, h5⟩ := h2.2 i _ (List.getElem?_eq_getElem hlt)
    rw [hi'] at h4
    cases h4
    exact h5.2 (.inr (.inl ⟨_, List.getElem?_eq_getElem hlt, hv⟩))
  have hfin := dead_run (dead_revoked hmk hi hin hwait h2 (fun _ h => .inr h) True (fun _ => hrev) fun t ht hv => .inl (hrev t ht hv)) after
  refine hfin.revoked t (List.mem_of_getElem? ht) ?_
  rcases hd with hd | hd
  · exact .inl ⟨trivial, hd⟩
  · exact dead_derived hfin (.inr rfl) hd t ht

/-- C131 (partial), for what happens when a used code is presented again, `grant.revoke_token(based_on=code)`: when no thread is about to
append a token of the line, everything derived from the code is revoked in every later state.  Missing as above (`C131_replay_refuted`). -/
theorem C131_replay_partial (mk : Nat → String) (hmk : ∀ i j, mk i = mk j → i = j) (hne : ∀ i, mk i ≠ "")
    (g : Grant) (hg : g.issuedToken = []) (now : Int) (before after : List MOp) (c : Token)
    (hin : c ∈ (mrun mk { g := g, now := now } before).g.issuedToken) (honce : c.rules.maxUsage = some 1) (hused : 1 ≤ c.used)
    (hwait : ∀ t ∈ (mrun mk { g := g, now := now } before).waiting, ∀ u, t.basedOn = some u → u ≠ c.value ∧
      ∀ (i : Nat) (p : Token), DerivedFrom (mrun mk { g := g, now := now } before).g.issuedToken c.value i →
        (mrun mk { g := g, now := now } before).g.issuedToken[i]? = some p → p.value ≠ u)
    (i : Nat) (t : Token)
    (ht : (mrun mk { g := g, now := now } (before ++ .revoke "" c.value true :: after)).g.issuedToken[i]? = some t)
    (hd : DerivedFrom (mrun mk { g := g, now := now } (before ++ .revoke "" c.value true :: after)).g.issuedToken c.value i) :
    t.revoked = true := by
  have e : mrun mk { g := g, now := now } (before ++ .revoke "" c.value true :: after) =
      mrun mk (mstep mk (mrun mk { g := g, now := now } before) (.revoke "" c.value true)) after := by
    simp [mrun, List.foldl_append]
  rw [e] at ht hd
  have hi := minv_run hmk (minv_init mk g hg now) before
  generalize mrun mk { g := g, now := now } before = m at *
  have hanc := minv_ancestry hne hi
  obtain ⟨ts, h1, h2⟩ := C17_revoke_descendants m.g hanc c.value (hanc.nonempty c hin)
  have hstep : mstep mk m (.revoke "" c.value true) = { m with g := { m.g with issuedToken := ts } } := by
    simp [mstep, h1]
  rw [hstep] at ht hd
  have hstuck : ∀ t ∈ ts, t.value = c.value → t.revoked = true ∨ (t.rules.maxUsage = some 1 ∧ 1 ≤ t.used) := by
    intro t ht hv
    obtain ⟨i, hi'⟩ := List.getElem?_of_mem ht
    have hlt : i < m.g.issuedToken.length := h2.1 ▸ (List.getElem?_eq_some_iff.1 hi').1
    obtain ⟨r, h4, h5⟩ := h2.2 i _ (List.getElem?_eq_getElem hlt)
    rw [hi'] at h4
    cases h4
    obtain ⟨k, hk⟩ := List.getElem?_of_mem hin
    have hik : i = k := by
      refine (List.getElem?_inj (by simpa using hlt) hanc.distinct).1 ?_
      simpa [List.getElem?_map, hk, List.getElem?_eq_getElem hlt] using hv
    subst hik
    rw [List.getElem?_eq_getElem hlt] at hk
    cases hk
    exact .inr ⟨honce, hused⟩
  have hfin := dead_run (dead_revoked hmk hi ⟨c, hin, rfl⟩ hwait h2 (fun _ h => h) False (fun h => h.elim) hstuck) after
  exact hfin.revoked t (List.mem_of_getElem? ht) (dead_derived hfin (.inr rfl) hd t ht)

namespace Ex

/-- Values of tokens. -/
def mintVal (n : Nat) : String := String.ofList (List.replicate (n + 1) 'v')

/-- The rules of the code. -/
def mintRules : UsageRules := { supportsMinting := some [.accessToken, .refreshToken], maxUsage := some 1 }

/-- A code is made; two threads mint access tokens from it; the first appends its token and registers the use. -/
def mintRace : List MOp :=
  [.prepare .authorizationCode none (some mintRules) none "", .append 0,
   .prepare .accessToken (some "v") none none "", .prepare .accessToken (some "v") none none "", .append 0, .use "v"]

/-- The hypotheses of `C131_revoked_partial`: the second thread appends too, then nobody waits. -/
example : (∃ t ∈ (mrun mintVal { g := {}, now := 5 } (mintRace ++ [.append 0])).g.issuedToken, t.value = "v") ∧
    (mrun mintVal { g := {}, now := 5 } (mintRace ++ [.append 0])).waiting = [] ∧
    (mrun mintVal { g := {}, now := 5 } (mintRace ++ [.append 0] ++ [.revoke "v" "" true,
      .prepare .accessToken (some "v") none none "", .append 0])).g.issuedToken.map (fun t => (t.value, t.basedOn, t.revoked)) =
      [("v", none, true), ("vv", some "v", true), ("vvv", some "v", true)] := by
  refine ⟨?_, ?_, ?_⟩ <;> decide +kernel

/-- The hypotheses of `C131_replay_partial`. -/
example : (mrun mintVal { g := {}, now := 5 } (mintRace ++ [.append 0])).g.issuedToken.head?.map
      (fun c => (c.value, c.rules.maxUsage, c.used)) = some ("v", some 1, 1) ∧
    (mrun mintVal { g := {}, now := 5 } (mintRace ++ [.append 0] ++ [.revoke "" "v" true,
      .prepare .accessToken (some "v") none none "", .append 0])).g.issuedToken.map (fun t => (t.value, t.basedOn, t.revoked)) =
      [("v", none, false), ("vv", some "v", true), ("vvv", some "v", true)] := by
  refine ⟨?_, ?_⟩ <;> decide +kernel

end Ex

/-- C131 is false of the code: a thread that has passed the check of its base when the base is revoked with all that is derived
from it, here the code whose use another thread has registered, appends its token afterwards, and that token is live. -/
theorem C131_refuted : ∃ (mk : Nat → String) (before after : List MOp) (v : String) (i : Nat) (t : Token),
    (∀ i j, mk i = mk j → i = j) ∧ (∀ i, mk i ≠ "") ∧
    (∃ c ∈ (mrun mk { g := {}, now := 5 } before).g.issuedToken, c.value = v ∧ c.cls = .authorizationCode ∧ c.used = 1) ∧
    (mrun mk { g := {}, now := 5 } (before ++ .revoke v "" true :: after)).g.issuedToken[i]? = some t ∧
    t.basedOn = some v ∧ t.cls = .accessToken ∧ t.revoked = false ∧ t.isActive 5 = true := by
  refine ⟨Ex.mintVal, Ex.mintRace, [.append 0], "v", 2,
    ((mrun Ex.mintVal { g := {}, now := 5 } (Ex.mintRace ++ .revoke "v" "" true :: [.append 0])).g.issuedToken[2]?).getD default, ?_, ?_, ?_, ?_, ?_, ?_, ?_, ?_⟩
  · intro i j h
    have := congrArg String.length h
    simpa [Ex.mintVal] using this
  · intro i h
    have := congrArg String.length h
    simp [Ex.mintVal] at this
  all_goals decide +kernel

/-- The same when the code is presented again and what was derived from it is revoked. -/
theorem C131_replay_refuted : ∃ (mk : Nat → String) (before after : List MOp) (v : String) (i : Nat) (t : Token),
    (∀ i j, mk i = mk j → i = j) ∧ (∀ i, mk i ≠ "") ∧
    (∃ c ∈ (mrun mk { g := {}, now := 5 } before).g.issuedToken, c.value = v ∧ c.cls = .authorizationCode ∧ c.used = 1) ∧
    (mrun mk { g := {}, now := 5 } (before ++ .revoke "" v true :: after)).g.issuedToken[i]? = some t ∧
    t.basedOn = some v ∧ t.cls = .accessToken ∧ t.revoked = false ∧ t.isActive 5 = true := by
  refine ⟨Ex.mintVal, Ex.mintRace, [.append 0], "v", 2,
    ((mrun Ex.mintVal { g := {}, now := 5 } (Ex.mintRace ++ .revoke "" "v" true :: [.append 0])).g.issuedToken[2]?).getD default, ?_, ?_, ?_, ?_, ?_, ?_, ?_, ?_⟩
  · intro i j h
    have := congrArg String.length h
    simpa [Ex.mintVal] using this
  · intro i h
    have := congrArg String.length h
    simp [Ex.mintVal] at this
  all_goals decide +kernel

end OidcOp
