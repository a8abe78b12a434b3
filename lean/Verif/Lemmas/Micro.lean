/-
Small steps on a grant, and a Hoare logic that shows that the endpoint helpers only make such steps.
-/
import Verif.Model.Authz
import Verif.Lemmas.Token

namespace OidcOp
open Spec

/-- `ts'` differs from `ts` only in additional revocations. -/
def RevMono (ts ts' : List Token) : Prop :=
  ts'.length = ts.length ∧
  ∀ (i : Nat) (t : Token), ts[i]? = some t →
    ∃ r, ts'[i]? = some { t with revoked := r } ∧ (t.revoked = true → r = true)

theorem RevMono.refl (ts : List Token) : RevMono ts ts :=
  ⟨rfl, fun _ t h => ⟨t.revoked, by simpa using h, id⟩⟩

theorem RevMono.trans {a b c : List Token} (h : RevMono a b) (h' : RevMono b c) : RevMono a c := by
  refine ⟨h'.1.trans h.1, fun i t ht => ?_⟩
  obtain ⟨r, h1, h2⟩ := h.2 i t ht
  obtain ⟨r', h3, h4⟩ := h'.2 i _ h1
  exact ⟨r', h3, fun x => h4 (h2 x)⟩

theorem revMono_markAt (ts : List Token) (i : Nat) : RevMono ts (markAt ts i) := by
  refine ⟨by simp [markAt], fun k t ht => ?_⟩
  by_cases h : i = k
  · subst h
    exact ⟨true, by simp [markAt, ht, Token.revoke], fun _ => rfl⟩
  · exact ⟨t.revoked, by simp [markAt, h, ht], id⟩

theorem foldlM_revMono (l : List Nat) (f : List Token → Nat → Except Exc (List Token))
    (hf : ∀ acc i acc', f acc i = .ok acc' → RevMono acc acc') (acc acc' : List Token)
    (h : l.foldlM f acc = .ok acc') : RevMono acc acc' := by
  induction l generalizing acc with
  | nil =>
    simp only [List.foldlM_nil] at h
    cases h; exact RevMono.refl _
  | cons i r ih =>
    rw [List.foldlM_cons] at h
    cases hi : f acc i with
    | error e => simp [hi, bind, Except.bind] at h
    | ok a =>
      simp only [hi, bind, Except.bind] at h
      exact (hf _ _ _ hi).trans (ih _ h)

theorem revokeTokensFuel_revMono (fuel : Nat) (v b : String) (rec : Bool) (ts ts' : List Token)
    (h : revokeTokensFuel fuel v b rec ts = .ok ts') : RevMono ts ts' := by
  induction fuel generalizing v b rec ts ts' with
  | zero => simp [revokeTokensFuel] at h
  | succ n ih =>
    unfold revokeTokensFuel at h
    refine foldlM_revMono _ _ ?_ _ _ h
    intro acc i acc' hi
    split at hi
    · cases hi; exact RevMono.refl _
    · repeat' split at hi
      all_goals first
        | (cases hi; exact revMono_markAt _ _)
        | (cases hi; exact RevMono.refl _)
        | exact (revMono_markAt _ _).trans (ih _ _ _ _ _ hi)

theorem revokeDependentFuel_revMono (fuel : Nat) (v : String) (ts ts' : List Token)
    (h : revokeDependentFuel fuel v ts = .ok ts') : RevMono ts ts' := by
  induction fuel generalizing v ts ts' with
  | zero => simp [revokeDependentFuel] at h
  | succ n ih =>
    unfold revokeDependentFuel at h
    refine foldlM_revMono _ _ ?_ _ _ h
    intro acc i acc' hi
    split at hi
    · cases hi; exact RevMono.refl _
    · split at hi
      · exact (revMono_markAt _ _).trans (ih _ _ _ hi)
      · cases hi; exact RevMono.refl _

/-- Can be the basis of other tokens at the token endpoint. -/
def IsBase (t : Token) : Prop := t.cls = .authorizationCode ∨ t.cls = .refreshToken

/-- What a freshly minted token looks like, for a grant `g` at an instant. -/
structure Fresh (clock : Int) (g : Grant) (c : TokenClass) (b : Option Token) (v : String) (t : Token) :
    Prop where
  cls : t.cls = c
  value : t.value = v
  basedOn : t.basedOn = b.map Token.value
  revoked : t.revoked = false
  used : t.used = 0
  issuedAt : t.issuedAt = clock
  grantActive : ItemActive g.item clock
  base : ∀ p, b = some p → p ∈ g.issuedToken ∧ IsBase p ∧ ItemActive p.item clock ∧ MayMint p c
  scope : c ≠ .idToken → (∀ x ∈ t.scope, x ∈ g.scope) ∨
    (∃ p, b = some p ∧ g.findScopeTok p = .ok t.scope)
  codeOnce : c = .authorizationCode → t.rules.maxUsage = some 1

/-- One small step on a grant. -/
inductive GMicro (mk : Minter) (clock : Int) : GS → GS → Prop where
  /-- a handler call that produced nothing -/
  | call (s : GS) : GMicro mk clock s ⟨s.g, s.n + 1⟩
  | mint (s : GS) (c : TokenClass) (b : Option Token) (v : String) (t : Token) :
      mk s.n c = .ok v → Fresh clock s.g c b v t →
      GMicro mk clock s
        ⟨{ s.g with issuedToken := s.g.issuedToken ++ [t], used := s.g.used + 1 }, s.n + 1⟩
  | use (s : GS) (v : String) : GMicro mk clock s ⟨s.g.updateToken v Token.registerUsage, s.n⟩
  | revoke (s : GS) (ts : List Token) : RevMono s.g.issuedToken ts →
      GMicro mk clock s ⟨{ s.g with issuedToken := ts }, s.n⟩
  /-- the grant's own attributes change; tokens, identity and revocation do not, the scope only from
  empty -/
  | attrs (s : GS) (g' : Grant) : g'.issuedToken = s.g.issuedToken → g'.id = s.g.id →
      g'.sub = s.g.sub → g'.authzReq = s.g.authzReq → g'.authnEvent = s.g.authnEvent →
      g'.issuedAt = s.g.issuedAt → g'.revoked = s.g.revoked → (s.g.scope ≠ [] → g'.scope = s.g.scope) →
      GMicro mk clock s ⟨g', s.n⟩

/-- Any number of small steps. -/
inductive Micros (mk : Minter) (clock : Int) : GS → GS → Prop where
  | refl (s : GS) : Micros mk clock s s
  | snoc {s s' s'' : GS} : Micros mk clock s s' → GMicro mk clock s' s'' → Micros mk clock s s''

theorem Micros.one {mk : Minter} {clock : Int} {s s' : GS} (h : GMicro mk clock s s') :
    Micros mk clock s s' := .snoc (.refl _) h

theorem Micros.trans {mk : Minter} {clock : Int} {a b c : GS} (h : Micros mk clock a b)
    (h' : Micros mk clock b c) : Micros mk clock a c := by
  induction h' with
  | refl => exact h
  | snoc _ g ih => exact .snoc ih g

/-- Hoare triple: from a state with `P` the computation makes small steps only, and if it returns `a`
then `Q a` holds. -/
def Tri (mk : Minter) (clock : Int) {α : Type} (P : GS → Prop) (m : SE GS α) (Q : α → GS → Prop) :
    Prop :=
  ∀ s, P s → Micros mk clock s (m s).2 ∧ ∀ a, (m s).1 = .ok a → Q a (m s).2

section
variable {mk : Minter} {clock : Int} {α β : Type}

theorem Tri.bind {P : GS → Prop} {m : SE GS α} {Q : α → GS → Prop} {f : α → SE GS β}
    {R : β → GS → Prop} (hm : Tri mk clock P m Q) (hf : ∀ a, Tri mk clock (Q a) (f a) R) :
    Tri mk clock P (m >>= f) R := by
  intro s hs
  obtain ⟨h1, h2⟩ := hm s hs
  rw [SE.bind_apply]
  cases hms : m s with
  | mk x s' =>
    rw [hms] at h1 h2
    cases x with
    | error e => exact ⟨h1, fun a h => by cases h⟩
    | ok a =>
      obtain ⟨h3, h4⟩ := hf a s' (h2 a rfl)
      exact ⟨h1.trans h3, h4⟩

theorem Tri.pure {P : GS → Prop} {Q : α → GS → Prop} (a : α) (h : ∀ s, P s → Q a s) :
    Tri mk clock P (pure a : SE GS α) Q := by
  intro s hs
  exact ⟨.refl _, fun b hb => by cases hb; exact h s hs⟩

theorem Tri.raise {P : GS → Prop} {Q : α → GS → Prop} (e : Exc) :
    Tri mk clock P (SE.raise e : SE GS α) Q := by
  intro s _
  exact ⟨.refl _, fun b hb => by cases hb⟩

theorem Tri.get {P : GS → Prop} :
    Tri mk clock P SE.get (fun a s => P s ∧ a = s) := by
  intro s hs
  exact ⟨.refl _, fun b hb => by cases hb; exact ⟨hs, rfl⟩⟩

theorem Tri.ofExcept {P : GS → Prop} (x : Except Exc α) :
    Tri mk clock P (SE.ofExcept x) (fun a s => P s ∧ x = .ok a) := by
  intro s hs
  exact ⟨.refl _, fun b hb => ⟨hs, hb⟩⟩

theorem Tri.weaken {P P' : GS → Prop} {m : SE GS α} {Q Q' : α → GS → Prop} (h : Tri mk clock P m Q)
    (hp : ∀ s, P' s → P s) (hq : ∀ a s, Q a s → Q' a s) : Tri mk clock P' m Q' := by
  intro s hs
  obtain ⟨h1, h2⟩ := h s (hp s hs)
  exact ⟨h1, fun a ha => hq _ _ (h2 a ha)⟩

end

/-! ### minting -/

theorem updateLast_append (g : Grant) (l : List Token) (a b : Token) (n : Nat) :
    ({ g with issuedToken := l ++ [a], used := n } : Grant).updateLast (fun _ => b) =
      { g with issuedToken := l ++ [b], used := n } := by
  simp [Grant.updateLast]

/-- When a token minted now by the token endpoint ends; 0 for never. -/
def endOf (clock : Int) (rules : Option UsageRules) : Int :=
  match expIn rules with
  | some x => if x = 0 then 0 else clock + x
  | none => 0

/-- The life time the response tells. -/
def leftOf (clock : Int) (rules : Option UsageRules) : Option Int :=
  if endOf clock rules ≠ 0 then some (endOf clock rules - clock) else none

/-- A token as the token endpoint has just made it. -/
structure NewTok (clock : Int) (g : Grant) (c : TokenClass) (t : Token) : Prop where
  used : t.used = 0
  revoked : t.revoked = false
  notBefore : t.notBefore = 0
  expiresAt : t.expiresAt = endOf clock (g.rulesFor c)

/-- When a token minted now by the authorization endpoint ends; 0 for never. -/
def rootEnd (clock : Int) (rules : Option UsageRules) : Int :=
  match (rules.getD {}).expiresIn with
  | some x => if x = 0 then 0 else clock + x
  | none => 0

/-- The life time an authorization response tells. -/
def rootLeft (clock : Int) (rules : Option UsageRules) : Option Int :=
  if rootEnd clock rules ≠ 0 then some (rootEnd clock rules - clock) else none

/-- A token as the authorization endpoint has just made it. -/
structure NewRoot (clock : Int) (g : Grant) (c : TokenClass) (t : Token) : Prop where
  used : t.used = 0
  revoked : t.revoked = false
  notBefore : t.notBefore = 0
  expiresAt : t.expiresAt = rootEnd clock (g.rulesFor c)

theorem withExpiry_root {clock : Int} {rules : Option UsageRules} {t : Token} (h : t.expiresAt = 0) :
    withExpiry clock (rules.getD {}).expiresIn t = { t with expiresAt := rootEnd clock rules } := by
  have he : t = { t with expiresAt := 0 } := by rw [← h]
  unfold withExpiry rootEnd
  cases (rules.getD {}).expiresIn with
  | none => exact he
  | some x =>
    simp only []
    split
    · exact he
    · rfl

theorem withExpiry_eq {clock : Int} {rules : Option UsageRules} {t : Token} (h : t.expiresAt = 0) :
    withExpiry clock (expIn rules) t = { t with expiresAt := endOf clock rules } := by
  have he : t = { t with expiresAt := 0 } := by rw [← h]
  unfold withExpiry endOf
  cases expIn rules with
  | none => exact he
  | some x =>
    simp only []
    split
    · exact he
    · rfl

theorem fresh_of_mint {mk : Minter} {clock : Int} {s : GS} {c : TokenClass} {b : Option Token}
    {rules : Option UsageRules} {scope : Option (List String)} {tt : String} {t : Token} {g' : Grant}
    (hm : s.g.mintToken clock c b rules scope tt (mk s.n c) = (.ok (some t), g'))
    (hb : ∀ p, b = some p → p ∈ s.g.issuedToken ∧ IsBase p)
    (hsc : ∀ sc, scope = some sc → c ≠ .idToken → ∀ x ∈ sc, x ∈ s.g.scope) (e : Int) :
    (∃ v, mk s.n c = .ok v ∧ Fresh clock s.g c b v { t with expiresAt := e }) ∧
    (∀ sc, scope = some sc → t.scope = sc) ∧
    (scope = none → ∀ p, b = some p → s.g.findScopeTok p = .ok t.scope) ∧
    (t.used = 0 ∧ t.revoked = false ∧ t.notBefore = 0 ∧ t.expiresAt = 0) ∧
    g' = { s.g with issuedToken := s.g.issuedToken ++ [t], used := s.g.used + 1 } := by
  obtain ⟨h1, h2, h3, ⟨v, sc, ty, h4, h5, h6⟩, h7⟩ := mintToken_some hm
  have hts : t.scope = sc := by rw [h6]; rfl
  refine ⟨⟨v, h4, ?_⟩, ?_, ?_, by rw [h6]; exact ⟨rfl, rfl, rfl, rfl⟩, h7⟩
  · refine
      { cls := by rw [h6]; rfl, value := by rw [h6]; rfl, basedOn := by rw [h6]; rfl,
        revoked := by rw [h6]; rfl, used := by rw [h6]; rfl, issuedAt := by rw [h6]; rfl,
        grantActive := h1, base := fun p hp => ⟨(hb p hp).1, (hb p hp).2, h2 p hp⟩,
        scope := ?_, codeOnce := ?_ }
    · intro hc
      cases scope with
      | some s' =>
        simp only [] at h5
        left; intro x hx
        have : x ∈ sc := by simpa [hts] using hx
        exact hsc s' rfl hc x (h5 ▸ this)
      | none =>
        cases b with
        | none => simp only [] at h5; left; intro x hx; rw [← h5]; simpa [hts] using hx
        | some p => simp only [] at h5; right; exact ⟨p, rfl, by rw [h5]; simp [hts]⟩
    · intro hc
      subst hc
      rw [h6]
      rfl
  · intro s' hs'
    subst hs'
    simp only [] at h5
    rw [hts, h5]
  · intro hn p hp
    subst hn hp
    simp only [] at h5
    rw [hts, h5]

theorem mintEP_cases (mk : Minter) (clock : Int) (s : GS) (c : TokenClass) (b : Option Token)
    (scope : Option (List String)) (tt : String)
    (hb : ∀ p, b = some p → p ∈ s.g.issuedToken ∧ IsBase p)
    (hsc : ∀ sc, scope = some sc → c ≠ .idToken → ∀ x ∈ sc, x ∈ s.g.scope) :
    (∃ t v, mintEP mk clock c b scope tt s =
        (.ok t, ⟨{ s.g with issuedToken := s.g.issuedToken ++ [t], used := s.g.used + 1 }, s.n + 1⟩) ∧
      mk s.n c = .ok v ∧ Fresh clock s.g c b v t ∧ (∀ sc, scope = some sc → t.scope = sc) ∧
      (scope = none → ∀ p, b = some p → s.g.findScopeTok p = .ok t.scope) ∧ NewTok clock s.g c t) ∨
    (∃ e, mintEP mk clock c b scope tt s = (.error e, ⟨s.g, s.n + 1⟩)) := by
  unfold mintEP
  simp only []
  cases hm : s.g.mintToken clock c b (s.g.rulesFor c) scope tt (mk s.n c) with
  | mk x g' =>
    have hns := mintToken_not_some s.g clock c b (s.g.rulesFor c) scope tt (mk s.n c)
    rw [hm] at hns
    cases x with
    | error e =>
      right
      exact ⟨e, by simp only []; rw [show g' = s.g from hns (by simp)]⟩
    | ok o =>
      cases o with
      | none =>
        right
        exact ⟨_, by simp only []; rw [show g' = s.g from hns (by simp)]⟩
      | some t =>
        left
        obtain ⟨⟨v, hv, hf⟩, h2, h3, ⟨h5, h6, h7, h8⟩, rfl⟩ := fresh_of_mint hm hb hsc (endOf clock (s.g.rulesFor c))
        have hx := withExpiry_eq (clock := clock) (rules := s.g.rulesFor c) h8
        refine ⟨{ t with expiresAt := endOf clock (s.g.rulesFor c) }, v, ?_, hv, ?_, ?_, ?_, ⟨h5, h6, h7, rfl⟩⟩
        · simp only [hx, updateLast_append]
        · exact hf
        · exact h2
        · exact h3

theorem mintAuthz_cases (mk : Minter) (clock : Int) (s : GS) (c : TokenClass)
    (scope : Option (List String))
    (hsc : ∀ sc, scope = some sc → c ≠ .idToken → ∀ x ∈ sc, x ∈ s.g.scope) :
    (∃ t v, mintAuthz mk clock c scope s =
        (.ok t, ⟨{ s.g with issuedToken := s.g.issuedToken ++ [t], used := s.g.used + 1 }, s.n + 1⟩) ∧
      mk s.n c = .ok v ∧ Fresh clock s.g c none v t ∧ NewRoot clock s.g c t) ∨
    (∃ e, mintAuthz mk clock c scope s = (.error e, ⟨s.g, s.n + 1⟩)) := by
  unfold mintAuthz
  simp only []
  cases hm : s.g.mintToken clock c none (some ((s.g.rulesFor c).getD {})) scope "" (mk s.n c) with
  | mk x g' =>
    have hns := mintToken_not_some s.g clock c none (some ((s.g.rulesFor c).getD {})) scope "" (mk s.n c)
    rw [hm] at hns
    cases x with
    | error e =>
      right
      exact ⟨e, by simp only []; rw [show g' = s.g from hns (by simp)]⟩
    | ok o =>
      cases o with
      | none =>
        right
        exact ⟨_, by simp only []; rw [show g' = s.g from hns (by simp)]⟩
      | some t =>
        left
        obtain ⟨⟨v, hv, hf⟩, _, _, ⟨h5, h6, h7, h8⟩, rfl⟩ :=
          fresh_of_mint hm (by simp) hsc (rootEnd clock (s.g.rulesFor c))
        have hx := withExpiry_root (clock := clock) (rules := s.g.rulesFor c) h8
        refine ⟨{ t with expiresAt := rootEnd clock (s.g.rulesFor c) }, v, ?_, hv, ?_, ⟨h5, h6, h7, rfl⟩⟩
        · simp only [hx, updateLast_append]
        · exact hf

/-- Since `s0` only tokens have been added. -/
structure Grown (s0 s : GS) : Prop where
  tokens : ∃ l, s.g.issuedToken = s0.g.issuedToken ++ l
  scope : s.g.scope = s0.g.scope
  authzReq : s.g.authzReq = s0.g.authzReq
  rules : s.g.usageRules = s0.g.usageRules
  le : s0.n ≤ s.n

theorem Grown.refl (s : GS) : Grown s s := ⟨⟨[], by simp⟩, rfl, rfl, rfl, Nat.le_refl _⟩

theorem Grown.mem {s0 s : GS} (h : Grown s0 s) {t : Token} (ht : t ∈ s0.g.issuedToken) :
    t ∈ s.g.issuedToken := by
  obtain ⟨l, hl⟩ := h.tokens
  rw [hl]; exact List.mem_append_left _ ht

theorem Grown.snoc {s0 s : GS} (h : Grown s0 s) (t : Token) (k m : Nat) (hm : s.n ≤ m) :
    Grown s0 ⟨{ s.g with issuedToken := s.g.issuedToken ++ [t], used := k }, m⟩ := by
  obtain ⟨l, hl⟩ := h.tokens
  exact ⟨⟨l ++ [t], by simp [hl]⟩, h.scope, h.authzReq, h.rules, Nat.le_trans h.le hm⟩

theorem Grown.call {s0 s : GS} (h : Grown s0 s) (m : Nat) (hm : s.n ≤ m) : Grown s0 ⟨s.g, m⟩ :=
  ⟨h.tokens, h.scope, h.authzReq, h.rules, Nat.le_trans h.le hm⟩

theorem Grown.getToken {s0 s : GS} (h : Grown s0 s) {v : String} {t : Token}
    (ht : s0.g.getToken v = some t) : s.g.getToken v = some t := by
  obtain ⟨l, hl⟩ := h.tokens
  unfold Grant.getToken at *
  rw [hl, List.find?_append, ht]; rfl

/-- A token of class `c` with value `v`, based on `b`, is among the issued ones; its value was made by a
handler call with a number from `n0` on. -/
def Minted (mk : Minter) (n0 : Nat) (b : Token) (c : TokenClass) (Φ : Token → Prop) (v : String) (s : GS) : Prop :=
  (∃ k, n0 ≤ k ∧ mk k c = .ok v) ∧ ∃ t ∈ s.g.issuedToken, t.value = v ∧ t.cls = c ∧ t.basedOn = some b.value ∧ Φ t

theorem Minted.snoc {mk : Minter} {n0 : Nat} {b : Token} {c : TokenClass} {Φ : Token → Prop} {v : String} {s : GS}
    (h : Minted mk n0 b c Φ v s) (t : Token) (k m : Nat) :
    Minted mk n0 b c Φ v ⟨{ s.g with issuedToken := s.g.issuedToken ++ [t], used := k }, m⟩ := by
  obtain ⟨hk, u, hu, h'⟩ := h
  exact ⟨hk, u, List.mem_append_left _ hu, h'⟩

/-- Assertions that adding a token does not destroy. -/
def Stable (R : GS → Prop) : Prop :=
  (∀ s m, s.n ≤ m → R s → R ⟨s.g, m⟩) ∧
  (∀ s t k m, s.n ≤ m → R s → R ⟨{ s.g with issuedToken := s.g.issuedToken ++ [t], used := k }, m⟩)

theorem stable_minted (mk : Minter) (n0 : Nat) (b : Token) (c : TokenClass) (Φ : Token → Prop) (v : String) :
    Stable (Minted mk n0 b c Φ v) :=
  ⟨fun _ _ _ h => h, fun _ t k m _ h => h.snoc t k m⟩

theorem stable_grown (s0 : GS) : Stable (Grown s0) :=
  ⟨fun _ m hm h => h.call m hm, fun _ t k m hm h => h.snoc t k m hm⟩

theorem stable_true : Stable (fun _ => True) := ⟨fun _ _ _ _ => trivial, fun _ _ _ _ _ _ => trivial⟩

theorem Stable.and {R R' : GS → Prop} (h : Stable R) (h' : Stable R') : Stable (fun s => R s ∧ R' s) :=
  ⟨fun s m hm x => ⟨h.1 s m hm x.1, h'.1 s m hm x.2⟩,
    fun s t k m hm x => ⟨h.2 s t k m hm x.1, h'.2 s t k m hm x.2⟩⟩

/-- The scope of a token minted with the argument `scope`. -/
def ScopeIs (s0 : GS) (b : Token) (scope : Option (List String)) (t : Token) : Prop :=
  match scope with
  | some sc => t.scope = sc
  | none => ∃ s, Grown s0 s ∧ s.g.findScopeTok b = .ok t.scope

/-- A token just minted with the argument `scope`. -/
def MadeWith (clock : Int) (s0 : GS) (b : Token) (c : TokenClass) (scope : Option (List String)) (t : Token) : Prop :=
  ScopeIs s0 b scope t ∧ NewTok clock s0.g c t

theorem Grown.newTok {s0 s : GS} (h : Grown s0 s) {clock : Int} {c : TokenClass} {t : Token}
    (ht : NewTok clock s.g c t) : NewTok clock s0.g c t := by
  have : s.g.rulesFor c = s0.g.rulesFor c := by unfold Grant.rulesFor; rw [h.rules]
  exact ⟨ht.used, ht.revoked, ht.notBefore, by rw [ht.expiresAt, this]⟩

section
variable {mk : Minter} {clock : Int}

theorem mintEP_tri {R : GS → Prop} (hR : Stable R) (s0 : GS) (b : Token) (hb : b ∈ s0.g.issuedToken)
    (hcls : IsBase b) (c : TokenClass) (scope : Option (List String)) (tt : String)
    (hsc : ∀ sc, scope = some sc → c ≠ .idToken → ∀ x ∈ sc, x ∈ s0.g.scope) :
    Tri mk clock (fun s => Grown s0 s ∧ R s) (mintEP mk clock c (some b) scope tt)
      (fun t s => Grown s0 s ∧ R s ∧ Minted mk s0.n b c (MadeWith clock s0 b c scope) t.value s ∧
        (ItemActive b.item clock ∧ MayMint b c) ∧ t.cls = c ∧ MadeWith clock s0 b c scope t) := by
  rintro s ⟨hg, hr⟩
  rcases mintEP_cases mk clock s c (some b) scope tt
      (by rintro p ⟨⟩; exact ⟨hg.mem hb, hcls⟩)
      (by intro sc h1 h2 x hx; rw [hg.scope]; exact hsc sc h1 h2 x hx) with
    ⟨t, v, he, hv, hf, hs1, hs2, hnew⟩ | ⟨e, he⟩
  · rw [he]
    refine ⟨.one (.mint s c (some b) v t hv hf), ?_⟩
    intro a ha
    cases ha
    have hsc : MadeWith clock s0 b c scope t := by
      refine ⟨?_, hg.newTok hnew⟩
      unfold ScopeIs
      cases scope with
      | some sc => exact hs1 sc rfl
      | none => exact ⟨s, hg, hs2 rfl b rfl⟩
    refine ⟨hg.snoc t _ _ (Nat.le_succ _), hR.2 _ t _ _ (Nat.le_succ _) hr,
      ⟨⟨s.n, hg.le, by rw [hv, hf.value]⟩, t, by simp, rfl, hf.cls, hf.basedOn, hsc⟩, ?_, hf.cls, hsc⟩
    obtain ⟨_, _, h3, h4⟩ := hf.base b rfl
    exact ⟨h3, h4⟩
  · rw [he]
    exact ⟨.one (.call s), fun a ha => by cases ha⟩

theorem mintOrSkip_tri {R : GS → Prop} (hR : Stable R) (s0 : GS) (b : Token)
    (hb : b ∈ s0.g.issuedToken) (hcls : IsBase b) (c : TokenClass) (tt : String) (wanted : Bool) :
    Tri mk clock (fun s => Grown s0 s ∧ R s) (mintOrSkip mk clock c b tt wanted)
      (fun o s => Grown s0 s ∧ R s ∧ ∀ t, o = some t →
        Minted mk s0.n b c (MadeWith clock s0 b c none) t.value s ∧ ItemActive b.item clock ∧ MayMint b c ∧
          NewTok clock s0.g c t) := by
  rintro s ⟨hg, hr⟩
  unfold mintOrSkip
  cases wanted with
  | false =>
    refine ⟨.refl _, ?_⟩
    intro o ho
    simp only [Bool.false_eq_true, if_false, Except.ok.injEq] at ho
    subst ho
    exact ⟨hg, hr, by simp⟩
  | true =>
  simp only [if_true]
  obtain ⟨h1, h2⟩ := mintEP_tri (mk := mk) (clock := clock) hR s0 b hb hcls c none tt (by simp) s ⟨hg, hr⟩
  rcases mintEP_cases mk clock s c (some b) none tt
      (by rintro p ⟨⟩; exact ⟨hg.mem hb, hcls⟩) (by simp) with ⟨t, v, he, _⟩ | ⟨e, he⟩
  · rw [he] at h1 h2 ⊢
    refine ⟨h1, ?_⟩
    intro o ho
    simp only [Except.ok.injEq] at ho
    subst ho
    obtain ⟨h3, h4, h5, h6, _, h7⟩ := h2 t rfl
    exact ⟨h3, h4, by rintro _ ⟨⟩; exact ⟨h5, h6.1, h6.2, h7.2⟩⟩
  · rw [he] at h1 ⊢
    cases e <;> refine ⟨h1, ?_⟩ <;> intro o ho <;> simp only [reduceCtorEq, Except.ok.injEq] at ho
    subst ho
    exact ⟨hg.call _ (Nat.le_succ _), hR.1 _ _ (Nat.le_succ _) hr, by simp⟩

theorem mintIdToken_tri {R : GS → Prop} (hR : Stable R) (s0 : GS) (b : Token)
    (hb : b ∈ s0.g.issuedToken) (hcls : IsBase b) (scope : Option (List String)) (wanted : Bool) :
    Tri mk clock (fun s => Grown s0 s ∧ R s) (mintIdToken mk clock b scope wanted)
      (fun o s => Grown s0 s ∧ R s ∧ ∀ v, o = some (some v) →
        Minted mk s0.n b .idToken (MadeWith clock s0 b .idToken scope) v s ∧ ItemActive b.item clock ∧ wanted = true) := by
  rintro s ⟨hg, hr⟩
  unfold mintIdToken
  cases wanted with
  | false =>
    refine ⟨.refl _, ?_⟩
    intro o ho
    simp only [Bool.false_eq_true, if_false, Except.ok.injEq] at ho
    subst ho
    exact ⟨hg, hr, by simp⟩
  | true =>
    simp only [if_true]
    obtain ⟨h1, h2⟩ := mintEP_tri (mk := mk) (clock := clock) hR s0 b hb hcls .idToken scope ""
      (by simp) s ⟨hg, hr⟩
    rcases mintEP_cases mk clock s .idToken (some b) scope ""
        (by rintro p ⟨⟩; exact ⟨hg.mem hb, hcls⟩) (by simp) with ⟨t, v, he, _⟩ | ⟨e, he⟩
    · rw [he] at h1 h2 ⊢
      refine ⟨h1, ?_⟩
      intro o ho
      simp only [Except.ok.injEq] at ho
      subst ho
      obtain ⟨h3, h4, h5, h6, _⟩ := h2 t rfl
      exact ⟨h3, h4, by rintro _ ⟨⟩; exact ⟨h5, h6.1, trivial⟩⟩
    · rw [he] at h1 ⊢
      cases e <;> refine ⟨h1, ?_⟩ <;> intro o ho <;> simp only [reduceCtorEq, Except.ok.injEq] at ho
      all_goals
        subst ho
        exact ⟨hg.call _ (Nat.le_succ _), hR.1 _ _ (Nat.le_succ _) hr, by simp⟩

theorem mintRefresh_tri {R : GS → Prop} (hR : Stable R) (s0 : GS) (b : Token)
    (hb : b ∈ s0.g.issuedToken) (hcls : IsBase b) (scope : List String) (wanted : Bool)
    (hsc : ∀ x ∈ scope, x ∈ s0.g.scope) :
    Tri mk clock (fun s => Grown s0 s ∧ R s) (mintRefresh mk clock b scope wanted)
      (fun o s => Grown s0 s ∧ R s ∧ ∀ v, o = some v →
        Minted mk s0.n b .refreshToken (fun t => t.scope = scope ∧ NewTok clock s0.g .refreshToken t) v s ∧
          ItemActive b.item clock ∧ MayMint b .refreshToken) := by
  rintro s ⟨hg, hr⟩
  unfold mintRefresh
  cases wanted with
  | false =>
    refine ⟨.refl _, ?_⟩
    intro o ho
    simp only [Bool.false_eq_true, if_false, Except.ok.injEq] at ho
    subst ho
    exact ⟨hg, hr, by simp⟩
  | true =>
    simp only [if_true]
    rcases mintEP_cases mk clock s .refreshToken (some b) (some scope) ""
        (by rintro p ⟨⟩; exact ⟨hg.mem hb, hcls⟩)
        (by rintro sc ⟨⟩ _ x hx; rw [hg.scope]; exact hsc x hx) with ⟨t, v, he, hv, hf, hs, _, hnew⟩ | ⟨e, he⟩
    · rw [he]
      have hupd : ({ s.g with issuedToken := s.g.issuedToken ++ [t], used := s.g.used + 1 } : Grant).updateLast
          (fun r => { r with rules := b.rules }) =
          { s.g with issuedToken := s.g.issuedToken ++ [{ t with rules := b.rules }], used := s.g.used + 1 } := by
        simp [Grant.updateLast]
      simp only [hupd]
      have hf' : Fresh clock s.g .refreshToken (some b) v { t with rules := b.rules } :=
        { cls := hf.cls, value := hf.value, basedOn := hf.basedOn, revoked := hf.revoked, used := hf.used,
          issuedAt := hf.issuedAt, grantActive := hf.grantActive, base := hf.base, scope := hf.scope,
          codeOnce := by simp }
      refine ⟨.one (.mint s .refreshToken (some b) v _ hv hf'), ?_⟩
      intro o ho
      simp only [Except.ok.injEq] at ho
      subst ho
      refine ⟨hg.snoc _ _ _ (Nat.le_succ _), hR.2 _ _ _ _ (Nat.le_succ _) hr, ?_⟩
      rintro _ ⟨⟩
      obtain ⟨_, _, h3, h4⟩ := hf.base b rfl
      exact ⟨⟨⟨s.n, hg.le, by rw [hv, ← hf.value]⟩, { t with rules := b.rules }, by simp, rfl, hf.cls, hf.basedOn,
        hs _ rfl, (hg.newTok hnew).used, hnew.revoked, hnew.notBefore, (hg.newTok hnew).expiresAt⟩, h3, h4⟩
    · rw [he]
      exact ⟨.one (.call s), fun a ha => by cases ha⟩

/-! ### Changing the presented token -/

theorem find?_modifyFirst (v : String) (f : Token → Token) (hf : ∀ t, (f t).value = t.value) (ts : List Token) :
    (modifyFirst v f ts).find? (fun t => decide (t.value = v)) =
      (ts.find? (fun t => decide (t.value = v))).map f := by
  induction ts with
  | nil => rfl
  | cons t r ih =>
    unfold modifyFirst
    by_cases h : t.value = v
    · simp [h, hf]
    · simp [h, ih]

theorem getToken_updateToken (g : Grant) (v : String) (f : Token → Token) (hf : ∀ t, (f t).value = t.value) :
    (g.updateToken v f).getToken v = (g.getToken v).map f := find?_modifyFirst v f hf _

theorem mem_modifyFirst {v : String} {f : Token → Token} {ts : List Token} {t : Token} (h : t ∈ ts) :
    t ∈ modifyFirst v f ts ∨ f t ∈ modifyFirst v f ts := by
  induction ts with
  | nil => cases h
  | cons x r ih =>
    unfold modifyFirst
    rcases List.mem_cons.1 h with rfl | h'
    · split <;> simp
    · split
      · left; simp [h']
      · rcases ih h' with h | h
        · left; simp [h]
        · right; simp [h]

theorem Minted.update {n0 : Nat} {b : Token} {c : TokenClass} {Φ : Token → Prop} {v : String} {s : GS}
    (h : Minted mk n0 b c Φ v s) (x : String) (f : Token → Token)
    (hf : ∀ t, (f t).value = t.value ∧ (f t).cls = t.cls ∧ (f t).basedOn = t.basedOn ∧ (Φ t → Φ (f t))) :
    Minted mk n0 b c Φ v ⟨s.g.updateToken x f, s.n⟩ := by
  obtain ⟨hk, t, ht, h1, h2, h3, h4⟩ := h
  refine ⟨hk, ?_⟩
  rcases mem_modifyFirst (v := x) (f := f) ht with h | h
  · exact ⟨t, h, h1, h2, h3, h4⟩
  · obtain ⟨e1, e2, e3, e4⟩ := hf t
    exact ⟨f t, h, e1.trans h1, e2.trans h2, e3.trans h3, e4 h4⟩

theorem modifyFirst_mem_ne {v : String} {f : Token → Token} {ts : List Token} {t : Token} (h : t ∈ ts) (hv : t.value ≠ v) :
    t ∈ modifyFirst v f ts := by
  induction ts with
  | nil => cases h
  | cons x r ih =>
    unfold modifyFirst
    rcases List.mem_cons.1 h with rfl | h'
    · simp [hv]
    · split
      · simp [h']
      · simp [ih h']

/-- Changing another token does not matter. -/
theorem Minted.update_ne {n0 : Nat} {b : Token} {c : TokenClass} {Φ : Token → Prop} {v : String} {s : GS}
    (h : Minted mk n0 b c Φ v s) (x : String) (f : Token → Token)
    (hx : ∀ k c, n0 ≤ k → mk k c ≠ .ok x) : Minted mk n0 b c Φ v ⟨s.g.updateToken x f, s.n⟩ := by
  obtain ⟨⟨k, hk, hm⟩, t, ht, h1, h2, h3, h4⟩ := h
  refine ⟨⟨k, hk, hm⟩, t, modifyFirst_mem_ne ht ?_, h1, h2, h3, h4⟩
  rw [h1]
  rintro rfl
  exact hx k c hk hm

theorem revMono_modifyFirst (v : String) (ts : List Token) : RevMono ts (modifyFirst v Token.revoke ts) := by
  induction ts with
  | nil => exact RevMono.refl _
  | cons t r ih =>
    unfold modifyFirst
    split
    · refine ⟨by simp, fun i u hu => ?_⟩
      cases i with
      | zero => simp at hu; subst hu; exact ⟨true, by simp [Token.revoke], fun _ => rfl⟩
      | succ i => exact ⟨u.revoked, by simpa using hu, id⟩
    · refine ⟨by simp [ih.1], fun i u hu => ?_⟩
      cases i with
      | zero => simp at hu; subst hu; exact ⟨t.revoked, by simp, id⟩
      | succ i => simpa using ih.2 i u (by simpa using hu)

theorem scopeIs_static {s0 : GS} {b : Token} {sc : Option (List String)} {t t' : Token} (h : t'.scope = t.scope)
    (hs : ScopeIs s0 b sc t) : ScopeIs s0 b sc t' := by
  unfold ScopeIs at *
  cases sc <;> simp only [h] <;> exact hs

/-! ### The helpers -/

theorem dpop_tri (s0 : GS) (e : Bool) (req : TokenReq) :
    Tri mk clock (fun s => s = s0) (dpopStep e req)
      (fun _ s => ∃ j, s = ⟨{ s0.g with dpopJkt := j }, s0.n⟩) := by
  rintro s rfl
  unfold dpopStep
  split
  · split
    · exact ⟨.one (.attrs _ _ rfl rfl rfl rfl rfl rfl rfl (fun _ => rfl)), fun _ _ => ⟨_, rfl⟩⟩
    · exact ⟨.refl _, fun _ _ => ⟨s.g.dpopJkt, rfl⟩⟩
  · exact ⟨.refl _, fun _ _ => ⟨s.g.dpopJkt, rfl⟩⟩

/-- What a successful answer to a code means. -/
structure CodeOut (mk : Minter) (clock : Int) (client : String) (s0 : GS) (req : TokenReq) (code : String)
    (r : TokenResp) (s' : GS) : Prop where
  client : req.clientId = some client
  redirect : ∃ ar, s0.g.authzReq = some ar ∧ redirectCheck ar req = .ok true
  scope : r.scope = s0.g.scope
  expires : r.accessToken ≠ none → r.expiresIn = leftOf clock (s0.g.rulesFor .accessToken)
  base : ∃ b b', s0.g.getToken code = some b ∧ s'.g.getToken code = some b' ∧ b'.used = b.used + 1 ∧
    (∀ v, r.accessToken = some v → Minted mk s0.n b .accessToken (NewTok clock s0.g .accessToken) v s' ∧ ItemActive b.item clock ∧
      MayMint b .accessToken) ∧
    (∀ v, r.refreshToken = some v → Minted mk s0.n b .refreshToken (NewTok clock s0.g .refreshToken) v s' ∧ ItemActive b.item clock ∧
      MayMint b .refreshToken) ∧
    (∀ v, r.idToken = some v → Minted mk s0.n b .idToken (NewTok clock s0.g .idToken) v s' ∧ ItemActive b.item clock ∧
      MayMint b .idToken)

theorem Minted.mono {n0 : Nat} {b : Token} {c : TokenClass} {Φ Ψ : Token → Prop} {v : String} {s : GS}
    (h : Minted mk n0 b c Φ v s) (hi : ∀ t, Φ t → Ψ t) : Minted mk n0 b c Ψ v s := by
  obtain ⟨hk, t, ht, h1, h2, h3, h4⟩ := h
  exact ⟨hk, t, ht, h1, h2, h3, hi _ h4⟩

/-- What it means that everything is minted for a code. -/
structure CodeReady (mk : Minter) (clock : Int) (client : String) (s0 : GS) (req : TokenReq) (code : String)
    (r : TokenResp) (s' : GS) : Prop where
  client : req.clientId = some client
  redirect : ∃ ar, s0.g.authzReq = some ar ∧ redirectCheck ar req = .ok true
  scope : r.scope = s0.g.scope
  expires : r.accessToken ≠ none → r.expiresIn = leftOf clock (s0.g.rulesFor .accessToken)
  base : ∃ b, s0.g.getToken code = some b ∧ s'.g.getToken code = some b ∧
    (∀ v, r.accessToken = some v → Minted mk s0.n b .accessToken (NewTok clock s0.g .accessToken) v s' ∧ ItemActive b.item clock ∧
      MayMint b .accessToken) ∧
    (∀ v, r.refreshToken = some v → Minted mk s0.n b .refreshToken (NewTok clock s0.g .refreshToken) v s' ∧ ItemActive b.item clock ∧
      MayMint b .refreshToken) ∧
    (∀ v, r.idToken = some v → Minted mk s0.n b .idToken (NewTok clock s0.g .idToken) v s' ∧ ItemActive b.item clock ∧
      MayMint b .idToken)

theorem codeMint_tri (cfg : TokenCfg) (kw : Option Bool) (client : String) (req : TokenReq) (code : String)
    (s0 : GS) (hbase : ∀ b, s0.g.getToken code = some b → IsBase b) :
    Tri mk clock (fun s => s = s0) (codeMint cfg mk clock kw client req code)
      (fun r s' => ∀ x, r = .ready x → CodeReady mk clock client s0 req code x s') := by
  unfold codeMint
  split
  · exact Tri.raise _
  · rename_i reqClient hreq
    split
    · exact Tri.pure _ (by simp)
    · rename_i hcl
      have hcl : client = reqClient := by simpa using hcl
      subst hcl
      refine Tri.bind (Tri.ofExcept _) (fun supported => ?_)
      refine Tri.bind (Q := fun _ s => ∃ j, s = ⟨{ s0.g with dpopJkt := j }, s0.n⟩)
        ((dpop_tri s0 _ req).weaken (fun _ h => h.1) (fun _ _ h => h)) (fun ttype => ?_)
      refine Tri.bind Tri.get (fun s1 => ?_)
      intro s ⟨⟨j, hs⟩, he⟩
      subst he
      obtain rfl : s1 = ⟨{ s0.g with dpopJkt := j }, s0.n⟩ := hs
      set_option quotPrecheck false in
      generalize hs1 : (⟨{ s0.g with dpopJkt := j }, s0.n⟩ : GS) = s1 at *
      have hget : s1.g.getToken code = s0.g.getToken code := by subst hs1; rfl
      have har : s1.g.authzReq = s0.g.authzReq := by subst hs1; rfl
      have hscope : s1.g.scope = s0.g.scope := by subst hs1; rfl
      have hn : s1.n = s0.n := by subst hs1; rfl
      suffices h : Tri mk clock (fun s => s = s1) _ (fun r s' => ∀ x, r = MRes.ready x → CodeReady mk clock client s0 req code x s') from
        h s1 rfl
      cases hb : s1.g.getToken code with
      | none => exact Tri.raise _
      | some b =>
        simp only []
        have hb0 : s0.g.getToken code = some b := by rw [← hget]; exact hb
        have hbm := (getToken_mem hb).1
        have hbc := hbase b hb0
        cases ha : s1.g.authzReq with
        | none => exact Tri.raise _
        | some ar =>
          simp only []
          refine Tri.bind (Tri.ofExcept _) (fun same => ?_)
          split
          · exact Tri.pure _ (by simp)
          · rename_i hsame
            have hsame : same = true := by simpa using hsame
            subst hsame
            intro s hs
            obtain ⟨rfl, hred⟩ := hs
            suffices h : Tri mk clock (fun s' => Grown s s' ∧ True) _ (fun r s' => ∀ x, r = MRes.ready x → CodeReady mk clock client s0 req code x s') from
              h s ⟨Grown.refl s, trivial⟩
            let QA : Option Token → GS → Prop := fun o s' => ∀ t, o = some t →
              Minted mk s.n b .accessToken (MadeWith clock s b .accessToken none) t.value s' ∧ ItemActive b.item clock ∧
                MayMint b .accessToken ∧ NewTok clock s.g .accessToken t
            let QR : Option Token → GS → Prop := fun o s' => ∀ t, o = some t →
              Minted mk s.n b .refreshToken (MadeWith clock s b .refreshToken none) t.value s' ∧ ItemActive b.item clock ∧
                MayMint b .refreshToken ∧ NewTok clock s.g .refreshToken t
            have stQ : ∀ c (o : Option Token), Stable (fun s' => ∀ t, o = some t →
              Minted mk s.n b c (MadeWith clock s b c none) t.value s' ∧ ItemActive b.item clock ∧ MayMint b c ∧
                NewTok clock s.g c t) := by
              intro c o
              refine ⟨fun s' m _ h t ht => h t ht, fun s' t' k m _ h t ht => ?_⟩
              obtain ⟨h1, h2⟩ := h t ht
              exact ⟨h1.snoc _ _ _, h2⟩
            refine Tri.bind (Q := fun o s' => Grown s s' ∧ QA o s') ?_ (fun at? => ?_)
            · exact (mintOrSkip_tri stable_true s b hbm hbc _ _ _).weaken (fun _ h => h) (fun _ _ h => ⟨h.1, h.2.2⟩)
            refine Tri.bind (Q := fun o s' => Grown s s' ∧ (QA at? s' ∧ QR o s')) ?_ (fun rt? => ?_)
            · exact (mintOrSkip_tri (stQ _ at?) s b hbm hbc _ _ _).weaken (fun _ h => h)
                (fun _ _ h => ⟨h.1, h.2.1, h.2.2⟩)
            refine Tri.bind (Q := fun w s' => (w = true → TokenClass.idToken ∈ b.rules.supportsMinting.getD []) ∧
                Grown s s' ∧ (QA at? s' ∧ QR rt? s')) ?_ (fun openid => ?_)
            · refine (Tri.ofExcept _).weaken (fun _ h => h) (fun w s' h => ⟨fun hw => ?_, h.1⟩)
              have := h.2
              subst hw
              unfold idTokenWanted at this
              repeat' split at this
              all_goals simp at this
              exact this.2
            refine Tri.bind (Q := fun o s' => Grown s s' ∧ (QA at? s' ∧ QR rt? s') ∧ ∀ v, o = some (some v) →
                Minted mk s.n b .idToken (MadeWith clock s b .idToken none) v s' ∧ ItemActive b.item clock ∧ MayMint b .idToken)
                ?_ (fun idt => ?_)
            · intro s' hs'
              obtain ⟨hm1, hm2⟩ := mintIdToken_tri (mk := mk) (clock := clock)
                ((stQ _ at?).and (stQ _ rt?)) s b hbm hbc none openid s' hs'.2
              refine ⟨hm1, fun o ho => ?_⟩
              obtain ⟨h1, h2, h3⟩ := hm2 o ho
              refine ⟨h1, h2, fun v hv => ?_⟩
              obtain ⟨h4, h5, h6⟩ := h3 v hv
              refine ⟨h4, h5, ?_⟩
              have := hs'.1 h6
              cases hsm : b.rules.supportsMinting with
              | none => rw [hsm] at this; simp at this
              | some l => rw [hsm] at this; exact ⟨l, hsm, by simpa using this⟩
            cases idt with
            | none => exact Tri.pure _ (by simp)
            | some idv =>
              intro s' hs'
              refine ⟨.refl _, fun r hr x hx => ?_⟩
              obtain ⟨hg, ⟨h1, h2⟩, h3⟩ := hs'
              have hrules : ∀ c, s.g.rulesFor c = s0.g.rulesFor c := by subst hs1; exact fun _ => rfl
              have hnew : ∀ {c : TokenClass} {t : Token}, NewTok clock s.g c t → NewTok clock s0.g c t :=
                fun h => ⟨h.used, h.revoked, h.notBefore, by rw [h.expiresAt, hrules]⟩
              have hup : ∀ {c : TokenClass} {v : String}, Minted mk s.n b c (MadeWith clock s b c none) v s' →
                  Minted mk s0.n b c (NewTok clock s0.g c) v s' :=
                fun h => hn ▸ h.mono (fun _ h => hnew h.2)
              subst hx
              cases hr
              refine ⟨hreq, ⟨ar, by rw [← har]; exact ha, hred⟩, hscope, ?_, b, hb0, hg.getToken hb, ?_, ?_, ?_⟩
              · intro hne
                cases at? with
                | none => exact absurd rfl hne
                | some t =>
                  obtain ⟨_, _, _, h5⟩ := h1 t rfl
                  simp only [Option.bind_some, expiresInOf, leftOf, (hnew h5).expiresAt]
              · intro v hv
                cases at? with
                | none => cases hv
                | some t =>
                  simp at hv; subst hv
                  obtain ⟨h4, h5, h6, _⟩ := h1 t rfl
                  exact ⟨hup h4, h5, h6⟩
              · intro v hv
                cases rt? with
                | none => cases hv
                | some t =>
                  simp at hv; subst hv
                  obtain ⟨h4, h5, h6, _⟩ := h2 t rfl
                  exact ⟨hup h4, h5, h6⟩
              · intro v hv
                simp at hv; subst hv
                obtain ⟨h4, h5⟩ := h3 v rfl
                exact ⟨hup h4, h5⟩

theorem codeProcess_tri (cfg : TokenCfg) (kw : Option Bool) (client : String) (req : TokenReq) (code : String)
    (s0 : GS) (hbase : ∀ b, s0.g.getToken code = some b → IsBase b) (hold : ∀ k c, s0.n ≤ k → mk k c ≠ .ok code) :
    Tri mk clock (fun s => s = s0) (codeProcess cfg mk clock kw client req code)
      (fun r s' => ∀ x, r = .resp x → CodeOut mk clock client s0 req code x s') := by
  unfold codeProcess
  refine Tri.bind (codeMint_tri cfg kw client req code s0 hbase) (fun m => ?_)
  cases m with
  | err c => exact fun s _ => ⟨.refl _, fun r hr x hx => by subst hx; cases hr⟩
  | ready r =>
    intro s' hs'
    refine ⟨.one (.use s' code), fun r' hr x hx => ?_⟩
    subst hx
    cases hr
    obtain ⟨h1, h2, h3, hex, b, h4, h5, h6, h7, h8⟩ := hs' _ rfl
    have hup : ∀ {c : TokenClass} {v : String}, Minted mk s0.n b c (NewTok clock s0.g c) v s' →
        Minted mk s0.n b c (NewTok clock s0.g c) v ⟨s'.g.updateToken code Token.registerUsage, s'.n⟩ :=
      fun h => h.update_ne code _ hold
    refine ⟨h1, h2, h3, hex, b, b.registerUsage, h4, ?_, rfl, fun v hv => ?_, fun v hv => ?_, fun v hv => ?_⟩
    · show (s'.g.updateToken code Token.registerUsage).getToken code = _
      rw [getToken_updateToken _ _ Token.registerUsage (fun _ => rfl), h5]; rfl
    · exact ⟨hup (h6 v hv).1, (h6 v hv).2⟩
    · exact ⟨hup (h7 v hv).1, (h7 v hv).2⟩
    · exact ⟨hup (h8 v hv).1, (h8 v hv).2⟩

/-- What a successful answer to a refresh token means. -/
structure RefreshOut (mk : Minter) (clock : Int) (cfg : TokenCfg) (client : String) (s0 : GS) (req : TokenReq)
    (v : String) (r : TokenResp) (s' : GS) : Prop where
  client : req.clientId = some client
  expires : r.expiresIn = leftOf clock (s0.g.rulesFor .accessToken)
  base : ∃ b b' found a, s0.g.getToken v = some b ∧ s'.g.getToken v = some b' ∧ b'.used = b.used + 1 ∧
    (revokeRefreshFor cfg req.clientId = true → b'.revoked = true) ∧
    s0.g.findScope b.basedOn = .ok found ∧ r.scope = req.scope.getD found ∧
    r.accessToken = some a ∧
    (Minted mk s0.n b .accessToken (fun t => t.scope = r.scope ∧ NewTok clock s0.g .accessToken t) a s' ∧ ItemActive b.item clock ∧
      MayMint b .accessToken) ∧
    (∀ x, r.refreshToken = some x → Minted mk s0.n b .refreshToken (fun t => t.scope = r.scope ∧ NewTok clock s0.g .refreshToken t) x s' ∧
      MayMint b .refreshToken) ∧
    (∀ x, r.idToken = some x → Minted mk s0.n b .idToken (fun t => t.scope = r.scope ∧ NewTok clock s0.g .idToken t) x s' ∧ MayMint b .idToken)

theorem refreshProcess_tri (cfg : TokenCfg) (kw : Option Bool) (client : String) (req : TokenReq) (v : String)
    (s0 : GS) (hbase : ∀ b, s0.g.getToken v = some b → IsBase b)
    (hsc : ∀ b found, s0.g.getToken v = some b → s0.g.findScope b.basedOn = .ok found →
      ∀ x ∈ req.scope.getD found, x ∈ s0.g.scope) (hold : ∀ k c, s0.n ≤ k → mk k c ≠ .ok v) :
    Tri mk clock (fun s => s = s0) (refreshProcess cfg mk clock kw client req v)
      (fun r s' => ∀ x, r = .resp x → RefreshOut mk clock cfg client s0 req v x s') := by
  unfold refreshProcess
  split
  · exact Tri.raise _
  · rename_i reqClient hreq
    split
    · exact Tri.pure _ (by simp)
    · rename_i hcl
      have hcl : client = reqClient := by simpa using hcl
      subst hcl
      refine Tri.bind (Q := fun _ s => ∃ j, s = ⟨{ s0.g with dpopJkt := j }, s0.n⟩)
        (dpop_tri s0 _ req) (fun ttype => ?_)
      refine Tri.bind Tri.get (fun s1 => ?_)
      intro s ⟨⟨j, hs⟩, he⟩
      subst he
      obtain rfl : s1 = ⟨{ s0.g with dpopJkt := j }, s0.n⟩ := hs
      generalize hs1 : (⟨{ s0.g with dpopJkt := j }, s0.n⟩ : GS) = s1 at *
      have hget : s1.g.getToken v = s0.g.getToken v := by subst hs1; rfl
      have hscope : s1.g.scope = s0.g.scope := by subst hs1; rfl
      have hn : s1.n = s0.n := by subst hs1; rfl
      have hfs : ∀ x, s1.g.findScope x = s0.g.findScope x := by
        intro x
        subst hs1
        unfold Grant.findScope Grant.findScopeTok
        have : ∀ n t, Grant.findScopeFuel { s0.g with dpopJkt := j } n t = s0.g.findScopeFuel n t := by
          intro n
          induction n with
          | zero => intro t; rfl
          | succ n ih => intro t; simp only [Grant.findScopeFuel, ih]; rfl
        simp only [this]; rfl
      suffices h : Tri mk clock (fun s => s = s1) _ (fun r s' => ∀ x, r = HRes.resp x →
          RefreshOut mk clock cfg client s0 req v x s') from h s1 rfl
      cases hb : s1.g.getToken v with
      | none => exact Tri.raise _
      | some b =>
        simp only []
        have hb0 : s0.g.getToken v = some b := by rw [← hget]; exact hb
        have hbm := (getToken_mem hb).1
        have hbc := hbase b hb0
        refine Tri.bind (Tri.ofExcept _) (fun found => ?_)
        intro s hs
        obtain ⟨rfl, hfound⟩ := hs
        have hfound0 := hfound
        rw [hfs] at hfound0
        have hsub : ∀ x ∈ req.scope.getD found, x ∈ s.g.scope := by
          rw [hscope]; exact hsc b found hb0 hfound0
        generalize hscp : req.scope.getD found = scp at *
        suffices h : Tri mk clock (fun s' => Grown s s' ∧ True) _ (fun r s' => ∀ x, r = HRes.resp x →
          RefreshOut mk clock cfg client s0 req v x s') from h s ⟨Grown.refl s, trivial⟩
        have stQ : ∀ c (o : String) (P : Prop), Stable (fun s' => Minted mk s.n b c (fun t => t.scope = scp ∧ NewTok clock s.g c t) o s' ∧ P) := by
          intro c o P
          exact ⟨fun s' m _ h => h, fun s' t' k m _ h => ⟨h.1.snoc _ _ _, h.2⟩⟩
        refine Tri.bind (Q := fun t s' => Grown s s' ∧ (Minted mk s.n b .accessToken (fun t => t.scope = scp ∧ NewTok clock s.g .accessToken t) t.value s' ∧
            (ItemActive b.item clock ∧ MayMint b .accessToken ∧ NewTok clock s.g .accessToken t))) ?_ (fun at' => ?_)
        · exact (mintEP_tri stable_true s b hbm hbc _ (some scp) _
            (by rintro _ ⟨⟩ _ x hx; exact hsub x hx)).weaken (fun _ h => h)
            (fun _ _ h => ⟨h.1, h.2.2.1.mono (fun _ h => ⟨h.1, h.2⟩), h.2.2.2.1.1, h.2.2.2.1.2, h.2.2.2.2.2.2⟩)
        split
        · exact Tri.raise _
        · rename_i mints hmints
          let QA : GS → Prop := fun s' => Minted mk s.n b .accessToken (fun t => t.scope = scp ∧ NewTok clock s.g .accessToken t) at'.value s' ∧
            (ItemActive b.item clock ∧ MayMint b .accessToken ∧ NewTok clock s.g .accessToken at')
          let QR : Option String → GS → Prop := fun o s' => ∀ x, o = some x →
            Minted mk s.n b .refreshToken (fun t => t.scope = scp ∧ NewTok clock s.g .refreshToken t) x s' ∧ ItemActive b.item clock ∧ MayMint b .refreshToken
          refine Tri.bind (Q := fun o s' => Grown s s' ∧ (QA s' ∧ QR o s')) ?_ (fun rt => ?_)
          · exact (mintRefresh_tri (stQ _ _ _) s b hbm hbc scp _ hsub).weaken (fun _ h => h)
              (fun _ _ h => ⟨h.1, h.2.1, h.2.2⟩)
          have stR : Stable (QR rt) := by
            refine ⟨fun s' m _ h t ht => h t ht, fun s' t' k m _ h t ht => ?_⟩
            obtain ⟨h1, h2⟩ := h t ht
            exact ⟨h1.snoc _ _ _, h2⟩
          refine Tri.bind (Q := fun o s' => Grown s s' ∧ (QA s' ∧ QR rt s') ∧ ∀ x, o = some (some x) →
            Minted mk s.n b .idToken (fun t => t.scope = scp ∧ NewTok clock s.g .idToken t) x s' ∧ MayMint b .idToken) ?_ (fun idt => ?_)
          · refine (mintIdToken_tri ((stQ _ _ _).and stR) s b hbm hbc (some scp) _).weaken (fun _ h => h)
              (fun o s' h => ⟨h.1, h.2.1, fun x hx => ?_⟩)
            obtain ⟨h1, _, h3⟩ := h.2.2 x hx
            refine ⟨h1.mono (fun _ h => ⟨h.1, h.2⟩), mints, hmints, ?_⟩
            simp at h3
            exact h3.2.1
          cases idt with
          | none => exact Tri.pure _ (by simp)
          | some idv =>
            refine Tri.bind (Q := fun _ s' => (∀ {c : TokenClass} {x : String},
                (∃ s'', Minted mk s.n b c (fun t => t.scope = scp ∧ NewTok clock s.g c t) x s'' ∧ s' = ⟨s''.g.updateToken v Token.registerUsage, s''.n⟩) →
                Minted mk s.n b c (fun t => t.scope = scp ∧ NewTok clock s.g c t) x s') ∧ QA s' ∧ QR rt s' ∧ (∀ x, idv = some x →
                Minted mk s.n b .idToken (fun t => t.scope = scp ∧ NewTok clock s.g .idToken t) x s' ∧ MayMint b .idToken) ∧
                ∃ b', s'.g.getToken v = some b' ∧ b'.used = b.used + 1) ?_ (fun _ => ?_)
            · intro s' hs'
              refine ⟨.one (.use s' v), fun _ _ => ?_⟩
              obtain ⟨hg, ⟨h1, h2⟩, h3⟩ := hs'
              have hup : ∀ {c : TokenClass} {x : String}, Minted mk s.n b c (fun t => t.scope = scp ∧ NewTok clock s.g c t) x s' →
                  Minted mk s.n b c (fun t => t.scope = scp ∧ NewTok clock s.g c t) x ⟨s'.g.updateToken v Token.registerUsage, s'.n⟩ :=
                fun h => h.update_ne v _ (hn ▸ hold)
              refine ⟨?_, ⟨hup h1.1, h1.2⟩, fun x hx => ⟨hup (h2 x hx).1, (h2 x hx).2⟩,
                fun x hx => ⟨hup (h3 x (by rw [hx])).1, (h3 x (by rw [hx])).2⟩, b.registerUsage, ?_, rfl⟩
              · rintro c x ⟨s'', h', he⟩
                rw [he]
                exact h'.update_ne v _ (hn ▸ hold)
              · show (s'.g.updateToken v Token.registerUsage).getToken v = _
                rw [getToken_updateToken _ _ Token.registerUsage (fun _ => rfl), hg.getToken hb]; rfl
            · refine Tri.bind (Q := fun _ s' => QA s' ∧ QR rt s' ∧ (∀ x, idv = some x →
                Minted mk s.n b .idToken (fun t => t.scope = scp ∧ NewTok clock s.g .idToken t) x s' ∧ MayMint b .idToken) ∧
                ∃ b', s'.g.getToken v = some b' ∧ b'.used = b.used + 1 ∧
                  (revokeRefreshFor cfg req.clientId = true → b'.revoked = true)) ?_ (fun _ => ?_)
              · intro s' hs'
                obtain ⟨_, h1, h2, h3, b', hb', hu⟩ := hs'
                unfold revokeIf
                split
                · refine ⟨.one (.revoke s' _ (revMono_modifyFirst _ _)), fun _ _ => ?_⟩
                  have hup : ∀ {c : TokenClass} {x : String}, Minted mk s.n b c (fun t => t.scope = scp ∧ NewTok clock s.g c t) x s' →
                      Minted mk s.n b c (fun t => t.scope = scp ∧ NewTok clock s.g c t) x ⟨s'.g.updateToken v Token.revoke, s'.n⟩ :=
                    fun h => h.update_ne v _ (hn ▸ hold)
                  refine ⟨⟨hup h1.1, h1.2⟩, fun x hx => ⟨hup (h2 x hx).1, (h2 x hx).2⟩,
                    fun x hx => ⟨hup (h3 x hx).1, (h3 x hx).2⟩, b'.revoke, ?_, hu, fun _ => rfl⟩
                  show (s'.g.updateToken v Token.revoke).getToken v = _
                  rw [getToken_updateToken _ _ Token.revoke (fun _ => rfl), hb']; rfl
                · rename_i hrv
                  exact ⟨.refl _, fun _ _ => ⟨h1, h2, h3, b', hb', hu, fun h => absurd h hrv⟩⟩
              · refine Tri.pure _ (fun s' hs' x hx => ?_)
                cases hx
                obtain ⟨h1, h2, h3, b', hb', hu, hr⟩ := hs'
                rw [hn] at h3
                simp only [QA, QR, hn] at h1 h2
                have hrules : ∀ c, s.g.rulesFor c = s0.g.rulesFor c := by subst hs1; exact fun _ => rfl
                have hnew : ∀ {c : TokenClass} {t : Token}, NewTok clock s.g c t → NewTok clock s0.g c t :=
                  fun h => ⟨h.used, h.revoked, h.notBefore, by rw [h.expiresAt, hrules]⟩
                have hup : ∀ {c : TokenClass} {v : String},
                    Minted mk s0.n b c (fun t => t.scope = scp ∧ NewTok clock s.g c t) v s' →
                    Minted mk s0.n b c (fun t => t.scope = scp ∧ NewTok clock s0.g c t) v s' :=
                  fun h => h.mono (fun _ h => ⟨h.1, hnew h.2⟩)
                exact ⟨hreq, by simp only [expiresInOf, leftOf, (hnew h1.2.2.2).expiresAt], b, b', found, at'.value, hb0, hb', hu, hr, hfound0, hscp.symm, rfl,
                  ⟨hup h1.1, h1.2.1, h1.2.2.1⟩, fun x hx => ⟨hup (h2 x hx).1, (h2 x hx).2.2⟩,
                  fun x hx => ⟨hup (h3 x hx).1, (h3 x hx).2⟩⟩

/-! ### Authorization -/

/-- A token of class `c` with value `v` that is based on nothing is among the issued ones. -/
def MintedRoot (mk : Minter) (clock : Int) (n0 : Nat) (c : TokenClass) (v : String) (s : GS) : Prop :=
  (∃ k, n0 ≤ k ∧ mk k c = .ok v) ∧ ∃ t ∈ s.g.issuedToken, t.value = v ∧ t.cls = c ∧ t.basedOn = none ∧
    NewRoot clock s.g c t

theorem MintedRoot.snoc {n0 : Nat} {c : TokenClass} {v : String} {s : GS} (h : MintedRoot mk clock n0 c v s) (t : Token) (k m : Nat) :
    MintedRoot mk clock n0 c v ⟨{ s.g with issuedToken := s.g.issuedToken ++ [t], used := k }, m⟩ := by
  obtain ⟨hk, u, hu, h1, h2, h3, h4⟩ := h
  exact ⟨hk, u, List.mem_append_left _ hu, h1, h2, h3, h4.used, h4.revoked, h4.notBefore, h4.expiresAt⟩

theorem mintIfAsked_tri {R : GS → Prop} (hR : Stable R) (n0 : Nat) (hn : ∀ s, R s → n0 ≤ s.n) (c : TokenClass) (wanted : Bool) :
    Tri mk clock R (mintIfAsked mk clock c wanted)
      (fun o s => R s ∧ ∀ t, o = some t → MintedRoot mk clock n0 c t.value s ∧ NewRoot clock s.g c t) := by
  intro s hr
  unfold mintIfAsked
  cases wanted with
  | false =>
    refine ⟨.refl _, fun o ho => ?_⟩
    simp only [Bool.false_eq_true, if_false, Except.ok.injEq] at ho
    subst ho
    exact ⟨hr, by simp⟩
  | true =>
    simp only [if_true]
    rcases mintAuthz_cases mk clock s c none (by simp) with ⟨t, v, he, hv, hf, hnew⟩ | ⟨e, he⟩
    · rw [he]
      refine ⟨.one (.mint s c none v t hv hf), fun o ho => ?_⟩
      simp only [Except.ok.injEq] at ho
      subst ho
      refine ⟨hR.2 _ _ _ _ (Nat.le_succ _) hr, ?_⟩
      rintro _ ⟨⟩
      have hnew' : NewRoot clock { s.g with issuedToken := s.g.issuedToken ++ [t], used := s.g.used + 1 } c t :=
        ⟨hnew.used, hnew.revoked, hnew.notBefore, hnew.expiresAt⟩
      exact ⟨⟨⟨s.n, hn s hr, by rw [hv, hf.value]⟩, t, by simp, rfl, hf.cls, hf.basedOn, hnew'⟩, hnew'⟩
    · rw [he]
      exact ⟨.one (.call s), fun _ h => by cases h⟩

theorem mintIdTokenAuthz_tri {R : GS → Prop} (hR : Stable R) (n0 : Nat) (hn : ∀ s, R s → n0 ≤ s.n) (scope : Option (List String)) (wanted : Bool) :
    Tri mk clock R (mintIdTokenAuthz mk clock scope wanted)
      (fun o s => R s ∧ ∀ t, o = some (some t) → MintedRoot mk clock n0 .idToken t.value s) := by
  intro s hr
  unfold mintIdTokenAuthz
  cases wanted with
  | false =>
    refine ⟨.refl _, fun o ho => ?_⟩
    simp only [Bool.false_eq_true, if_false, Except.ok.injEq] at ho
    subst ho
    exact ⟨hr, by simp⟩
  | true =>
    simp only [if_true]
    cases scope with
    | none => exact ⟨.refl _, fun _ h => by cases h⟩
    | some sc =>
      simp only []
      rcases mintAuthz_cases mk clock s .idToken (some sc) (by simp) with ⟨t, v, he, hv, hf, hnew⟩ | ⟨e, he⟩
      · rw [he]
        refine ⟨.one (.mint s .idToken none v t hv hf), fun o ho => ?_⟩
        simp only [Except.ok.injEq] at ho
        subst ho
        refine ⟨hR.2 _ _ _ _ (Nat.le_succ _) hr, ?_⟩
        rintro _ ⟨⟩
        exact ⟨⟨s.n, hn s hr, by rw [hv, hf.value]⟩, t, by simp, rfl, hf.cls, hf.basedOn, hnew.used, hnew.revoked, hnew.notBefore, hnew.expiresAt⟩
      · rw [he]
        cases e <;> refine ⟨.one (.call s), ?_⟩ <;> intro o ho <;> simp only [reduceCtorEq, Except.ok.injEq] at ho
        all_goals
          subst ho
          exact ⟨hR.1 _ _ (Nat.le_succ _) hr, by simp⟩

theorem createAuthnResponse_tri (n0 : Nat) (filter : List String → List String) (req : AuthzReq) :
    Tri mk clock (fun s => n0 ≤ s.n) (createAuthnResponse mk clock filter req)
      (fun r s => ∀ x f, r = .resp x f →
        (x.accessToken ≠ none → x.expiresIn = rootLeft clock (s.g.rulesFor .accessToken)) ∧
        (∀ v, x.code = some v → MintedRoot mk clock n0 .authorizationCode v s) ∧
        (∀ v, x.accessToken = some v → MintedRoot mk clock n0 .accessToken v s) ∧
        (∀ v, x.idToken = some v → MintedRoot mk clock n0 .idToken v s)) := by
  unfold createAuthnResponse
  simp only []
  split
  · refine Tri.pure _ (fun s _ x f h => ?_)
    cases h
    exact ⟨by simp, by simp, by simp, by simp⟩
  · split
    · exact Tri.raise _
    · have stQ : ∀ c (o : Option Token), Stable (fun s => ∀ t, o = some t → MintedRoot mk clock n0 c t.value s ∧
          NewRoot clock s.g c t) :=
        fun c o => ⟨fun _ _ _ h => h, fun s t k m _ h u hu => ⟨(h u hu).1.snoc _ _ _,
          (h u hu).2.used, (h u hu).2.revoked, (h u hu).2.notBefore, (h u hu).2.expiresAt⟩⟩
      have st0 : Stable (fun s => n0 ≤ s.n) :=
        ⟨fun s m hm h => Nat.le_trans h hm, fun s t k m hm h => Nat.le_trans h hm⟩
      refine Tri.bind (mintIfAsked_tri st0 n0 (fun _ h => h) _ _) (fun code => ?_)
      refine Tri.bind (mintIfAsked_tri (st0.and (stQ _ code)) n0 (fun _ h => h.1) _ _) (fun at' => ?_)
      refine Tri.bind (mintIdTokenAuthz_tri ((st0.and (stQ _ code)).and (stQ _ at')) n0 (fun _ h => h.1.1) _ _)
        (fun idt => ?_)
      cases idt with
      | none => exact Tri.pure _ (by simp)
      | some idt =>
        simp only []
        split
        · refine Tri.pure _ (fun s hs x f h => ?_)
          cases h
          obtain ⟨⟨⟨_, h1⟩, h2⟩, h3⟩ := hs
          refine ⟨fun hne => ?_, fun v hv => ?_, fun v hv => ?_, fun v hv => ?_⟩
          · cases at' with
            | none => exact absurd rfl hne
            | some t => simp only [Option.bind_some, expiresInOf, rootLeft, (h2 t rfl).2.expiresAt]
          · cases code with
            | none => cases hv
            | some t => simp at hv; subst hv; exact (h1 t rfl).1
          · cases at' with
            | none => cases hv
            | some t => simp at hv; subst hv; exact (h2 t rfl).1
          · cases idt with
            | none => cases hv
            | some t => simp at hv; subst hv; exact h3 t rfl
        · exact Tri.pure _ (by simp)

theorem authzCall_micro (cfg : AuthzCfg) (claims : List String → Except Exc (Dict (Dict Json)))
    (client : String) (req : AuthzReq) (g : Grant) (n : Nat) :
    GMicro mk clock ⟨g, n⟩ ⟨(authzCall cfg claims clock client req g).2, n⟩ := by
  unfold authzCall
  simp only []
  split <;> split <;> split <;> split <;>
    first
      | exact .attrs _ _ rfl rfl rfl rfl rfl rfl rfl (fun h => by simp_all)
      | exact .attrs _ _ rfl rfl rfl rfl rfl rfl rfl (fun _ => rfl)

theorem revokeToken_micro {g g' : Grant} {v b : String} {rec : Bool} (h : g.revokeToken v b rec = .ok g') (n : Nat) :
    GMicro mk clock ⟨g, n⟩ ⟨g', n⟩ := by
  unfold Grant.revokeToken at h
  split at h
  · rename_i ts hts
    cases h
    exact .revoke ⟨g, n⟩ ts (revokeTokensFuel_revMono _ _ _ _ _ _ hts)
  · cases h

theorem codeParse_micros (cfg : TokenCfg) (req : TokenReq) (code : String) (g : Grant) (n : Nat) :
    Micros mk clock ⟨g, n⟩ ⟨(codeParse cfg clock req code g).2, n⟩ := by
  unfold codeParse
  split
  · exact .refl _
  · split
    · exact .refl _
    · split
      · split
        · rename_i h
          exact .one (revokeToken_micro h n)
        · exact .refl _
      · split
        · exact .refl _
        · split
          · exact .refl _
          · split
            · exact .refl _
            · split
              · exact .refl _
              · exact .refl _

end

end OidcOp
