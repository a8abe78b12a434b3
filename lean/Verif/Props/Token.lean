/-
Property theorems about tokens and grants: C10, C12, C13, C17, C23.
-/
import Verif.Lemmas.Token

namespace OidcOp
open Spec

/-! ## C10 -/

/-- C10. `is_active(now)` holds exactly when the item is not revoked, not used up, and inside its
validity period; `now = 0` means the clock. -/
theorem C10_is_active_iff (i : Item) (clock now : Int) :
    i.isActive clock now = true ↔ ItemActive i (if now = 0 then clock else now) :=
  isActive_iff i clock now

/-- Both directions occur: an item with all four limits set, at and after its expiry. -/
example : ({ maxUsage := some 2, used := 1, notBefore := 10, expiresAt := 20 } : Item).isActive 99 20 = true ∧
    ({ maxUsage := some 2, used := 1, notBefore := 10, expiresAt := 20 } : Item).isActive 99 21 = false ∧
    ({ maxUsage := some 2, used := 2, notBefore := 10, expiresAt := 20 } : Item).isActive 99 20 = false ∧
    ({ maxUsage := some 2, used := 1, notBefore := 10, expiresAt := 20 } : Item).isActive 15 0 = true := by
  decide

/-! ## C12 -/

/-- C12. When `mint_token` returns a token, the grant was active, the parent token (if any) was active
and allowed to mint that class, and the token returned is the one that was appended to the grant. -/
theorem C12_mint_only_from_live_authority (g g' : Grant) (clock : Int) (c : TokenClass)
    (basedOn : Option Token) (rules : Option UsageRules) (scope : Option (List String)) (tt : String)
    (h : Except Exc String) (t : Token)
    (hm : g.mintToken clock c basedOn rules scope tt h = (.ok (some t), g')) :
    ItemActive g.item clock ∧
    (∀ b, basedOn = some b → ItemActive b.item clock ∧ MayMint b c) ∧
    t.cls = c ∧ t.basedOn = basedOn.map Token.value ∧ h = .ok t.value ∧
    t.used = 0 ∧ t.revoked = false ∧ t.issuedAt = clock ∧
    g' = { g with issuedToken := g.issuedToken ++ [t], used := g.used + 1 } := by
  obtain ⟨h1, h2, -, ⟨v, sc, ty, hv, -, ht⟩, hg⟩ := mintToken_some hm
  refine ⟨h1, h2, ?_⟩
  subst ht
  exact ⟨rfl, rfl, hv, rfl, rfl, rfl, hg⟩

/-- C12. When `mint_token` does not return a token (it returns `None` or raises), the grant is left
as it was. -/
theorem C12_mint_refused_changes_nothing (g : Grant) (clock : Int) (c : TokenClass)
    (basedOn : Option Token) (rules : Option UsageRules) (scope : Option (List String)) (tt : String)
    (h : Except Exc String)
    (hm : ∀ t, (g.mintToken clock c basedOn rules scope tt h).1 ≠ .ok (some t)) :
    (g.mintToken clock c basedOn rules scope tt h).2 = g :=
  mintToken_not_some g clock c basedOn rules scope tt h hm

/-- C12. Minting from an inactive grant, an inactive parent or a parent without permission is
refused, for every handler and whatever else is asked for. -/
theorem C12_mint_refused (g : Grant) (clock : Int) (c : TokenClass) (basedOn : Option Token)
    (rules : Option UsageRules) (scope : Option (List String)) (tt : String) (h : Except Exc String)
    (hbad : ¬ ItemActive g.item clock ∨
      ∃ b, basedOn = some b ∧ (¬ ItemActive b.item clock ∨ ¬ MayMint b c)) :
    (∀ t, (g.mintToken clock c basedOn rules scope tt h).1 ≠ .ok (some t)) ∧
    (g.mintToken clock c basedOn rules scope tt h).2 = g := by
  have h1 : ∀ t, (g.mintToken clock c basedOn rules scope tt h).1 ≠ .ok (some t) := by
    intro t ht
    have := C12_mint_only_from_live_authority g _ clock c basedOn rules scope tt h t
      (Prod.ext ht rfl)
    rcases hbad with hb | ⟨b, hb, hb'⟩
    · exact hb this.1
    · have h2 := this.2.1 b hb
      rcases hb' with hb' | hb'
      · exact hb' h2.1
      · exact hb' h2.2
  exact ⟨h1, C12_mint_refused_changes_nothing _ _ _ _ _ _ _ _ h1⟩

/-- C12, converse. When the grant is active, the parent (if any) is active and may mint the class, the
class is known and the handler produces a value, a token is minted (the scope is given, or there is no
parent to inherit one from). -/
theorem C12_mint_succeeds (g : Grant) (clock : Int) (c : TokenClass) (basedOn : Option Token)
    (rules : Option UsageRules) (scope : Option (List String)) (tt v : String)
    (hg : ItemActive g.item clock) (hb : ∀ b, basedOn = some b → ItemActive b.item clock ∧ MayMint b c)
    (hc : c = .authorizationCode ∨ c = .accessToken ∨ c = .refreshToken ∨ c = .idToken)
    (hs : scope ≠ none ∨ basedOn = none) :
    ∃ t g', g.mintToken clock c basedOn rules scope tt (.ok v) = (.ok (some t), g') ∧ t.value = v := by
  have hk : c.known = true := by rcases hc with rfl | rfl | rfl | rfl <;> rfl
  have hga : g.isActive clock = true := (isActive_clock_iff _ _).2 hg
  unfold Grant.mintToken
  cases basedOn with
  | none =>
    cases scope with
    | none => simp [hga, hk, newToken]
    | some s => simp [hga, hk, newToken]
  | some b =>
    have hb' := hb b rfl
    have h1 : b.supportsMintingOf c = true := (supportsMintingOf_iff _ _).2 hb'.2
    have h2 : b.isActive clock = true := (isActive_clock_iff _ _).2 hb'.1
    cases scope with
    | none => simp at hs
    | some s => simp [hga, hk, newToken, h1, h2]

/-- A grant with one active code, used in the examples below. -/
def exCode : Token :=
  { cls := .authorizationCode, value := "A1", rules := setDefaults .authorizationCode {}, scope := ["openid"],
    expiresAt := 400 }
def exGrant : Grant :=
  { id := "g1", scope := ["openid", "email"], issuedToken := [exCode], expiresAt := 3600, used := 1 }

/-- A successful mint, one refused for the class and one refused because the code has expired. -/
example : ((exGrant.mintToken 100 .accessToken (some exCode) none none "" (.ok "T1")).1.toOption.bind id).map
      (fun t => (t.value, t.basedOn, t.scope)) = some ("T1", some "A1", ["openid"]) ∧
    (exGrant.mintToken 100 .authorizationCode (some exCode) none none "" (.ok "T1")).1 = .error .mintingNotAllowed ∧
    (exGrant.mintToken 401 .accessToken (some exCode) none none "" (.ok "T1")).1 = .error .mintingNotAllowed ∧
    (exGrant.mintToken 3601 .accessToken (some exCode) none none "" (.ok "T1")).1 = .ok none := by
  decide

/-! ## C13 -/

/-- C13. Whatever usage rules are given to `mint_token` or configured in the grant, a minted
authorization code allows exactly one usage. -/
theorem C13_code_single_use (g g' : Grant) (clock : Int) (basedOn : Option Token)
    (rules : Option UsageRules) (scope : Option (List String)) (tt : String)
    (h : Except Exc String) (t : Token)
    (hm : g.mintToken clock .authorizationCode basedOn rules scope tt h = (.ok (some t), g')) :
    t.rules.maxUsage = some 1 := by
  obtain ⟨-, -, -, ⟨v, sc, ty, -, -, rfl⟩, -⟩ := mintToken_some hm
  rfl

/-- C13. A token with max_usage 1 that has had its usage registered is inactive at every instant. -/
theorem C13_used_code_inactive (t : Token) (h : t.rules.maxUsage = some 1) (clock now : Int) :
    t.registerUsage.isActive clock now = false := by
  have : ¬ (t.registerUsage.isActive clock now = true) := by
    unfold Token.isActive
    rw [isActive_iff]
    intro ha
    have := ha.2.1 1 (by simpa [Token.item, Token.registerUsage] using h)
    simp [Token.item, Token.registerUsage] at this
    omega
  simpa using this

/-- A configuration that asks for ten usages still gives a single use code. -/
example : ((({ exGrant with usageRules := [(.authorizationCode, { maxUsage := some 10 })] } : Grant).mintToken 100
      .authorizationCode none none none "" (.ok "A2")).1.toOption.bind id).map (fun t => (t.rules.maxUsage,
        t.isActive 100, t.registerUsage.isActive 100)) = some (some 1, true, false) := by
  decide

/-! ## C17 -/

/-- C17. `grant.revoke_token(value=v, recursive=True)` terminates and revokes exactly the token with
value `v` and every token derived from it, on every grant whose ancestry is in order. -/
theorem C17_revoke_recursive (g : Grant) (hanc : Ancestry g.issuedToken) (v : String) (hv : v ≠ "") :
    ∃ ts, g.revokeToken v "" true = .ok { g with issuedToken := ts } ∧
      RevokedExactly (fun i => (∃ t, g.issuedToken[i]? = some t ∧ t.value = v) ∨
        DerivedFrom g.issuedToken v i) g.issuedToken ts := by
  refine ⟨_, ?_, revokedExactly_markBy _ _⟩
  unfold Grant.revokeToken
  rw [revokeTokensFuel_value _ hanc v hv]

/-- C17. `grant.revoke_token(value=v, recursive=False)` revokes exactly the token with value `v`. -/
theorem C17_revoke_single (g : Grant) (v : String) (hv : v ≠ "") :
    ∃ ts, g.revokeToken v "" false = .ok { g with issuedToken := ts } ∧
      RevokedExactly (fun i => ∃ t, g.issuedToken[i]? = some t ∧ t.value = v) g.issuedToken ts := by
  refine ⟨_, ?_, revokedExactly_markBy _ _⟩
  unfold Grant.revokeToken
  rw [revokeTokensFuel_value_nonrec _ _ v hv]

/-- C17. `grant.revoke_token(based_on=v, recursive=True)`, the call made when a code is replayed,
revokes exactly the tokens derived from `v` (not `v` itself). -/
theorem C17_revoke_descendants (g : Grant) (hanc : Ancestry g.issuedToken) (v : String) (hv : v ≠ "") :
    ∃ ts, g.revokeToken "" v true = .ok { g with issuedToken := ts } ∧
      RevokedExactly (DerivedFrom g.issuedToken v) g.issuedToken ts := by
  refine ⟨_, ?_, revokedExactly_markBy _ _⟩
  unfold Grant.revokeToken
  rw [revokeTokensFuel_basedOn g.issuedToken hanc _ v hv ?_ (by omega) _ (SameStatic.refl _)]
  intro i t _ _
  omega

/-- C17. `grant.revoke_token()` without a value and a parent revokes every token. -/
theorem C17_revoke_all (g : Grant) (r : Bool) :
    ∃ ts, g.revokeToken "" "" r = .ok { g with issuedToken := ts } ∧
      RevokedExactly (fun _ => True) g.issuedToken ts := by
  refine ⟨markBy (fun k => ∃ t, g.issuedToken[k]? = some t ∧ True) g.issuedToken, ?_,
    revokedExactly_congr ?_ (revokedExactly_markBy _ _)⟩
  · unfold Grant.revokeToken
    rw [revokeTokensFuel_all]
  · intro i hi
    simp [List.getElem?_eq_getElem hi]

/-- C17. `SessionManager._revoke_dependent` computes the same closure. -/
theorem C17_revoke_dependent (ts : List Token) (hanc : Ancestry ts) (v : String) :
    ∃ ts', revokeDependentFuel (ts.length + 1) v ts = .ok ts' ∧
      RevokedExactly (DerivedFrom ts v) ts ts' := by
  refine ⟨_, ?_, revokedExactly_markBy _ _⟩
  rw [revokeDependentFuel_eq ts hanc _ v ?_ (by omega) _ (SameStatic.refl _)]
  intro i t _ _
  omega

/-- A code, an access token and a refresh token based on it, a token based on the refresh token, and
an unrelated code. -/
def exTree : List Token :=
  [ { cls := .authorizationCode, value := "A1" },
    { cls := .accessToken, value := "T1", basedOn := some "A1" },
    { cls := .refreshToken, value := "R1", basedOn := some "A1" },
    { cls := .authorizationCode, value := "A2" },
    { cls := .accessToken, value := "T2", basedOn := some "R1" } ]

theorem exTree_ancestry : Ancestry exTree := by
  refine ⟨by decide, by decide, ?_⟩
  intro i t v ht hb
  match i, ht with
  | 0, ht => simp [exTree] at ht; subst ht; simp at hb
  | 1, ht => simp [exTree] at ht; subst ht; simp at hb; subst hb; exact ⟨0, _, by omega, rfl, rfl⟩
  | 2, ht => simp [exTree] at ht; subst ht; simp at hb; subst hb; exact ⟨0, _, by omega, rfl, rfl⟩
  | 3, ht => simp [exTree] at ht; subst ht; simp at hb
  | 4, ht => simp [exTree] at ht; subst ht; simp at hb; subst hb; exact ⟨2, _, by omega, rfl, rfl⟩
  | n + 5, ht => simp [exTree] at ht

/-- The hypotheses of C17 hold of a tree of depth three, and the closure is neither empty nor
everything. -/
example : (({ issuedToken := exTree } : Grant).revokeToken "A1" "").toOption.map
    (fun g => g.issuedToken.map Token.revoked) = some [true, true, true, false, true] ∧
    (({ issuedToken := exTree } : Grant).revokeToken "" "A1").toOption.map
    (fun g => g.issuedToken.map Token.revoked) = some [false, true, true, false, true] := by
  decide

end OidcOp
