/-
C93: the end of a signed token.
-/
import Verif.Spec.SignedTime
import Verif.Props.LifeTime
import Verif.Props.Parts

namespace OidcOp
open Spec

theorem signed_text {p : Parts} {c : TokenClass} {alg : String} {lt : Int} (hs : SignedClass p c alg lt) (k : Nat) (s : String) :
    p.token k c s = p.jwt.sign k alg (jwtPayload p.issuer c.name lt (p.expiresIn k c s) (p.clock k) s.toList (p.payload k c s)) := by
  unfold Parts.token
  rw [hs]
  rfl

theorem packed_iss (issuer : String) (now lt : Int) (x : Dict Json) : (packed issuer now lt x).get? "iss" = some (.str issuer) := by
  unfold packed
  simp only []
  split
  · rw [Dict.get?_set_ne _ _ (by decide), Dict.get?_set_self]
  · rw [Dict.get?_set_ne _ _ (by decide), Dict.get?_set_ne _ _ (by decide), Dict.get?_set_self]

theorem packed_iat (issuer : String) (now lt : Int) (x : Dict Json) : (packed issuer now lt x).get? "iat" = some (.num now) := by
  unfold packed
  simp only []
  split
  · rw [Dict.get?_set_self]
  · rw [Dict.get?_set_ne _ _ (by decide), Dict.get?_set_self]

theorem packed_exp (issuer : String) (now lt : Int) (x : Dict Json) (h : lt ≠ 0) :
    (packed issuer now lt x).get? "exp" = some (.num (now + lt)) := by
  unfold packed
  simp only []
  rw [if_neg h, Dict.get?_set_self]

theorem packed_exp_none (issuer : String) (now : Int) (x : Dict Json) : (packed issuer now 0 x).get? "exp" = x.get? "exp" := by
  unfold packed
  simp only []
  rw [if_pos trivial, Dict.get?_set_ne _ _ (by decide), Dict.get?_set_ne _ _ (by decide)]

/-- What is written in the token made by handler call `k`. -/
theorem signed_says {p : Parts} {c : TokenClass} {alg : String} {lt : Int} (hs : SignedClass p c alg lt) (k : Nat) (s : String)
    (h0 : (p.expiresIn k c s).getD lt ≠ 0) :
    SaysEnd p alg (String.ofList (p.token k c s)) (p.clock k) (some (p.clock k + (p.expiresIn k c s).getD lt)) := by
  refine ⟨jwtPayload p.issuer c.name lt (p.expiresIn k c s) (p.clock k) s.toList (p.payload k c s), ?_, ?_, ?_, ?_⟩
  · rw [String.toList_ofList, signed_text hs]
    exact p.jwt.unpack_sign _ _ _
  · exact packed_iss ..
  · exact packed_iat ..
  · exact packed_exp _ _ _ _ h0

theorem signed_says_none {p : Parts} {c : TokenClass} {alg : String} {lt : Int} (hs : SignedClass p c alg lt) (k : Nat) (s : String)
    (h0 : (p.expiresIn k c s).getD lt = 0) (hx : (p.payload k c s).get? "exp" = none) :
    SaysEnd p alg (String.ofList (p.token k c s)) (p.clock k) none := by
  refine ⟨jwtPayload p.issuer c.name lt (p.expiresIn k c s) (p.clock k) s.toList (p.payload k c s), ?_, ?_, ?_, ?_⟩
  · rw [String.toList_ofList, signed_text hs]
    exact p.jwt.unpack_sign _ _ _
  · exact packed_iss ..
  · exact packed_iat ..
  · unfold jwtPayload
    rw [h0, packed_exp_none, Dict.get?_set_ne _ _ (by decide), Dict.get?_set_ne _ _ (by decide), Dict.get?_erase_ne _ (by decide), hx]
    rfl

theorem signed_minted {p : Parts} {jti : Nat → String} (hp : SoundParts p jti) {c : TokenClass} {alg : String} {lt : Int}
    (hs : SignedClass p c alg lt) (k : Nat) (s : String) :
    MintedAs p.jwt p.handlers c.name (.jwt c.name alg lt) p.issuer (p.expiresIn k c s) (p.clock k) s.toList (p.token k c s) := by
  refine ⟨(hp.configured _ _ hs).2, hs, k, p.rnd k, p.payload k c s, (hp.payload k c s).cls, (hp.payload k c s).ttype, ?_⟩
  rw [signed_text hs]
  rfl

/-- A signed token leads to its session until the end it tells. -/
theorem signed_read {p : Parts} {jti : Nat → String} (hp : SoundParts p jti) {c : TokenClass} {alg : String} {lt : Int}
    (hs : SignedClass p c alg lt) (ho : AskedInTime p c) (k : Nat) (s : String) (at' : Int)
    (h0 : (p.expiresIn k c s).getD lt ≠ 0) (h : at' ≤ p.clock k + (p.expiresIn k c s).getD lt) :
    p.tokenSid (String.ofList (p.token k c s)) at' = .ok (some s) := by
  obtain ⟨before, after, h1, h2⟩ := ho
  have := C29_minted_is_recognised_partial p.jwt p.handlers hp.configured hp.separated _ _ _ _ _ at' _ _ (signed_minted hp hs k s)
    ⟨h0, .inl h⟩ before after h2
  unfold Parts.tokenSid
  rw [String.toList_ofList, h1, this]
  simp

/-- ... and not after it. -/
theorem signed_refused {p : Parts} {jti : Nat → String} (hp : SoundParts p jti) {c : TokenClass} {alg : String} {lt : Int}
    (hs : SignedClass p c alg lt) (ho : AskedInTime p c) (k : Nat) (s : String) (at' iat exp : Int)
    (he : SaysEnd p alg (String.ofList (p.token k c s)) iat (some exp)) (hpos : 0 ≤ exp) (h : exp < at') :
    p.tokenSid (String.ofList (p.token k c s)) at' = .error .toOld := by
  obtain ⟨before, after, h1, h2⟩ := ho
  obtain ⟨y, hy, _, _, hye⟩ := he
  rw [String.toList_ofList] at hy
  have hm := signed_minted hp hs k s
  have hk := hm.known
  have hcls : c.name ≠ "" := class_ne_empty hk
  have own : ∀ r, handlerInfo p.jwt at' p.handlers (p.token k c s) (c.name :: r) = .error .toOld := by
    intro r
    obtain ⟨x, e1, e2, e3, e4, _, _⟩ := jwtCall_payload p.issuer c.name hcls (p.expiresIn k c s) lt (p.clock k) s.toList (p.payload k c s)
      (hp.payload k c s).cls (hp.payload k c s).ttype p.jwt alg k
    have hu : p.jwt.unpack alg (p.token k c s) = .ok x := by
      rw [signed_text hs]
      unfold jwtCall at e1
      rw [e1]
      exact p.jwt.unpack_sign _ _ _
    have hxy : x = y := Except.ok.inj (hu.symm.trans hy)
    subst hxy
    have hi := jwtInfo_own (now := at') hu e2 e3 e4 hye
    have hexp : isExpired at' exp = true := by
      unfold isExpired
      rw [if_neg (by omega)]
      simpa using h
    rw [hexp, if_pos rfl] at hi
    rw [handlerInfo, hs]
    simp only [Handler.info, hi]
    rfl
  have hall : ∀ l : List String, "id_token" ∉ l →
      handlerInfo p.jwt at' p.handlers (p.token k c s) (l ++ c.name :: after) = .error .toOld := by
    intro l hl
    induction l with
    | nil => exact own _
    | cons m l ih =>
      have hml : "id_token" ∉ l := fun h => hl (List.mem_cons_of_mem _ h)
      by_cases hne : m = c.name
      · rw [hne]; exact own _
      · rw [List.cons_append, handlerInfo]
        cases hg : p.handlers.get? m with
        | none => exact ih hml
        | some h' =>
          obtain ⟨e, he, hsk⟩ := other_handler_skips (now := at') hp.configured hp.separated hm hg hne (by
            rintro a rfl
            have := hp.configured _ _ hg
            simp only at this
            exact hl (by rw [this]; exact List.mem_cons_self))
          simp only [he, hsk, if_true]
          exact ih hml
  unfold Parts.tokenSid
  rw [String.toList_ofList, h1, hall before h2]

theorem says_getD {rules : List (TokenClass × UsageRules)} {c : TokenClass} {n lt : Int} (h : SaysLifeTime rules c n) :
    ((rules.lookup c).bind (·.expiresIn)).getD lt = n := by
  obtain ⟨r, h1, h2⟩ := h
  rw [h1]
  simp [h2]

theorem LifeTime.of_says {rules : List (TokenClass × UsageRules)} {c : TokenClass} {n : Int} (h : SaysLifeTime rules c n) :
    LifeTime rules c n := .inl h

/-- C93 (partial: the usage rules of the grant give the life time, and it is positive; see `C93_agree_refuted` and
`C93_zero_refuted`).  For every signed token of a token response three times are the same: the end that is written in it, the one
that the response tells for the access token, and the last at which the provider accepts it, whatever happens later, as long as it
is neither revoked nor used up. -/
theorem C93_agree_partial (p : Parts) (jti : Nat → String) (hp : SoundParts p jti) (w : World) (hw : Reachable (p.env jti hp) w)
    (op : WOp) (ref : Nat) (client v : String) (rf : Bool) (req : TokenReq) (resp : TokenResp)
    (hresp : (step (p.env jti hp) w op).log = w.log ++ [.token ref client rf v req resp])
    (c : TokenClass) (a : String) (ha : HandsOut resp c a) (alg : String) (lt : Int) (hs : SignedClass p c alg lt)
    (ho : AskedInTime p c) :
    ∃ g, GrantAt w ref g ∧ (CalledWith p w (step (p.env jti hp) w op) g.usageRules →
      ∀ n, SaysLifeTime g.usageRules c n → 0 < n → w.now + n ≠ 0 →
        SaysEnd p alg a w.now (some (w.now + n)) ∧
        (c = .accessToken → resp.expiresIn = some n) ∧
        ∃ i, ∀ ops, ∃ t, TokenAt (run (p.env jti hp) (step (p.env jti hp) w op) ops) ref i t ∧ t.value = a ∧ t.cls = c ∧
          ∀ at', Accepted p t at' ↔ t.revoked = false ∧ (∀ m, t.rules.maxUsage = some m → t.used < m) ∧ at' ≤ w.now + n) := by
  obtain ⟨g, hg, h1, hexp⟩ := handed_out hw hresp
  obtain ⟨i, t, ⟨g', hg', ht⟩, hv, hcl, hnew, k, sid, hk1, hk2, hmade⟩ := h1 c a ha
  refine ⟨g, hg, fun hcall n hn hpos hend => ?_⟩
  have hn0 : n ≠ 0 := by omega
  have hck := hcall.clock k hk1 hk2
  have hrk := hcall.rules k c sid hk1 hk2
  have hgd : (p.expiresIn k c sid).getD lt = n := by rw [hrk]; exact says_getD hn
  have ha' : a = String.ofList (p.token k c sid) := hmade.value
  refine ⟨?_, fun hc => ?_, i, fun ops => ?_⟩
  · have := signed_says hs k sid (by rw [hgd]; omega)
    rw [hgd, hck] at this
    rw [ha']
    exact this
  · subst hc
    rw [hexp]
    unfold leftOf
    rw [endOf_lifeTime (.inl hn), if_neg hn0, if_pos hend]
    congr 1
    omega
  · have hc := chain_run (reachable_run hw [op]) ops
    obtain ⟨g2, t2, e1, e2, e3⟩ := tokenAt_later hc (grantAt_spec.1 hg') ht
    have hst := static_fields e3.static
    refine ⟨t2, ⟨g2, grantAt_spec.2 e1, e2⟩, hst.2.1.trans hv, hst.1.trans hcl, fun at' => ?_⟩
    have hexp2 : t2.expiresAt = w.now + n := by
      rw [hst.2.2.2.2.2.2.1, hnew.expiresAt, endOf_lifeTime (.inl hn), if_neg hn0]
    have hnb : t2.notBefore = 0 := by rw [hst.2.2.2.2.2.2.2, hnew.notBefore]
    have hact : t2.isActive at' = true ↔ t2.revoked = false ∧ (∀ m, t2.rules.maxUsage = some m → t2.used < m) ∧ at' ≤ w.now + n := by
      unfold Token.isActive
      rw [isActive_clock_iff]
      constructor
      · intro h
        exact ⟨h.1, h.2.1, by simpa [Token.item, hexp2] using h.2.2.2 (by simpa [Token.item, hexp2] using hend)⟩
      · intro h
        exact ⟨h.1, h.2.1, by simp [Token.item, hnb], fun _ => by simpa [Token.item, hexp2] using h.2.2⟩
    unfold Accepted
    rw [hact]
    refine ⟨fun h => h.2, fun h => ⟨⟨sid, ?_⟩, h⟩⟩
    rw [hst.2.1.trans hv, ha']
    exact signed_read hp hs ho k sid at' (by rw [hgd]; omega) (by rw [hgd, hck]; exact h.2.2)

/-- C93, the same for the tokens of an authorization response. -/
theorem C93_agree_authorization_partial (p : Parts) (jti : Nat → String) (hp : SoundParts p jti) (w : World)
    (hw : Reachable (p.env jti hp) w) (op : WOp) (ref : Nat) (client : String) (resp : AuthzResp)
    (hresp : (step (p.env jti hp) w op).log = w.log ++ [.authz ref client resp])
    (c : TokenClass) (a : String) (ha : AuthzHandsOut resp c a) (alg : String) (lt : Int) (hs : SignedClass p c alg lt)
    (ho : AskedInTime p c) :
    ∃ g, GrantAt (step (p.env jti hp) w op) ref g ∧ (CalledWith p w (step (p.env jti hp) w op) g.usageRules →
      ∀ n, SaysLifeTime g.usageRules c n → 0 < n → w.now + n ≠ 0 →
        SaysEnd p alg a w.now (some (w.now + n)) ∧
        (c = .accessToken → resp.expiresIn = some n) ∧
        ∃ i, ∀ ops, ∃ t, TokenAt (run (p.env jti hp) (step (p.env jti hp) w op) ops) ref i t ∧ t.value = a ∧ t.cls = c ∧
          ∀ at', Accepted p t at' ↔ t.revoked = false ∧ (∀ m, t.rules.maxUsage = some m → t.used < m) ∧ at' ≤ w.now + n) := by
  obtain ⟨g, hg, h1, hexp⟩ := authz_handed_out hw hresp
  obtain ⟨i, t, ⟨g', hg', ht⟩, hv, hcl, hnew, k, sid, hk1, hk2, hmade⟩ := h1 c a ha
  refine ⟨g, hg, fun hcall n hn hpos hend => ?_⟩
  have hn0 : n ≠ 0 := by omega
  have hck := hcall.clock k hk1 hk2
  have hrk := hcall.rules k c sid hk1 hk2
  have hgd : (p.expiresIn k c sid).getD lt = n := by rw [hrk]; exact says_getD hn
  have ha' : a = String.ofList (p.token k c sid) := hmade.value
  refine ⟨?_, fun hc => ?_, i, fun ops => ?_⟩
  · have := signed_says hs k sid (by rw [hgd]; omega)
    rw [hgd, hck] at this
    rw [ha']
    exact this
  · subst hc
    have hne : resp.accessToken ≠ none := by
      rcases ha with ⟨h, _⟩ | ⟨_, h⟩ | ⟨h, _⟩
      · cases h
      · rw [h]; simp
      · cases h
    rw [hexp hne]
    unfold rootLeft
    rw [rootEnd_says hn, if_neg hn0, if_pos hend]
    congr 1
    omega
  · have hc := chain_run (reachable_run hw [op]) ops
    obtain ⟨g2, t2, e1, e2, e3⟩ := tokenAt_later hc (grantAt_spec.1 hg') ht
    have hst := static_fields e3.static
    refine ⟨t2, ⟨g2, grantAt_spec.2 e1, e2⟩, hst.2.1.trans hv, hst.1.trans hcl, fun at' => ?_⟩
    have hexp2 : t2.expiresAt = w.now + n := by
      rw [hst.2.2.2.2.2.2.1, hnew.expiresAt, rootEnd_says hn, if_neg hn0]
    have hnb : t2.notBefore = 0 := by rw [hst.2.2.2.2.2.2.2, hnew.notBefore]
    have hact : t2.isActive at' = true ↔ t2.revoked = false ∧ (∀ m, t2.rules.maxUsage = some m → t2.used < m) ∧ at' ≤ w.now + n := by
      unfold Token.isActive
      rw [isActive_clock_iff]
      constructor
      · intro h
        exact ⟨h.1, h.2.1, by simpa [Token.item, hexp2] using h.2.2.2 (by simpa [Token.item, hexp2] using hend)⟩
      · intro h
        exact ⟨h.1, h.2.1, by simp [Token.item, hnb], fun _ => by simpa [Token.item, hexp2] using h.2.2⟩
    unfold Accepted
    rw [hact]
    refine ⟨fun h => h.2, fun h => ⟨⟨sid, ?_⟩, h⟩⟩
    rw [hst.2.1.trans hv, ha']
    exact signed_read hp hs ho k sid at' (by rw [hgd]; omega) (by rw [hgd, hck]; exact h.2.2)

/-- C93. Rules that say nothing about the life time: the signed token ends when the life time that its handler is configured with has
passed, whatever the response tells. -/
theorem C93_handler_lifetime (p : Parts) (jti : Nat → String) (hp : SoundParts p jti) (w : World) (hw : Reachable (p.env jti hp) w)
    (op : WOp) (ref : Nat) (client v : String) (rf : Bool) (req : TokenReq) (resp : TokenResp)
    (hresp : (step (p.env jti hp) w op).log = w.log ++ [.token ref client rf v req resp])
    (c : TokenClass) (a : String) (ha : HandsOut resp c a) (alg : String) (lt : Int) (hs : SignedClass p c alg lt) (h0 : lt ≠ 0) :
    ∃ g, GrantAt w ref g ∧ (CalledWith p w (step (p.env jti hp) w op) g.usageRules →
      (∀ n, ¬ SaysLifeTime g.usageRules c n) → SaysEnd p alg a w.now (some (w.now + lt))) := by
  obtain ⟨g, hg, h1, _⟩ := handed_out hw hresp
  obtain ⟨i, t, _, hv, hcl, hnew, k, sid, hk1, hk2, hmade⟩ := h1 c a ha
  refine ⟨g, hg, fun hcall hn => ?_⟩
  have hck := hcall.clock k hk1 hk2
  have hrk := hcall.rules k c sid hk1 hk2
  have hgd : (p.expiresIn k c sid).getD lt = lt := by
    rw [hrk]
    cases hl : g.usageRules.lookup c with
    | none => rfl
    | some r =>
      cases he : r.expiresIn with
      | none => simp [he]
      | some n => exact absurd ⟨r, hl, he⟩ (hn n)
  have := signed_says hs k sid (by rw [hgd]; exact h0)
  rw [hgd, hck] at this
  rw [show a = String.ofList (p.token k c sid) from hmade.value]
  exact this

/-- C93. Whatever the history and the configuration: no signed token is accepted after the end that is written in it. -/
theorem C93_not_after_its_end (p : Parts) (jti : Nat → String) (hp : SoundParts p jti) (w : World) (hw : Reachable (p.env jti hp) w)
    (ref i : Nat) (t : Token) (ht : TokenAt w ref i t) (alg : String) (lt : Int) (hs : SignedClass p t.cls alg lt)
    (ho : AskedInTime p t.cls) (iat exp : Int) (he : SaysEnd p alg t.value iat (some exp)) (hpos : 0 ≤ exp) (at' : Int)
    (hacc : Accepted p t at') : at' ≤ exp := by
  obtain ⟨g, hg, hti⟩ := ht
  obtain ⟨k, sid, _, hm, _⟩ := (winv_reachable hw).core.prov ref g i t (grantAt_spec.1 hg) hti
  have hv : t.value = String.ofList (p.token k t.cls sid) := hm.value
  rw [hv] at he
  rcases Int.lt_or_le exp at' with h | h
  · obtain ⟨⟨s', h1⟩, _⟩ := hacc
    rw [hv, signed_refused hp hs ho k sid at' iat exp he hpos h] at h1
    cases h1
  · exact h

namespace Ex

/-- The provider with signed access tokens that live `lt` seconds unless the usage rules say otherwise; its handlers are called at
time 1005 and see the given rules. -/
def signedParts (az : AuthzCfg) (rules : List (TokenClass × UsageRules)) (lt : Int) : Parts :=
  { parts (.jwt "access_token" "ES256" lt) with
    authz := az, clock := fun _ => 1005, expiresIn := fun _ c _ => (rules.lookup c).bind (·.expiresIn) }

theorem signedParts_sound (az : AuthzCfg) (rules : List (TokenClass × UsageRules)) (lt : Int) :
    SoundParts (signedParts az rules lt) (reps 'j') := by
  have h := parts_sound accessJwt (.inr rfl)
  have key : ∀ {n : String} {h : Handler}, (partHandlers (.jwt "access_token" "ES256" lt)).get? n = some h →
      (∃ h', (partHandlers accessJwt).get? n = some h' ∧ (∀ C c l, h = .dflt C c l → h' = .dflt C c l)) := by
    intro n h hg
    rcases partHandlers_cases hg with ⟨rfl, rfl⟩ | ⟨rfl, rfl⟩ | ⟨rfl, rfl⟩ | ⟨rfl, rfl⟩
    · exact ⟨_, rfl, fun _ _ _ e => e⟩
    · exact ⟨accessJwt, rfl, fun _ _ _ e => by cases e⟩
    · exact ⟨_, rfl, fun _ _ _ e => e⟩
    · exact ⟨_, rfl, fun _ _ _ e => by cases e⟩
  have enc : ∀ {n : String} {C : Cipher} {c : String} {l : Int},
      (partHandlers (.jwt "access_token" "ES256" lt)).get? n = some (.dflt C c l) →
      (partHandlers accessJwt).get? n = some (.dflt C c l) := by
    intro n C c l hg
    obtain ⟨h', h1, h2⟩ := key hg
    rw [h1, h2 _ _ _ rfl]
  refine ⟨?_, ⟨?_, ?_, ?_, h.separated.algs⟩, ?_, h.sigText, h.sidText, h.rnd, h.fresh, h.payload, h.idPayload, h.uuid, h.uuidFresh⟩
  · intro n hd hg
    rcases partHandlers_cases hg with ⟨rfl, rfl⟩ | ⟨rfl, rfl⟩ | ⟨rfl, rfl⟩ | ⟨rfl, rfl⟩
    · simp [tokenClasses]
    · simp [tokenClasses]
    · simp [tokenClasses]
    · rfl
  · intro n m C C' c c' l l' h1 h2
    exact h.separated.keys n m C C' c c' l l' (enc h1) (enc h2)
  · intro n C c l h1
    exact h.separated.encNotJwt n C c l (enc h1)
  · intro n C c l h1
    exact h.separated.jwtNotEnc n C c l (enc h1)
  · intro n C c l h1
    exact h.encText n C c l (enc h1)

def signedEnv (az : AuthzCfg) (rules : List (TokenClass × UsageRules)) (lt : Int) : Env :=
  (signedParts az rules lt).env (reps 'j') (signedParts_sound az rules lt)

theorem signedParts_class (az : AuthzCfg) (rules : List (TokenClass × UsageRules)) (lt : Int) :
    SignedClass (signedParts az rules lt) .accessToken "ES256" lt := by
  show (partHandlers (.jwt "access_token" "ES256" lt)).get? "access_token" = _
  unfold partHandlers
  rw [Dict.get?_cons, if_neg (by decide), Dict.get?_cons, if_pos rfl]
  rfl

theorem signedParts_asked (az : AuthzCfg) (rules : List (TokenClass × UsageRules)) (lt : Int) :
    AskedInTime (signedParts az rules lt) .accessToken := ⟨["authorization_code"], ["refresh_token", "id_token"], rfl, by decide⟩

/-- The handlers of `signedParts` are called with the rules they are given. -/
theorem signedParts_called {az : AuthzCfg} {rules : List (TokenClass × UsageRules)} {lt : Int} {w : World} (w' : World)
    {r : List (TokenClass × UsageRules)} (hn : w.now = 1005) (hr : r = rules) : CalledWith (signedParts az rules lt) w w' r := by
  subst hr
  exact ⟨fun _ _ _ => hn.symm, fun _ _ _ _ _ => rfl⟩

/-- An authorization and a token request. -/
def signedHistory (E : Env) : List WOp :=
  [.login "d" "c1" (authzReq "c1") event, .authorize (E.encSid 0 ["d", "c1", E.uuid 0]) (authzReq "c1"), .tick 5,
   .parse "c1" (codeReq (E.mkVal 1 .authorizationCode (E.encSid 0 ["d", "c1", E.uuid 0])))]

/-- The rules that the grants of the provider get. -/
def rulesAt (az : AuthzCfg) : List (TokenClass × UsageRules) := az.rulesOf (some "c1")

/-- The provider of the other examples, and one with the default configuration (configure.py:49-62, 69-83). -/
def SP : Parts := signedParts authz (rulesAt authz) 3600
def SPE : Env := signedEnv authz (rulesAt authz) 3600
def SPW : World := run SPE { now := 1000 } (signedHistory SPE)
def DP : Parts := signedParts defaultAuthz (rulesAt defaultAuthz) 3600
def DPE : Env := signedEnv defaultAuthz (rulesAt defaultAuthz) 3600
def DPW : World := run DPE { now := 1000 } (signedHistory DPE)

/-- The answer of the token endpoint. -/
def signedResp (E : Env) (w : World) : TokenResp := startResp E w (.process 0 none)

def signedCode (E : Env) : String := E.mkVal 1 .authorizationCode (E.encSid 0 ["d", "c1", E.uuid 0])

def signedAccess (E : Env) : String := E.mkVal 2 .accessToken (E.encSid 0 ["d", "c1", E.uuid 0])

set_option maxRecDepth 20000 in
theorem sp_facts : (step SPE SPW (.process 0 none)).log = SPW.log ++ [.token 2 "c1" false (signedCode SPE)
        { codeReq (signedCode SPE) with clientId := some "c1" } (signedResp SPE SPW)] ∧
    (signedResp SPE SPW).accessToken = some (signedAccess SPE) ∧ SPW.now = 1005 ∧
    ((SPW.st.grantAt 2).getD {}).usageRules = rulesAt authz ∧
    (rulesAt authz).lookup .accessToken = some { expiresIn := some 600 } := by decide +kernel

/-- C93: a code exchange meets the hypotheses; the access token is signed, and the rules give it 600 seconds. -/
example : (step SPE SPW (.process 0 none)).log = SPW.log ++ [.token 2 "c1" false (signedCode SPE)
        { codeReq (signedCode SPE) with clientId := some "c1" } (signedResp SPE SPW)] ∧
    HandsOut (signedResp SPE SPW) .accessToken (signedAccess SPE) ∧ SignedClass SP .accessToken "ES256" 3600 ∧
    AskedInTime SP .accessToken ∧
    CalledWith SP SPW (step SPE SPW (.process 0 none)) ((SPW.st.grantAt 2).getD {}).usageRules ∧
    SaysLifeTime ((SPW.st.grantAt 2).getD {}).usageRules .accessToken 600 ∧ SPW.now = 1005 := by
  obtain ⟨h1, h2, h3, h4, h5⟩ := sp_facts
  refine ⟨h1, .inl ⟨rfl, h2⟩, signedParts_class _ _ _, signedParts_asked _ _ _, signedParts_called _ h3 h4, ?_, h3⟩
  rw [h4]
  exact ⟨_, h5, rfl⟩

set_option maxRecDepth 20000 in
theorem dp_exp : (match wireJwt.unpack "ES256" (signedAccess DPE).toList with
    | .ok x => x.get? "exp"
    | .error _ => none) = some (.num 4605) := by decide +kernel

set_option maxRecDepth 20000 in
theorem dp_facts : (step DPE DPW (.process 0 none)).log = DPW.log ++ [.token 2 "c1" false (signedCode DPE)
        { codeReq (signedCode DPE) with clientId := some "c1" } (signedResp DPE DPW)] ∧
    (signedResp DPE DPW).accessToken = some (signedAccess DPE) ∧ DPW.now = 1005 ∧ GrantAt DPW 2 ((DPW.st.grantAt 2).getD {}) ∧
    ((DPW.st.grantAt 2).getD {}).usageRules = rulesAt defaultAuthz ∧ (signedResp DPE DPW).expiresIn = some 1800 := by
  decide +kernel

theorem dp_end (h : SaysEnd DP "ES256" (signedAccess DPE) DPW.now (some (DPW.now + 1800))) : False := by
  unfold SaysEnd at h
  obtain ⟨x, h1, _, _, h2⟩ := h
  have h3 := dp_exp
  have h4 : wireJwt.unpack "ES256" (signedAccess DPE).toList = .ok x := h1
  rw [h4] at h3
  simp only [] at h3
  rw [h3, dp_facts.2.2.1] at h2
  simp at h2

end Ex

/-- C93 is false of the code without the condition on the usage rules: with the default configuration (configure.py:49-62: no rules
for access tokens; 74-77: a handler with a life time of 3600) the response tells the client 1800 seconds, the provider refuses the
access token after that, but signed in the token is an end after 3600 seconds. -/
theorem C93_agree_refuted :
    ¬ (∀ (p : Parts) (jti : Nat → String) (hp : SoundParts p jti) (w : World), Reachable (p.env jti hp) w → ∀ (op : WOp) (ref : Nat)
        (client v : String) (rf : Bool) (req : TokenReq) (resp : TokenResp),
        (step (p.env jti hp) w op).log = w.log ++ [.token ref client rf v req resp] →
        ∀ (a : String), HandsOut resp .accessToken a → ∀ (alg : String) (lt : Int), SignedClass p .accessToken alg lt →
        AskedInTime p .accessToken → ∀ g, GrantAt w ref g → CalledWith p w (step (p.env jti hp) w op) g.usageRules →
        ∀ n, resp.expiresIn = some n → SaysEnd p alg a w.now (some (w.now + n))) := by
  intro h
  obtain ⟨f1, f2, f3, f4, f5, f6⟩ := Ex.dp_facts
  refine Ex.dp_end (h Ex.DP (Ex.reps 'j') (Ex.signedParts_sound _ _ _) Ex.DPW ⟨1000, Ex.signedHistory Ex.DPE, rfl⟩ (.process 0 none) 2
    "c1" (Ex.signedCode Ex.DPE) false { Ex.codeReq (Ex.signedCode Ex.DPE) with clientId := some "c1" } (Ex.signedResp Ex.DPE Ex.DPW)
    f1 (Ex.signedAccess Ex.DPE) (.inl ⟨rfl, f2⟩) "ES256" 3600 (Ex.signedParts_class _ _ _)
    (Ex.signedParts_asked _ _ _) _ f4 (Ex.signedParts_called _ f3 f5) 1800 f6)

namespace Ex

/-- Access tokens do not expire, say the rules. -/
def zeroAuthz : AuthzCfg :=
  { usageRules := some [(.accessToken, { expiresIn := some 0 })] }

def implicitReq : AuthzReq := { authzReq "c1" with responseType := ["token"] }
def ZP : Parts := signedParts zeroAuthz (rulesAt zeroAuthz) 3600
def ZPE : Env := signedEnv zeroAuthz (rulesAt zeroAuthz) 3600
def ZPW : World := run ZPE { now := 1000 } [.login "d" "c1" implicitReq event, .tick 5]
def ZOp : WOp := .authorize (ZPE.encSid 0 ["d", "c1", ZPE.uuid 0]) implicitReq
def zeroAccess : String := ZPE.mkVal 1 .accessToken (ZPE.encSid 0 ["d", "c1", ZPE.uuid 0])
def zeroResp : AuthzResp := match (step ZPE ZPW ZOp).log.getLast? with
  | some (.authz _ _ r) => r
  | _ => {}

set_option maxRecDepth 20000 in
theorem zp_facts : (step ZPE ZPW ZOp).log = ZPW.log ++ [.authz 2 "c1" zeroResp] ∧ zeroResp.accessToken = some zeroAccess ∧
    ZPW.now = 1005 ∧ GrantAt (step ZPE ZPW ZOp) 2 (((step ZPE ZPW ZOp).st.grantAt 2).getD {}) ∧
    (((step ZPE ZPW ZOp).st.grantAt 2).getD {}).usageRules = rulesAt zeroAuthz ∧
    (ZP.tokenSid zeroAccess ZPW.now).toOption.isSome = false := by decide +kernel

end Ex

/-- C93 is false of the code for a life time of 0, which means that tokens do not expire (`C23_without_lifetime`): a signed access
token then has no end in it, and is never accepted. -/
theorem C93_zero_refuted :
    ¬ (∀ (p : Parts) (jti : Nat → String) (hp : SoundParts p jti) (w : World), Reachable (p.env jti hp) w → ∀ (op : WOp) (ref : Nat)
        (client : String) (resp : AuthzResp), (step (p.env jti hp) w op).log = w.log ++ [.authz ref client resp] →
        ∀ (a : String), AuthzHandsOut resp .accessToken a → ∀ (alg : String) (lt : Int), SignedClass p .accessToken alg lt →
        AskedInTime p .accessToken → ∀ g, GrantAt (step (p.env jti hp) w op) ref g →
        CalledWith p w (step (p.env jti hp) w op) g.usageRules → ∃ sid, p.tokenSid a w.now = .ok (some sid)) := by
  intro h
  obtain ⟨f1, f2, f3, f4, f5, f6⟩ := Ex.zp_facts
  obtain ⟨sid, h1⟩ := h Ex.ZP (Ex.reps 'j') (Ex.signedParts_sound _ _ _) Ex.ZPW ⟨1000, _, rfl⟩ Ex.ZOp 2 "c1" Ex.zeroResp
    f1 Ex.zeroAccess (.inr (.inl ⟨rfl, f2⟩)) "ES256" 3600 (Ex.signedParts_class _ _ _)
    (Ex.signedParts_asked _ _ _) _ f4 (Ex.signedParts_called _ f3 f5)
  rw [h1] at f6
  cases f6

end OidcOp
