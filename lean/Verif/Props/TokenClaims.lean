/-
C115: what is told about the user in tokens.
-/
import Verif.Spec.TokenClaims
import Verif.Props.PayloadExamples
import Verif.Props.ClaimSources

namespace OidcOp
open Spec

theorem set_keys_nodup {α : Type} (k : String) (v : α) : ∀ {d : Dict α}, d.keys.Nodup → (d.set k v).keys.Nodup := by
  intro d
  induction d with
  | nil => intro _; simp [Dict.set, Dict.keys]
  | cons a t ih =>
    obtain ⟨a, b⟩ := a
    intro h
    simp only [Dict.keys, List.map_cons, List.nodup_cons] at h
    unfold Dict.set
    by_cases hk : a = k
    · rw [if_pos hk]
      subst hk
      simpa [Dict.keys] using h
    · rw [if_neg hk]
      have h2 := ih h.2
      simp only [Dict.keys, List.map_cons, List.nodup_cons]
      refine ⟨?_, h2⟩
      intro hm
      have h3 : (Dict.set t k v).get? a ≠ none := by
        intro hn
        exact (Dict.get?_eq_none_iff _ _).1 hn hm
      rw [Dict.get?_set_ne _ _ (fun e => hk e.symm)] at h3
      exact h3 ((Dict.get?_eq_none_iff _ _).2 h.1)

theorem update_keys_nodup {α : Type} (e : Dict α) : ∀ {d : Dict α}, d.keys.Nodup → (d.update e).keys.Nodup := by
  unfold Dict.update
  induction e with
  | nil => intro d h; exact h
  | cons a t ih => intro d h; exact ih (set_keys_nodup _ _ h)

theorem collect_nodup (cfg : ClaimsCfg) (m : ClaimsModule) (b : Bool) (L : ClaimList) (client : Option String) (scopes : List String)
    (requested : Dict Json) (h : m.base.keys.Nodup) : (collectClaims cfg m b L client scopes requested).keys.Nodup := by
  unfold collectClaims
  simp only
  apply update_keys_nodup
  have h1 : (L.addTo m.base).keys.Nodup := by cases L <;> exact update_keys_nodup _ h
  split
  · exact update_keys_nodup _ h1
  · exact h1

theorem request_nodup {cfg : ClaimsCfg} {m : ClaimsModule} {req : Option AuthzReq} {point : String} {scopes : Option (List String)}
    {client second : Option String} {db db' : ClaimsDb} {r : Dict Json} (hm : getModule cfg point = .ok (some m))
    (hb : m.base.keys.Nodup) (h : claimsFromRequest cfg req point scopes client second db = (.ok r, db')) : r.keys.Nodup := by
  unfold claimsFromRequest at h
  rw [hm] at h
  simp only at h
  split at h
  · cases h
  · cases h
    exact collect_nodup _ _ _ _ _ _ _ hb

theorem userHas_unique {db : UserDb} {user k : String} {v w : Json} (h : UserHas db user k v) (h' : UserHas db user k w) : v = w := by
  obtain ⟨d, h1, h2⟩ := h
  obtain ⟨d', h3, h4⟩ := h'
  rw [h1] at h3; cases h3
  rw [h2] at h4; cases h4; rfl

/-- What the payload says under a name that is not its own. -/
theorem arguments_told {cfg : ClaimsCfg} {users : Option UserDb} {user client point jti : String} {g : Grant}
    {second : Option String} {scope : List String} {extra p : Dict Json} {db db' : ClaimsDb} {m : ClaimsModule} {req : AuthzReq}
    (h : payloadArguments cfg users user client g point second scope extra jti db = (.ok p, db'))
    (hm : getModule cfg point = .ok (some m)) (hr : g.authzReq = some req) (hne : client ≠ "")
    (hreg : cfg.scopes.cdb.get? client ≠ none) (hb : m.base.keys.Nodup)
    (hp : ProperClaims m (OwnSettings m db client) req point)
    (hs : ProperRelease cfg m (OwnSettings m db client) req client point second scope) (k : String) (v : Json)
    (hk : (basePayload g scope extra jti).get? k = none) (hacr : k = "acr" → wantsAcr g point second = .ok false) :
    p.get? k = some v ↔ ToldAt cfg m (OwnSettings m db client) req users user client point second scope k v := by
  unfold payloadArguments at h
  rw [hr] at h
  cases hc : claimsFromRequest cfg (some req) point (some scope) (some client) second db with
  | mk r d =>
    rw [hc] at h
    cases r with
    | error e => cases h
    | ok restr =>
      simp only [Prod.mk.injEq] at h
      obtain ⟨h, rfl⟩ := h
      have hsrc := C43_sources cfg m db d req point client scope (some client) second restr hm (by simp [truthyStr, hne]) hne hreg hp hc
      have hnd := request_nodup hm hb hc
      unfold fillPayload at h
      cases users with
      | none => simp [getUserClaims] at h
      | some udb =>
        obtain ⟨info, hi, hiff⟩ := C42_user_claims udb user restr hnd (by
          intro a s hm
          exact hs a s ((hsrc a s).1 (get?_of_mem_nodup hnd hm)))
        rw [hi] at h
        simp only at h
        have hval : (Dict.update (basePayload g scope extra jti) info).get? k = some v ↔ (k, v) ∈ info := by
          rw [Dict.get?_update]
          cases hg : Dict.get? info.reverse k with
          | none =>
            simp only [hk]
            constructor
            · intro e; cases e
            · intro hm
              have := (Dict.get?_eq_none_iff _ _).1 hg
              exact absurd (by simpa [Dict.keys] using ⟨v, hm⟩) this
          | some w =>
            have hw : (k, w) ∈ info := by simpa using Dict.get?_mem hg
            constructor
            · intro e; cases e; exact hw
            · intro hm
              rw [userHas_unique ((hiff k v).1 hm).1 ((hiff k w).1 hw).1]
        have hpv : p.get? k = some v ↔ (k, v) ∈ info := by
          rw [← hval]
          split at h
          · cases h
          · cases h; rfl
          · rename_i hw
            cases h
            rw [Dict.get?_set_ne]
            intro e
            rw [hacr e.symm] at hw
            cases hw
        rw [hpv, hiff]
        constructor
        · rintro ⟨h1, spec, h2, h3⟩
          exact ⟨udb, spec, rfl, h1, (hsrc k spec).1 h2, h3⟩
        · rintro ⟨udb', spec, h0, h1, h2, h3⟩
          cases h0
          exact ⟨h1, spec, (hsrc k spec).2 h2, h3⟩

theorem base_none {g : Grant} {scope : List String} {code atok : Option String} {jti k : String}
    (h : k ∉ ["scope", "aud", "jti", "cnf", "client_id", "sub", "code", "access_token"]) :
    (basePayload g scope (idtExtra code atok) jti).get? k = none ∧ (basePayload g scope [] jti).get? k = none := by
  simp only [List.mem_cons, List.not_mem_nil, or_false, not_or] at h
  obtain ⟨h1, h2, h3, h4, h5, h6, h7, h8⟩ := h
  constructor
  · rw [base_get? h4 h5 h6]
    cases code <;> cases atok <;>
      simp [idtExtra, Dict.update, Dict.set, Dict.get?, Ne.symm h1, Ne.symm h2, Ne.symm h3, Ne.symm h7, Ne.symm h8]
  · rw [base_get? h4 h5 h6]
    simp [Dict.update, Dict.get?, Ne.symm h1, Ne.symm h2, Ne.symm h3]

theorem erase_sublist {α : Type} (k : String) : ∀ (d : Dict α), (d.erase k).Sublist d := by
  intro d
  induction d with
  | nil => exact List.Sublist.refl _
  | cons a t ih =>
    obtain ⟨a, b⟩ := a
    unfold Dict.erase
    split
    · exact ih.cons _
    · exact ih.cons_cons _

theorem eraseAll_nodup {ks : List String} : ∀ {d : Dict Json}, d.keys.Nodup → (eraseAll d ks).keys.Nodup := by
  induction ks with
  | nil => intro d h; exact h
  | cons a ks ih =>
    intro d h
    exact ih (List.Nodup.sublist ((erase_sublist a d).map _) h)

theorem arguments_nodup {cfg : ClaimsCfg} {users : Option UserDb} {user client point jti : String} {g : Grant}
    {second : Option String} {scope : List String} {extra p : Dict Json} {db db' : ClaimsDb}
    (h : payloadArguments cfg users user client g point second scope extra jti db = (.ok p, db')) : p.keys.Nodup := by
  have hbase : (basePayload g scope extra jti).keys.Nodup := by
    unfold basePayload
    simp only
    have h1 : (Dict.update [("scope", Json.arr (scope.map Json.str)), ("aud", .arr (g.resources.map Json.str)), ("jti", .str jti)]
        extra).keys.Nodup := update_keys_nodup _ (by simp [Dict.keys])
    have h2 : ∀ (d : Dict Json), d.keys.Nodup → (match truthyStr g.dpopJkt with
        | some jkt => d.set "cnf" (.obj [("jkt", .str jkt)])
        | none => d).keys.Nodup := by
      intro d hd
      split
      · exact set_keys_nodup _ _ hd
      · exact hd
    split
    · exact set_keys_nodup _ _ (set_keys_nodup _ _ (h2 _ h1))
    · exact h2 _ h1
  unfold payloadArguments at h
  split at h
  · cases h
  · simp only [Prod.mk.injEq] at h
    have h := h.1
    unfold fillPayload at h
    split at h
    · cases h
    · split at h
      · cases h
      · cases h; exact update_keys_nodup _ hbase
      · cases h; exact set_keys_nodup _ _ (update_keys_nodup _ hbase)

theorem idtPayload_free {hash : String → Json} {g : Grant} {sid : String} {incl : Bool} {c t : Option Json} {info a : Dict Json}
    (h : idtPayload hash g sid incl c t info = .ok a) {k : String} (h1 : k ∉ idtProtected) (h2 : k ≠ "sid") (h3 : k ≠ "c_hash")
    (h4 : k ≠ "at_hash") (hn : info.keys.Nodup) : a.get? k = info.get? k := by
  unfold idtPayload at h
  simp only at h
  have hk5 : k ≠ "nonce" ∧ k ≠ "sub" ∧ k ≠ "auth_time" ∧ k ≠ "acr" := by
    refine ⟨?_, ?_, ?_, ?_⟩ <;> · rintro rfl; exact h1 (by decide)
  split at h
  · cases h
  · rename_i b hb
    split at h
    · cases h
    · rename_i b2 hb2
      cases h
      rw [addNonce_get? hk5.1, addHash_get? hb2 h4, addHash_get? hb h3]
      have e : ∀ (d : Dict Json), (if incl = true then d.set "sid" (.str sid) else d).get? k = d.get? k := by
        intro d
        split
        · exact Dict.get?_set_ne _ _ (fun e => h2 e.symm)
        · rfl
      rw [e, Dict.get?_update]
      have hrev : Dict.get? (eraseAll info idtProtected).reverse k = info.get? k := by
        rw [Dict.get?_reverse_of_nodup, eraseAll_get?, if_neg h1]
        exact eraseAll_nodup hn
      rw [hrev]
      cases hi : info.get? k with
      | some x => rfl
      | none => exact (idtStart_spec g sid).2.2.2.2 k hk5.2.1 h2 hk5.2.2.1 hk5.2.2.2

theorem point_self {cfg : ClaimsCfg} {cls : String} {m : ClaimsModule} (h : cls ∈ releasePoints cfg.oidc)
    (hm : cfg.modules.get? cls = some m) : mintPoint cfg cls = cls ∧ getModule cfg cls = .ok (some m) := by
  constructor
  · unfold mintPoint
    rw [if_pos (by simpa using h)]
  · unfold getModule
    rw [if_neg (by simpa using h), hm]
    split <;> rfl

/-- C115, ID tokens.  An ID token that is issued says of the user what is to be told in ID tokens and nothing else: for each name
that is not one of the protocol's, the token has a value if and only if the claim is to be released, the user has this value and
it is one that was asked for.  The code and the access token that are issued with it are not in it. -/
theorem C115_id_token (L : JwtLib) (K : IdtCfg) (cfg : ClaimsCfg) (m : ClaimsModule) (users : Option UserDb) (now : Int) (nonce : Nat)
    (sid user client : String) (g : Grant) (second : Option String) (scope : List String) (code atok : Option String)
    (jti : String) (db db' : ClaimsDb) (tok : Str) (req : AuthzReq)
    (h : mintIdt L K cfg users now nonce sid user client g second scope code atok jti db = (.ok tok, db'))
    (ho : cfg.oidc = true) (hm : cfg.modules.get? "id_token" = some m) (hr : g.authzReq = some req) (hne : client ≠ "")
    (hreg : cfg.scopes.cdb.get? client ≠ none) (hb : m.base.keys.Nodup)
    (hp : ProperClaims m (OwnSettings m db client) req "id_token")
    (hs : ProperRelease cfg m (OwnSettings m db client) req client "id_token" second scope) :
    ∃ alg p, K.algOf.get? client = some alg ∧ L.unpack alg tok = .ok p ∧
      p.get? "code" = none ∧ p.get? "access_token" = none ∧
      ∀ k v, k ∉ idTokenNames →
        (p.get? k = some v ↔ ToldAt cfg m (OwnSettings m db client) req users user client "id_token" second scope k v) := by
  obtain ⟨hpt, hmod⟩ := point_self (cls := "id_token") (by rw [ho]; decide) hm
  obtain ⟨q, alg, a, hq, halg, ha, rfl⟩ := mintIdt_spec h
  rw [hpt] at hq
  have hnd := arguments_nodup hq
  have hout : ∀ k, k ∉ ["iss", "iat", "exp", "aud", "sid", "c_hash", "at_hash"] → k ∉ idtProtected →
      ((packed K.issuer now K.lifetime a).set "aud" (.arr [.str client])).get? k =
        (eraseAll q ["ttype", "encrypt", "code", "access_token"]).get? k := by
    intro k hk hk2
    simp only [List.mem_cons, List.not_mem_nil, or_false, not_or] at hk
    obtain ⟨h1, h2, h3, h4, h5, h6, h7⟩ := hk
    rw [Dict.get?_set_ne _ _ (fun e => h4 e.symm), packed_get? h1 h2 h3]
    exact idtPayload_free ha hk2 h5 h6 h7 (eraseAll_nodup hnd)
  refine ⟨alg, _, halg, L.unpack_sign _ _ _, ?_, ?_, ?_⟩
  · rw [hout _ (by decide) (by decide), eraseAll_get?]; rfl
  · rw [hout _ (by decide) (by decide), eraseAll_get?]; rfl
  · intro k v hk
    have hsub : ∀ (l : List String), (∀ x ∈ l, x ∈ idTokenNames) → k ∉ l := fun l hl hkl => hk (hl k hkl)
    rw [hout k (hsub _ (by decide)) (hsub _ (by decide)), eraseAll_get?, if_neg (hsub _ (by decide))]
    exact arguments_told hq hmod hr hne hreg hb hp hs k v (base_none (hsub _ (by decide))).1
      (fun e => absurd e (by rintro rfl; exact hk (by decide)))

theorem wantsAcr_spec {g : Grant} {ev : AuthnEvent} {point : String} (he : g.authnEvent = some ev)
    (hs : ∀ restr, g.claims.get? point = some restr → ProperSpec ((restr.get? "acr").getD .null)) :
    ∃ b, wantsAcr g point none = .ok b ∧ (b = true ↔ ContextTold g ev point) := by
  have h2 : addAcrValue g none = .ok false := rfl
  unfold wantsAcr
  rw [h2]
  cases hc : g.claims.get? point with
  | none =>
    refine ⟨false, ?_, ?_⟩
    · simp [addAcrValue, hc]
    · constructor
      · intro e; cases e
      · rintro ⟨r, h, _⟩; rw [hc] at h; cases h
  | some restr =>
    by_cases hem : restr = []
    · refine ⟨false, ?_, ?_⟩
      · simp [addAcrValue, hc, hem]
      · constructor
        · intro e; cases e
        · rintro ⟨r, h, h', _⟩; rw [hc] at h; cases h; exact absurd hem h'
    · obtain ⟨b, hb, hiff⟩ := C41_claims_match (.str ev.authnInfo) _ (hs restr hc)
      refine ⟨b, ?_, ?_⟩
      · have : addAcrValue g (some point) = .ok b := by
          unfold addAcrValue
          simp [hc, hem, he, hb]
        rw [this]
        cases b <;> rfl
      · rw [hiff]
        constructor
        · intro hm; exact ⟨restr, hc, hem, he, hm⟩
        · rintro ⟨r, h, _, _, hm⟩; rw [hc] at h; cases h; exact hm

/-- C115, access tokens.  A signed access token that is issued says of the user what is to be told in access tokens and nothing
else.  It has the context of the login if the grant has claims to release in access tokens and the login fits what they say of
its context. -/
theorem C115_access_token (L : JwtLib) (issuer alg : String) (lifetime : Int) (cfg : ClaimsCfg) (m : ClaimsModule)
    (users : Option UserDb) (rules : Option Int) (now : Int) (nonce : Nat) (sid : Str) (user client : String) (g : Grant)
    (scope : List String) (jti : String) (db db' : ClaimsDb) (tok : Str) (req : AuthzReq) (ev : AuthnEvent)
    (h : mintJwt L issuer alg lifetime cfg users "access_token" rules now nonce sid user client g scope jti db = (.ok tok, db'))
    (hm : cfg.modules.get? "access_token" = some m) (hr : g.authzReq = some req) (hne : client ≠ "")
    (hreg : cfg.scopes.cdb.get? client ≠ none) (hb : m.base.keys.Nodup)
    (hp : ProperClaims m (OwnSettings m db client) req "access_token")
    (hs : ProperRelease cfg m (OwnSettings m db client) req client "access_token" none scope)
    (he : g.authnEvent = some ev)
    (hc : ∀ restr, g.claims.get? "access_token" = some restr → ProperSpec ((restr.get? "acr").getD .null)) :
    ∃ p, L.unpack alg tok = .ok p ∧
      (∀ k v, k ∉ accessTokenNames →
        (p.get? k = some v ↔ ToldAt cfg m (OwnSettings m db client) req users user client "access_token" none scope k v)) ∧
      (ContextTold g ev "access_token" → p.get? "acr" = some (.str ev.authnInfo)) ∧
      (¬ ContextTold g ev "access_token" → ∀ v, p.get? "acr" = some v ↔
        ToldAt cfg m (OwnSettings m db client) req users user client "access_token" none scope "acr" v) := by
  obtain ⟨hpt, hmod⟩ := point_self (cls := "access_token") (by cases cfg.oidc <;> decide) hm
  unfold mintJwt at h
  rw [hpt] at h
  split at h
  · cases h
  · rename_i q d' hq
    simp only [Prod.mk.injEq] at h
    obtain ⟨h1, rfl⟩ := h
    split at h1
    · cases h1
    · cases h1
      obtain ⟨b, hw, hiff⟩ := wantsAcr_spec he hc
      have hout : ∀ k, k ∉ ["iss", "iat", "exp", "sid", "token_class"] →
          (jwtPayload issuer "access_token" lifetime rules now sid q).get? k = q.get? k := by
        intro k hk
        simp only [List.mem_cons, List.not_mem_nil, or_false, not_or] at hk
        obtain ⟨k1, k2, k3, k4, k5⟩ := hk
        unfold jwtPayload
        simp only
        rw [packed_get? k1 k2 k3, Dict.get?_set_ne _ _ (fun e => k5 e.symm), Dict.get?_set_ne _ _ (fun e => k4 e.symm),
          Dict.get?_erase_ne _ (fun e => k5 e.symm)]
      refine ⟨_, L.unpack_sign _ _ _, ?_, ?_, ?_⟩
      · intro k v hk
        have hsub : ∀ (l : List String), (∀ x ∈ l, x ∈ accessTokenNames) → k ∉ l := fun l hl hkl => hk (hl k hkl)
        rw [hout k (hsub _ (by decide))]
        by_cases hk2 : k = "code" ∨ k = "access_token"
        · refine arguments_told hq hmod hr hne hreg hb hp hs k v ?_ (fun e => absurd e (by rintro rfl; exact hk (by decide)))
          rcases hk2 with rfl | rfl <;> rw [base_get? (by decide) (by decide) (by decide)] <;> rfl
        · rw [not_or] at hk2
          refine arguments_told hq hmod hr hne hreg hb hp hs k v (base_none (code := none) (atok := none) ?_).2
            (fun e => absurd e (by rintro rfl; exact hk (by decide)))
          have := hsub ["scope", "aud", "jti", "cnf", "client_id", "sub"] (by decide)
          simp only [List.mem_cons, List.not_mem_nil, or_false, not_or] at this ⊢
          exact ⟨this.1, this.2.1, this.2.2.1, this.2.2.2.1, this.2.2.2.2.1, this.2.2.2.2.2, hk2.1, hk2.2⟩
      · intro ht
        rw [hiff.2 ht] at hw
        rw [hout _ (by decide)]
        unfold payloadArguments at hq
        split at hq
        · cases hq
        · simp only [Prod.mk.injEq] at hq
          have hq := hq.1
          unfold fillPayload at hq
          split at hq
          · cases hq
          · rw [hw] at hq
            cases hq
            rw [Dict.get?_set_self, he]
            rfl
      · intro ht v
        have hbf : b = false := by
          cases b with
          | false => rfl
          | true => exact absurd (hiff.1 rfl) ht
        rw [hout _ (by decide)]
        exact arguments_told hq hmod hr hne hreg hb hp hs "acr" v (base_none (code := none) (atok := none) (by decide)).2
          (fun _ => by rw [hw, hbf])

theorem request_ok (cfg : ClaimsCfg) (m : ClaimsModule) (req : AuthzReq) (point client : String) (scope : List String) (db : ClaimsDb)
    (hm : getModule cfg point = .ok (some m)) :
    ∃ r db', claimsFromRequest cfg (some req) point (some scope) (some client) none db = (.ok r, db') := by
  unfold claimsFromRequest
  rw [hm]
  simp only
  have : ∀ c, ∃ bl db', claimSettings m db c point none = (.ok bl, db') := by
    intro c
    unfold claimSettings
    split
    · split
      · exact ⟨_, _, rfl⟩
      · exact ⟨_, _, rfl⟩
    · exact ⟨_, _, rfl⟩
  obtain ⟨bl, db', hcs⟩ := this ((truthyStr (some client)).or ((some req).bind (·.clientId)))
  rw [hcs]
  exact ⟨_, _, rfl⟩

theorem arguments_ok {cfg : ClaimsCfg} {udb : UserDb} {user client point jti : String} {g : Grant}
    {scope : List String} {extra : Dict Json} {db : ClaimsDb} {m : ClaimsModule} {req : AuthzReq} {ev : AuthnEvent}
    (hm : getModule cfg point = .ok (some m)) (hr : g.authzReq = some req) (hne : client ≠ "")
    (hreg : cfg.scopes.cdb.get? client ≠ none) (hb : m.base.keys.Nodup)
    (hp : ProperClaims m (OwnSettings m db client) req point)
    (hs : ProperRelease cfg m (OwnSettings m db client) req client point none scope) (he : g.authnEvent = some ev)
    (hc : ∀ restr, g.claims.get? point = some restr → ProperSpec ((restr.get? "acr").getD .null)) :
    ∃ p db', payloadArguments cfg (some udb) user client g point none scope extra jti db = (.ok p, db') := by
  obtain ⟨r, db', hreq⟩ := request_ok cfg m req point client scope db hm
  have hsrc := C43_sources cfg m db db' req point client scope (some client) none r hm (by simp [truthyStr, hne]) hne hreg hp hreq
  have hnd := request_nodup hm hb hreq
  obtain ⟨info, hi, -⟩ := C42_user_claims udb user r hnd (by
    intro a s hm
    exact hs a s ((hsrc a s).1 (get?_of_mem_nodup hnd hm)))
  obtain ⟨b, hw, -⟩ := wantsAcr_spec he hc
  unfold payloadArguments
  rw [hr, hreq]
  simp only
  unfold fillPayload
  rw [hi]
  simp only
  rw [hw]
  cases b
  · exact ⟨_, _, rfl⟩
  · exact ⟨_, _, rfl⟩

theorem no_clash {cfg : ClaimsCfg} {users : Option UserDb} {user client point jti : String} {g : Grant}
    {second : Option String} {scope : List String} {code atok : Option String} {p : Dict Json} {db db' : ClaimsDb}
    (h : payloadArguments cfg users user client g point second scope (idtExtra code atok) jti db = (.ok p, db'))
    (h1 : NotInRecord users user "session_id") (h2 : NotInRecord users user "usage_rules") (h3 : NotInRecord users user "self") :
    keywordClash p = false := by
  have hk : ∀ k, k ∉ ["scope", "aud", "jti", "cnf", "client_id", "sub", "code", "access_token"] → k ≠ "acr" →
      NotInRecord users user k → p.has k = false := by
    intro k hk ha hn
    unfold Dict.has
    rw [arguments_get? h ha hn, (base_none hk).1]
    rfl
  unfold keywordClash
  rw [hk _ (by decide) (by decide) h1, hk _ (by decide) (by decide) h2, hk _ (by decide) (by decide) h3]
  rfl

/-- C115, access tokens are made: whatever the user's record says, unless it has claims with the names of arguments of the functions
that make tokens. -/
theorem C115_access_token_made (L : JwtLib) (issuer alg : String) (lifetime : Int) (cfg : ClaimsCfg) (m : ClaimsModule)
    (udb : UserDb) (rules : Option Int) (now : Int) (nonce : Nat) (sid : Str) (user client : String) (g : Grant)
    (scope : List String) (jti : String) (db : ClaimsDb) (req : AuthzReq) (ev : AuthnEvent)
    (hm : cfg.modules.get? "access_token" = some m) (hr : g.authzReq = some req) (hne : client ≠ "")
    (hreg : cfg.scopes.cdb.get? client ≠ none) (hb : m.base.keys.Nodup)
    (hp : ProperClaims m (OwnSettings m db client) req "access_token")
    (hs : ProperRelease cfg m (OwnSettings m db client) req client "access_token" none scope)
    (he : g.authnEvent = some ev)
    (hc : ∀ restr, g.claims.get? "access_token" = some restr → ProperSpec ((restr.get? "acr").getD .null))
    (hn : ∀ k ∈ ["session_id", "usage_rules", "self"], NotInRecord (some udb) user k) :
    ∃ tok db', mintJwt L issuer alg lifetime cfg (some udb) "access_token" rules now nonce sid user client g scope jti db =
      (.ok tok, db') := by
  obtain ⟨hpt, hmod⟩ := point_self (cls := "access_token") (by cases cfg.oidc <;> decide) hm
  obtain ⟨p, db', hq⟩ := arguments_ok (udb := udb) (user := user) (jti := jti) (extra := []) hmod hr hne hreg hb hp hs he hc
  have hcl := no_clash (code := none) (atok := none) hq (hn _ (by decide)) (hn _ (by decide)) (hn _ (by decide))
  unfold mintJwt
  rw [hpt, hq]
  simp only
  rw [hcl]
  exact ⟨_, _, rfl⟩

theorem addHash_ok {hash : String → Json} {name : String} {v : Option String} (a : Dict Json) :
    ∃ b, addHash hash name (v.map Json.str) a = .ok b := by
  cases v with
  | none => exact ⟨a, rfl⟩
  | some s =>
    unfold addHash
    simp only [Option.map_some]
    split
    · exact ⟨_, rfl⟩
    · exact ⟨_, rfl⟩

/-- C115, ID tokens are made for the clients that are known, whatever the user's record says, unless it has claims with the names of
arguments of the functions that make tokens. -/
theorem C115_id_token_made (L : JwtLib) (K : IdtCfg) (cfg : ClaimsCfg) (m : ClaimsModule) (udb : UserDb) (now : Int) (nonce : Nat)
    (sid user client : String) (g : Grant) (scope : List String) (code atok : Option String)
    (jti : String) (db : ClaimsDb) (req : AuthzReq) (ev : AuthnEvent)
    (ho : cfg.oidc = true) (hm : cfg.modules.get? "id_token" = some m) (hr : g.authzReq = some req) (hne : client ≠ "")
    (hreg : cfg.scopes.cdb.get? client ≠ none) (hb : m.base.keys.Nodup)
    (hp : ProperClaims m (OwnSettings m db client) req "id_token")
    (hs : ProperRelease cfg m (OwnSettings m db client) req client "id_token" none scope)
    (he : g.authnEvent = some ev)
    (hc : ∀ restr, g.claims.get? "id_token" = some restr → ProperSpec ((restr.get? "acr").getD .null))
    (ha : K.algOf.get? client ≠ none)
    (hn : ∀ k ∈ ["session_id", "usage_rules", "self", "code", "access_token"], NotInRecord (some udb) user k) :
    ∃ tok db', mintIdt L K cfg (some udb) now nonce sid user client g none scope code atok jti db = (.ok tok, db') := by
  obtain ⟨hpt, hmod⟩ := point_self (cls := "id_token") (by rw [ho]; decide) hm
  obtain ⟨p, db', hq⟩ := arguments_ok (udb := udb) (user := user) (jti := jti) (extra := idtExtra code atok) hmod hr hne hreg hb hp hs he hc
  have hcl := no_clash hq (hn _ (by decide)) (hn _ (by decide)) (hn _ (by decide))
  have hco := arguments_get? hq (by decide) (hn "code" (by decide))
  have hat := arguments_get? hq (by decide) (hn "access_token" (by decide))
  obtain ⟨b1, b2, -⟩ := base_extra g scope code atok jti
  rw [b1] at hco
  rw [b2] at hat
  unfold mintIdt
  rw [hpt, hq]
  simp only
  rw [hcl]
  unfold idtCall
  cases hk : K.algOf.get? client with
  | none => exact absurd hk ha
  | some alg =>
    simp only [hco, hat]
    have : ∀ incl info, ∃ a, idtPayload (K.hash alg) g sid incl (code.map Json.str) (atok.map Json.str) info = .ok a := by
      intro incl info
      unfold idtPayload
      simp only
      obtain ⟨a1, h1⟩ := addHash_ok (hash := K.hash alg) (name := "c_hash") (v := code)
        (if incl = true then ((idtStart g sid).update (eraseAll info idtProtected)).set "sid" (.str sid)
         else (idtStart g sid).update (eraseAll info idtProtected))
      rw [h1]
      simp only
      obtain ⟨a2, h2⟩ := addHash_ok (hash := K.hash alg) (name := "at_hash") (v := atok) a1
      rw [h2]
      exact ⟨_, rfl⟩
    obtain ⟨a, hpl⟩ := this (K.inclSid client) (eraseAll p ["ttype", "encrypt", "code", "access_token"])
    rw [hpl]
    exact ⟨_, _, rfl⟩

namespace Ex

/-- A provider that tells the email in ID tokens by scope, and always tells the name. -/
def tellCfg : ClaimsCfg :=
  { modules := [("id_token", { byScope := true, always := .names ["name"] }), ("access_token", {})]
    scopes := { cdb := [("c", {})] } }

def tellUsers : UserDb := [("d", [("email", .str "e"), ("name", .str "D"), ("phone_number", .str "1")])]

def tellGrant : Grant :=
  { sub := "subject", scope := ["openid", "email"]
    authzReq := some { clientId := some "c" }
    claims := [("access_token", [("phone_number", .null)])]
    authnEvent := some { uid := "d", authnInfo := "pw", authnTime := 7, validUntil := 9 } }

theorem tellProper (point : String) : ProperClaims { byScope := true, always := .names ["name"] } none { clientId := some "c" } point := by
  constructor
  · intro d h; cases h
  · intro cl p d h; cases h
  · intro d h; cases h

/-- All that is to be released has no further specification. -/
theorem tellRelease : ProperRelease tellCfg { byScope := true, always := .names ["name"] } none { clientId := some "c" } "c" "id_token" none
    ["openid", "email"] := by
  intro k spec h
  rcases h with ⟨d, h, -⟩ | ⟨-, ⟨-, -, rfl⟩ | ⟨-, (⟨-, -, rfl⟩ | ⟨cl, h, -⟩) | ⟨-, h⟩⟩⟩
  · cases h
  · exact .inl rfl
  · exact .inl rfl
  · cases h
  · cases h

/-- The email and the name are told in the ID token, the phone number is not. -/
example : (mintIdt jwtLib idtCfg tellCfg (some tellUsers) 1 0 "s" "d" "c" tellGrant none ["openid", "email"] (some "code1") none "j" []).1 =
    .ok (jwtLib.sign 0 "ES256"
      [("sub", .str "subject"), ("sid", .str "s"), ("auth_time", .num 7), ("acr", .str "pw"), ("scope", .arr [.str "openid", .str "email"]),
       ("jti", .str "j"), ("client_id", .str "c"), ("name", .str "D"), ("email", .str "e"), ("c_hash", .str "#code1"),
       ("iss", .str "op"), ("iat", .num 1), ("exp", .num 4), ("aud", .arr [.str "c"])]) := by
  decide +kernel

example : ∃ tok p, (mintIdt jwtLib idtCfg tellCfg (some tellUsers) 1 0 "s" "d" "c" tellGrant none ["openid", "email"] (some "code1") none "j"
      []).1 = .ok tok ∧ jwtLib.unpack "ES256" tok = .ok p ∧ p.get? "email" = some (.str "e") := by
  obtain ⟨tok, db', h⟩ := C115_id_token_made jwtLib idtCfg tellCfg { byScope := true, always := .names ["name"] } tellUsers 1 0 "s" "d" "c"
    tellGrant ["openid", "email"] (some "code1") none "j" [] { clientId := some "c" } _ rfl rfl rfl (by decide) (by decide +kernel)
    (by decide) (tellProper _) tellRelease rfl (by intro r h; cases h) (by decide +kernel) (by
      intro k hk db x h
      cases h
      rintro ⟨d, hd, hx⟩
      cases hd
      simp only [List.mem_cons, List.not_mem_nil, or_false] at hk
      rcases hk with rfl | rfl | rfl | rfl | rfl <;> simp [Dict.get?] at hx)
  obtain ⟨alg, p, h1, h2, -, -, h3⟩ := C115_id_token jwtLib idtCfg tellCfg { byScope := true, always := .names ["name"] } (some tellUsers) 1 0
    "s" "d" "c" tellGrant none ["openid", "email"] (some "code1") none "j" [] db' tok { clientId := some "c" } h rfl rfl rfl (by decide)
    (by decide +kernel) (by decide) (tellProper _) tellRelease
  have : idtCfg.algOf.get? "c" = some "ES256" := by decide +kernel
  rw [this] at h1
  cases h1
  refine ⟨tok, p, by rw [h], h2, (h3 "email" (.str "e") (by decide)).2 ⟨tellUsers, .null, rfl, ⟨_, rfl, rfl⟩, .inr ⟨?_, .inl ⟨.inl rfl, ?_, rfl⟩⟩, ?_⟩⟩
  · rintro x ⟨d, h, -⟩; cases h
  · refine ⟨"email", by decide, ?_, ?_⟩
    · exact ⟨{}, rfl, .inr (.inr ⟨rfl, rfl, by unfold ServerAllows InMapping; simp [tellCfg]⟩)⟩
    · exact ⟨{}, scope2claims, ["email", "email_verified"], rfl, by decide +kernel, by decide,
        .inr (.inr ⟨rfl, .inr ⟨.inl rfl, rfl⟩⟩)⟩
  · exact ⟨by decide, .inl rfl⟩

/-- An access token with the phone number, which was asked for, and with the context of the login. -/
example : (mintJwt jwtLib "op" "ES256" 600 tellCfg (some tellUsers) "access_token" (some 3) 1 0 "s".toList "d" "c"
      { tellGrant with authzReq := some { clientId := some "c", claims := [("access_token", [("phone_number", .null)])] } }
      ["openid", "email"] "j" []).1 =
    .ok (jwtLib.sign 0 "ES256"
      [("scope", .arr [.str "openid", .str "email"]), ("aud", .arr []), ("jti", .str "j"), ("client_id", .str "c"), ("sub", .str "subject"),
       ("phone_number", .str "1"), ("acr", .str "pw"), ("sid", .str "s"), ("token_class", .str "access_token"),
       ("iss", .str "op"), ("iat", .num 1), ("exp", .num 4)]) := by
  decide +kernel

example : ContextTold tellGrant { uid := "d", authnInfo := "pw", authnTime := 7, validUntil := 9 } "access_token" :=
  ⟨_, rfl, by simp, rfl, by decide, .inl rfl⟩

end Ex

end OidcOp
