/-
C47, C48: user claims and the provider's own claims in tokens.
-/
import Verif.Spec.Payload
import Verif.Props.Claims

namespace OidcOp
open Spec

theorem get?_update_absent {d e : Dict Json} {k : String} (h : k ∉ e.keys) : (d.update e).get? k = d.get? k := by
  rw [Dict.get?_update]
  have : Dict.get? e.reverse k = none := by
    rw [Dict.get?_eq_none_iff]
    intro hk
    exact h (by simpa [Dict.keys] using hk)
  rw [this]

theorem eraseAll_get? (ks : List String) : ∀ (d : Dict Json) (k : String),
    (eraseAll d ks).get? k = if k ∈ ks then none else d.get? k := by
  induction ks with
  | nil => intro d k; simp [eraseAll]
  | cons a ks ih =>
    intro d k
    rw [eraseAll, ih, Dict.get?_erase]
    by_cases h1 : k ∈ ks
    · simp [h1]
    · by_cases h2 : a = k
      · subst h2; simp
      · have : k ≠ a := fun e => h2 e.symm
        simp [h1, h2, this]

theorem eraseAll_absent {d : Dict Json} {ks : List String} {k : String} (h : k ∈ ks ∨ d.get? k = none) :
    k ∉ (eraseAll d ks).keys := by
  rw [← Dict.get?_eq_none_iff, eraseAll_get?]
  rcases h with h | h <;> simp [h]

theorem userClaims_absent {users : Option UserDb} {user k : String} {restr info : Dict Json}
    (h : getUserClaims users user restr = .ok info) (hk : NotInRecord users user k) : k ∉ info.keys := by
  intro hm
  cases users with
  | none => cases h
  | some db =>
    obtain ⟨⟨k', x⟩, hx, rfl⟩ := List.mem_map.1 hm
    exact hk db x rfl (C42_user_claims_sound db user restr info h k' x hx).1

theorem fill_get? {users : Option UserDb} {user point k : String} {g : Grant} {second : Option String}
    {restr base p : Dict Json} (h : fillPayload users user g point second restr base = .ok p) (hk : k ≠ "acr")
    (hu : NotInRecord users user k) : p.get? k = base.get? k := by
  unfold fillPayload at h
  cases hi : getUserClaims users user restr with
  | error e => rw [hi] at h; cases h
  | ok info =>
    rw [hi] at h
    simp only at h
    have hab := userClaims_absent hi hu
    split at h
    · cases h
    · cases h; exact get?_update_absent hab
    · cases h; rw [Dict.get?_set_ne _ _ (fun e => hk e.symm)]; exact get?_update_absent hab

theorem arguments_get? {cfg : ClaimsCfg} {users : Option UserDb} {user client point jti k : String} {g : Grant}
    {second : Option String} {scope : List String} {extra p : Dict Json} {db db' : ClaimsDb}
    (h : payloadArguments cfg users user client g point second scope extra jti db = (.ok p, db')) (hk : k ≠ "acr")
    (hu : NotInRecord users user k) : p.get? k = (basePayload g scope extra jti).get? k := by
  unfold payloadArguments at h
  split at h
  · cases h
  · simp only [Prod.mk.injEq] at h
    exact fill_get? h.1 hk hu

theorem packed_get? {issuer : String} {now lifetime : Int} {d : Dict Json} {k : String} (h1 : k ≠ "iss") (h2 : k ≠ "iat")
    (h3 : k ≠ "exp") : (packed issuer now lifetime d).get? k = d.get? k := by
  unfold packed
  split
  · rw [Dict.get?_set_ne _ _ (fun e => h2 e.symm), Dict.get?_set_ne _ _ (fun e => h1 e.symm)]
  · rw [Dict.get?_set_ne _ _ (fun e => h3 e.symm), Dict.get?_set_ne _ _ (fun e => h2 e.symm),
      Dict.get?_set_ne _ _ (fun e => h1 e.symm)]

theorem packed_std (issuer : String) (now lifetime : Int) (d : Dict Json) :
    (packed issuer now lifetime d).get? "iss" = some (.str issuer) ∧
    (packed issuer now lifetime d).get? "iat" = some (.num now) ∧
    (lifetime ≠ 0 → (packed issuer now lifetime d).get? "exp" = some (.num (now + lifetime))) ∧
    (lifetime = 0 → (packed issuer now lifetime d).get? "exp" = d.get? "exp") := by
  unfold packed
  refine ⟨?_, ?_, ?_, ?_⟩
  · split
    · rw [Dict.get?_set_ne _ _ (by decide), Dict.get?_set_self]
    · rw [Dict.get?_set_ne _ _ (by decide), Dict.get?_set_ne _ _ (by decide), Dict.get?_set_self]
  · split
    · rw [Dict.get?_set_self]
    · rw [Dict.get?_set_ne _ _ (by decide), Dict.get?_set_self]
  · intro h; rw [if_neg h, Dict.get?_set_self]
  · intro h
    rw [if_pos h, Dict.get?_set_ne _ _ (by decide), Dict.get?_set_ne _ _ (by decide)]

theorem addHash_get? {hash : String → Json} {name k : String} {v : Option Json} {a b : Dict Json}
    (h : addHash hash name v a = .ok b) (hk : k ≠ name) : b.get? k = a.get? k := by
  unfold addHash at h
  split at h
  · cases h; rfl
  · split at h
    · split at h
      · cases h; exact Dict.get?_set_ne _ _ (fun e => hk e.symm)
      · cases h
    · cases h; rfl

theorem addNonce_get? {g : Grant} {a : Dict Json} {k : String} (hk : k ≠ "nonce") : (addNonce g a).get? k = a.get? k := by
  unfold addNonce
  split
  · exact Dict.get?_set_ne _ _ (fun e => hk e.symm)
  · rfl

theorem idtStart_spec (g : Grant) (sid : String) :
    (idtStart g sid).get? "sub" = some (.str g.sub) ∧ (idtStart g sid).get? "sid" = some (.str sid) ∧
    (idtStart g sid).get? "auth_time" = AuthTime g ∧ (idtStart g sid).get? "acr" = AuthContext g ∧
    ∀ k, k ≠ "sub" → k ≠ "sid" → k ≠ "auth_time" → k ≠ "acr" → (idtStart g sid).get? k = none := by
  unfold idtStart AuthTime AuthContext
  cases g.authnEvent with
  | none =>
    refine ⟨rfl, rfl, rfl, rfl, fun k h1 h2 _ _ => ?_⟩
    simp only
    rw [Dict.get?_cons, if_neg (fun e => h1 e.symm), Dict.get?_cons, if_neg (fun e => h2 e.symm)]; rfl
  | some ev =>
    simp only [Option.bind_some]
    by_cases ht : ev.authnTime = 0 <;> by_cases hi : ev.authnInfo = "" <;>
    simp only [ht, hi, ne_eq, not_true_eq_false, not_false_eq_true, if_true, if_false] <;>
    refine ⟨by simp [Dict.get?_set, Dict.get?_cons], by simp [Dict.get?_set, Dict.get?_cons],
      by simp [Dict.get?_set, Dict.get?_cons], by simp [Dict.get?_set, Dict.get?_cons], fun k h1 h2 h3 h4 => ?_⟩ <;>
    simp [Dict.get?_set, Dict.get?_cons, Ne.symm h1, Ne.symm h2, Ne.symm h3, Ne.symm h4]

/-- The members of an ID token. -/
theorem idtPayload_spec {hash : String → Json} {g : Grant} {sid : String} {incl : Bool} {code atok : Option Json}
    {info a : Dict Json} (h : idtPayload hash g sid incl code atok info = .ok a) :
    a.get? "sub" = some (.str g.sub) ∧ a.get? "nonce" = RequestNonce g ∧ a.get? "auth_time" = AuthTime g ∧
    a.get? "acr" = AuthContext g ∧ a.get? "exp" = none ∧
    (incl = true ∨ info.get? "sid" = none → a.get? "sid" = some (.str sid)) ∧
    (∀ s, code = some (.str s) → s ≠ "" → a.get? "c_hash" = some (hash s)) ∧
    (code = none → info.get? "c_hash" = none → a.get? "c_hash" = none) ∧
    (∀ s, atok = some (.str s) → s ≠ "" → a.get? "at_hash" = some (hash s)) ∧
    (atok = none → info.get? "at_hash" = none → a.get? "at_hash" = none) := by
  unfold idtPayload at h
  obtain ⟨s1, s2, s3, s4, s5⟩ := idtStart_spec g sid
  generalize hb : (if incl = true then ((idtStart g sid).update (eraseAll info idtProtected)).set "sid" (.str sid)
    else (idtStart g sid).update (eraseAll info idtProtected)) = b at h
  have hbk : ∀ k, k ≠ "sid" → b.get? k = ((idtStart g sid).update (eraseAll info idtProtected)).get? k := by
    intro k hk
    rw [← hb]
    split
    · exact Dict.get?_set_ne _ _ (fun e => hk e.symm)
    · rfl
  have hprot : ∀ k ∈ idtProtected, b.get? k = (idtStart g sid).get? k := by
    intro k hk
    rw [hbk k (by rintro rfl; exact absurd hk (by decide))]
    exact get?_update_absent (eraseAll_absent (.inl hk))
  have hfree : ∀ k, k ≠ "sid" → info.get? k = none → b.get? k = (idtStart g sid).get? k := by
    intro k hk hi
    rw [hbk k hk]
    exact get?_update_absent (eraseAll_absent (.inr hi))
  simp only at h
  split at h
  · cases h
  · rename_i b1 h1
    rw [hb] at h1
    split at h
    · cases h
    · rename_i b2 h2
      cases h
      have hk : ∀ k, k ≠ "c_hash" → k ≠ "at_hash" → k ≠ "nonce" → (addNonce g b2).get? k = b.get? k := by
        intro k e1 e2 e3
        rw [addNonce_get? e3, addHash_get? h2 e2, addHash_get? h1 e1]
      refine ⟨?_, ?_, ?_, ?_, ?_, ?_, ?_, ?_, ?_, ?_⟩
      · rw [hk _ (by decide) (by decide) (by decide), hprot _ (by decide), s1]
      · unfold addNonce RequestNonce
        have hn : b2.get? "nonce" = none := by
          rw [addHash_get? h2 (by decide), addHash_get? h1 (by decide), hprot _ (by decide)]
          exact s5 _ (by decide) (by decide) (by decide) (by decide)
        cases hr : g.authzReq with
        | none => simpa [hr] using hn
        | some r =>
          cases hrn : r.nonce with
          | none => simpa [hr, hrn] using hn
          | some n => simp [hrn]
      · rw [hk _ (by decide) (by decide) (by decide), hprot _ (by decide), s3]
      · rw [hk _ (by decide) (by decide) (by decide), hprot _ (by decide), s4]
      · rw [hk _ (by decide) (by decide) (by decide), hprot _ (by decide)]
        exact s5 _ (by decide) (by decide) (by decide) (by decide)
      · intro hi
        rw [hk _ (by decide) (by decide) (by decide), ← hb]
        rcases hi with rfl | hi
        · simp
        · split
          · simp
          · rw [get?_update_absent (eraseAll_absent (.inr hi)), s2]
      · intro s hs hne
        rw [addNonce_get? (by decide), addHash_get? h2 (by decide)]
        rw [hs] at h1
        simp only [addHash, Json.truthy, bne_iff_ne, ne_eq, hne, not_false_eq_true, if_true] at h1
        cases h1
        simp
      · intro hc hi
        rw [addNonce_get? (by decide), addHash_get? h2 (by decide)]
        rw [hc] at h1
        cases h1
        rw [hfree _ (by decide) hi]
        exact s5 _ (by decide) (by decide) (by decide) (by decide)
      · intro s hs hne
        rw [addNonce_get? (by decide)]
        rw [hs] at h2
        simp only [addHash, Json.truthy, bne_iff_ne, ne_eq, hne, not_false_eq_true, if_true] at h2
        cases h2
        simp
      · intro hc hi
        rw [addNonce_get? (by decide)]
        rw [hc] at h2
        cases h2
        rw [addHash_get? h1 (by decide), hfree _ (by decide) hi]
        exact s5 _ (by decide) (by decide) (by decide) (by decide)

theorem mintIdt_spec {L : JwtLib} {K : IdtCfg} {cfg : ClaimsCfg} {users : Option UserDb} {now : Int} {nonce : Nat}
    {sid user client : String} {g : Grant} {second : Option String} {scope : List String} {code atok : Option String}
    {jti : String} {db db' : ClaimsDb} {tok : Str}
    (h : mintIdt L K cfg users now nonce sid user client g second scope code atok jti db = (.ok tok, db')) :
    ∃ p alg a, payloadArguments cfg users user client g (mintPoint cfg "id_token") second scope (idtExtra code atok) jti db =
        (.ok p, db') ∧ K.algOf.get? client = some alg ∧
      idtPayload (K.hash alg) g sid (K.inclSid client) (p.get? "code") (p.get? "access_token")
        (eraseAll p ["ttype", "encrypt", "code", "access_token"]) = .ok a ∧
      tok = L.sign nonce alg ((packed K.issuer now K.lifetime a).set "aud" (.arr [.str client])) := by
  unfold mintIdt at h
  split at h
  · cases h
  · rename_i p d' hp
    simp only [Prod.mk.injEq] at h
    obtain ⟨h1, rfl⟩ := h
    split at h1
    · cases h1
    · unfold idtCall at h1
      split at h1
      · cases h1
      · rename_i alg halg
        split at h1
        · cases h1
        · rename_i a ha
          cases h1
          exact ⟨p, alg, a, hp, halg, ha, rfl⟩

/-- C47 (partial), the claims that the provider protects.  Whatever the user database holds and whatever claims were asked
for: an ID token that is issued is a token, signed with the client's algorithm, in which issuer, audience, expiry, subject,
nonce, authentication time and context are the provider's.  (Missing: the two hashes and the session id; see below.) -/
theorem C47_protected_partial (L : JwtLib) (K : IdtCfg) (cfg : ClaimsCfg) (users : Option UserDb) (now : Int) (nonce : Nat)
    (sid user client : String) (g : Grant) (second : Option String) (scope : List String) (code atok : Option String)
    (jti : String) (db db' : ClaimsDb) (tok : Str)
    (h : mintIdt L K cfg users now nonce sid user client g second scope code atok jti db = (.ok tok, db')) :
    ∃ alg p, K.algOf.get? client = some alg ∧ L.unpack alg tok = .ok p ∧
      p.get? "iss" = some (.str K.issuer) ∧ p.get? "aud" = some (.arr [.str client]) ∧ p.get? "exp" = Expiry now K.lifetime ∧
      p.get? "iat" = some (.num now) ∧ p.get? "sub" = some (.str g.sub) ∧ p.get? "nonce" = RequestNonce g ∧
      p.get? "auth_time" = AuthTime g ∧ p.get? "acr" = AuthContext g ∧
      (K.inclSid client = true → p.get? "sid" = some (.str sid)) := by
  obtain ⟨p, alg, a, _, halg, ha, rfl⟩ := mintIdt_spec h
  obtain ⟨a1, a2, a3, a4, a5, a6, _⟩ := idtPayload_spec ha
  obtain ⟨p1, p2, p3, p4⟩ := packed_std K.issuer now K.lifetime a
  refine ⟨alg, _, halg, L.unpack_sign _ _ _, ?_, Dict.get?_set_self .., ?_, ?_, ?_, ?_, ?_, ?_, ?_⟩
  · rw [Dict.get?_set_ne _ _ (by decide), p1]
  · rw [Dict.get?_set_ne _ _ (by decide)]
    unfold Expiry
    split
    · rename_i hl; rw [p4 hl, a5]
    · rename_i hl; rw [p3 hl]
  · rw [Dict.get?_set_ne _ _ (by decide), p2]
  · rw [Dict.get?_set_ne _ _ (by decide), packed_get? (by decide) (by decide) (by decide), a1]
  · rw [Dict.get?_set_ne _ _ (by decide), packed_get? (by decide) (by decide) (by decide), a2]
  · rw [Dict.get?_set_ne _ _ (by decide), packed_get? (by decide) (by decide) (by decide), a3]
  · rw [Dict.get?_set_ne _ _ (by decide), packed_get? (by decide) (by decide) (by decide), a4]
  · intro hi
    rw [Dict.get?_set_ne _ _ (by decide), packed_get? (by decide) (by decide) (by decide), a6 (.inl hi)]

theorem base_get? {g : Grant} {scope : List String} {extra : Dict Json} {jti k : String} (h1 : k ≠ "cnf")
    (h2 : k ≠ "client_id") (h3 : k ≠ "sub") :
    (basePayload g scope extra jti).get? k =
      (Dict.update [("scope", .arr (scope.map Json.str)), ("aud", .arr (g.resources.map Json.str)), ("jti", .str jti)]
        extra).get? k := by
  unfold basePayload
  simp only
  have hc : ∀ (d : Dict Json), (match truthyStr g.dpopJkt with
      | some jkt => d.set "cnf" (.obj [("jkt", .str jkt)])
      | none => d).get? k = d.get? k := by
    intro d
    split
    · exact Dict.get?_set_ne _ _ (fun e => h1 e.symm)
    · rfl
  split
  · rw [Dict.get?_set_ne _ _ (fun e => h3 e.symm), Dict.get?_set_ne _ _ (fun e => h2 e.symm)]
    exact hc _
  · exact hc _

theorem base_extra (g : Grant) (scope : List String) (code atok : Option String) (jti : String) :
    (basePayload g scope (idtExtra code atok) jti).get? "code" = code.map Json.str ∧
    (basePayload g scope (idtExtra code atok) jti).get? "access_token" = atok.map Json.str ∧
    (basePayload g scope (idtExtra code atok) jti).get? "c_hash" = none ∧
    (basePayload g scope (idtExtra code atok) jti).get? "at_hash" = none ∧
    (basePayload g scope (idtExtra code atok) jti).get? "sid" = none := by
  refine ⟨?_, ?_, ?_, ?_, ?_⟩ <;> rw [base_get? (by decide) (by decide) (by decide)] <;> cases code <;> cases atok <;> rfl

/-- C47 (partial), the hashes.  If the user's record has no claims called "code", "access_token", "c_hash" or "at_hash" then
the hashes are those of the code and the access token that are issued with the ID token, and there are none if nothing is
issued with it.  If the record has no "sid", the session id is the session's.  (Missing: records with these names, see the
refutations.) -/
theorem C47_hashes_partial (L : JwtLib) (K : IdtCfg) (cfg : ClaimsCfg) (users : Option UserDb) (now : Int) (nonce : Nat)
    (sid user client : String) (g : Grant) (second : Option String) (scope : List String) (code atok : Option String)
    (jti : String) (db db' : ClaimsDb) (tok : Str)
    (h : mintIdt L K cfg users now nonce sid user client g second scope code atok jti db = (.ok tok, db'))
    (hc : ∀ c, code = some c → c ≠ "") (ht : ∀ t, atok = some t → t ≠ "") :
    ∃ alg p, K.algOf.get? client = some alg ∧ L.unpack alg tok = .ok p ∧
      (NotInRecord users user "code" → NotInRecord users user "c_hash" → p.get? "c_hash" = code.map (K.hash alg)) ∧
      (NotInRecord users user "access_token" → NotInRecord users user "at_hash" → p.get? "at_hash" = atok.map (K.hash alg)) ∧
      (NotInRecord users user "sid" → p.get? "sid" = some (.str sid)) := by
  obtain ⟨p, alg, a, hp, halg, ha, rfl⟩ := mintIdt_spec h
  obtain ⟨_, _, _, _, _, a6, a7, a8, a9, a10⟩ := idtPayload_spec ha
  obtain ⟨b1, b2, b3, b4, b5⟩ := base_extra g scope code atok jti
  have hinfo : ∀ k, k ∉ ["ttype", "encrypt", "code", "access_token"] →
      (eraseAll p ["ttype", "encrypt", "code", "access_token"]).get? k = p.get? k := by
    intro k hk; rw [eraseAll_get?, if_neg hk]
  refine ⟨alg, _, halg, L.unpack_sign _ _ _, ?_, ?_, ?_⟩
  · intro n1 n2
    rw [Dict.get?_set_ne _ _ (by decide), packed_get? (by decide) (by decide) (by decide)]
    have e1 := arguments_get? hp (by decide) n1
    have e2 := arguments_get? hp (by decide) n2
    rw [b1] at e1; rw [b3] at e2
    cases code with
    | none => exact a8 e1 (by rw [hinfo _ (by decide), e2])
    | some c => exact a7 c e1 (hc c rfl)
  · intro n1 n2
    rw [Dict.get?_set_ne _ _ (by decide), packed_get? (by decide) (by decide) (by decide)]
    have e1 := arguments_get? hp (by decide) n1
    have e2 := arguments_get? hp (by decide) n2
    rw [b2] at e1; rw [b4] at e2
    cases atok with
    | none => exact a10 e1 (by rw [hinfo _ (by decide), e2])
    | some c => exact a9 c e1 (ht c rfl)
  · intro n1
    rw [Dict.get?_set_ne _ _ (by decide), packed_get? (by decide) (by decide) (by decide)]
    have e1 := arguments_get? hp (by decide) n1
    rw [b5] at e1
    exact a6 (.inr (by rw [hinfo _ (by decide), e1]))

/-- C48 (partial).  In a JWT access token of a grant whose request names a client: session id, issuer and expiry are always
the provider's; subject, client, scope, audience, token class and the key a DPoP token is bound to are the grant's if the user's
record has no claim of that name.  (Missing: records with these names, see the refutation.) -/
theorem C48_access_token_partial (L : JwtLib) (issuer alg : String) (lifetime : Int) (cfg : ClaimsCfg) (users : Option UserDb)
    (rules : Option Int) (now : Int) (nonce : Nat) (sid : Str) (user client : String) (g : Grant) (scope : List String)
    (jti : String) (db db' : ClaimsDb) (tok : Str) (req : AuthzReq) (hr : g.authzReq = some req)
    (hc : req.clientId = some client) (hne : client ≠ "")
    (h : mintJwt L issuer alg lifetime cfg users "access_token" rules now nonce sid user client g scope jti db = (.ok tok, db')) :
    ∃ p, L.unpack alg tok = .ok p ∧
      p.get? "sid" = some (.str (String.ofList sid)) ∧ p.get? "iss" = some (.str issuer) ∧ p.get? "iat" = some (.num now) ∧
      (rules.getD lifetime ≠ 0 → p.get? "exp" = some (.num (now + rules.getD lifetime))) ∧
      (NotInRecord users user "sub" → p.get? "sub" = some (.str g.sub)) ∧
      (NotInRecord users user "client_id" → p.get? "client_id" = some (.str client)) ∧
      (NotInRecord users user "scope" → p.get? "scope" = some (.arr (scope.map Json.str))) ∧
      (NotInRecord users user "aud" → p.get? "aud" = some (.arr (g.resources.map Json.str))) ∧
      (NotInRecord users user "token_class" → p.get? "token_class" = some (.str "access_token")) ∧
      (NotInRecord users user "cnf" → ∀ jkt, g.dpopJkt = some jkt → jkt ≠ "" →
        p.get? "cnf" = some (.obj [("jkt", .str jkt)])) := by
  unfold mintJwt at h
  split at h
  · cases h
  · rename_i q d' hq
    simp only [Prod.mk.injEq] at h
    obtain ⟨h1, rfl⟩ := h
    split at h1
    · cases h1
    · cases h1
      refine ⟨_, L.unpack_sign _ _ _, ?_⟩
      have hcl : truthyStr (g.authzReq.bind (·.clientId)) = some client := by
        rw [hr]; simp [hc, truthyStr, hne]
      unfold jwtPayload
      simp only
      generalize hb : (((q.erase "token_class").set "sid" (Json.str (String.ofList sid))).set "token_class"
        (match classArg q with
          | some v => v
          | none => if ("access_token" != "") = true then Json.str "access_token" else Json.str "authorization_code")) = b
      obtain ⟨p1, p2, p3, _⟩ := packed_std issuer now (rules.getD lifetime) b
      have hbase : ∀ k, k ≠ "acr" → k ≠ "token_class" → k ≠ "sid" → k ≠ "iss" → k ≠ "iat" → k ≠ "exp" →
          NotInRecord users user k → (packed issuer now (rules.getD lifetime) b).get? k =
            (basePayload g scope [] jti).get? k := by
        intro k e1 e2 e3 e4 e5 e6 hn
        rw [packed_get? e4 e5 e6, ← hb, Dict.get?_set_ne _ _ (fun e => e2 e.symm), Dict.get?_set_ne _ _ (fun e => e3 e.symm),
          Dict.get?_erase_ne _ (fun e => e2 e.symm)]
        exact arguments_get? hq e1 hn
      refine ⟨?_, p1, p2, p3, ?_, ?_, ?_, ?_, ?_, ?_⟩
      · rw [packed_get? (by decide) (by decide) (by decide), ← hb, Dict.get?_set_ne _ _ (by decide), Dict.get?_set_self]
      · intro hn
        rw [hbase _ (by decide) (by decide) (by decide) (by decide) (by decide) (by decide) hn]
        unfold basePayload
        simp only [hcl]
        exact Dict.get?_set_self ..
      · intro hn
        rw [hbase _ (by decide) (by decide) (by decide) (by decide) (by decide) (by decide) hn]
        unfold basePayload
        simp only [hcl]
        rw [Dict.get?_set_ne _ _ (by decide)]
        exact Dict.get?_set_self ..
      · intro hn
        rw [hbase _ (by decide) (by decide) (by decide) (by decide) (by decide) (by decide) hn,
          base_get? (by decide) (by decide) (by decide)]
        rfl
      · intro hn
        rw [hbase _ (by decide) (by decide) (by decide) (by decide) (by decide) (by decide) hn,
          base_get? (by decide) (by decide) (by decide)]
        rfl
      · intro hn
        have e1 := arguments_get? hq (by decide) hn
        rw [base_get? (by decide) (by decide) (by decide)] at e1
        have e2 : q.get? "token_class" = none := by rw [e1]; rfl
        have e3 : classArg q = none := by unfold classArg; rw [e2]
        rw [packed_get? (by decide) (by decide) (by decide), ← hb, Dict.get?_set_self, e3]
        rfl
      · intro hn jkt hj hje
        rw [hbase _ (by decide) (by decide) (by decide) (by decide) (by decide) (by decide) hn]
        unfold basePayload
        have : truthyStr g.dpopJkt = some jkt := by rw [hj]; simp [truthyStr, hje]
        simp only [hcl, this]
        rw [Dict.get?_set_ne _ _ (by decide), Dict.get?_set_ne _ _ (by decide)]
        exact Dict.get?_set_self ..

end OidcOp
