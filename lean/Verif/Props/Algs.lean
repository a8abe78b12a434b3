/-
C88: ID tokens, user info and logout tokens are protected as the client asked for.
-/
import Verif.Spec.Algs
import Verif.Props.Registration
import Verif.Props.PayloadExamples
import Verif.Model.Logout

namespace OidcOp
open Spec

theorem algMember_some {ci : Cinfo} {name a : String} : algMember ci name = .ok (some a) ↔ Asks ci name a := by
  unfold algMember Asks
  split
  · rename_i h; simp [h]
  · rename_i h; simp [h]
  · rename_i h1 h2 h3
    rw [h3]
    constructor
    · intro h; cases h
    · intro h
      simp only [Option.some.injEq] at h
      exact absurd h (h2 a)

theorem algMember_none {ci : Cinfo} {name : String} : algMember ci name = .ok none ↔ Silent ci name := by
  unfold algMember Silent
  split <;> rename_i h <;> simp_all

/-- C88.  The algorithm for a client's ID tokens. -/
theorem C88_id_token_alg (pi : Dict (List String)) (ci : Cinfo) (alg : String) :
    signAlgFor pi ci "id_token" = .ok alg ↔ IdTokenAlg pi ci alg := by
  unfold signAlgFor IdTokenAlg
  have hn : "id_token" ++ "_signed_response_alg" = "id_token_signed_response_alg" := by decide
  rw [hn]
  cases h : algMember ci "id_token_signed_response_alg" with
  | error e =>
    simp only []
    constructor
    · intro h; cases h
    · rintro (h' | ⟨h', -⟩)
      · rw [algMember_some.2 h'] at h; cases h
      · rw [algMember_none.2 h'] at h; cases h
  | ok o =>
    cases o with
    | some a =>
      have h' := algMember_some.1 h
      simp only []
      constructor
      · intro e; cases e; exact .inl h'
      · rintro (h2 | ⟨h2, -⟩)
        · rw [algMember_some.2 h2] at h; cases h; rfl
        · rw [algMember_none.2 h2] at h; cases h
    | none =>
      have h' := algMember_none.1 h
      have hna : ¬ Asks ci "id_token_signed_response_alg" alg := by
        intro h2; rw [algMember_some.2 h2] at h; cases h
      simp only [hna, h', true_and, false_or]
      have hd : defSignAlg.get? "id_token" = some "RS256" := by decide +kernel
      have hk : "id_token" ++ "_signing_alg_values_supported" = "id_token_signing_alg_values_supported" := by decide
      unfold dfltSignAlg
      rw [hd, hk]
      simp only []
      cases hp : pi.get? "id_token_signing_alg_values_supported" with
      | none => simp [eq_comm]
      | some l =>
        cases l with
        | nil => simp [eq_comm]
        | cons x r =>
          simp only []
          by_cases hc : "RS256" ∈ x :: r
          · rw [if_pos (by simpa using hc)]
            constructor
            · intro e; cases e
              exact .inl ⟨rfl, fun sup hs => by cases hs; exact .inr hc⟩
            · rintro (⟨rfl, -⟩ | ⟨rest, hs, hn⟩)
              · rfl
              · cases hs; exact absurd hc hn
          · rw [if_neg (by simpa using hc)]
            constructor
            · intro e; cases e; exact .inr ⟨r, rfl, hc⟩
            · rintro (⟨rfl, hs⟩ | ⟨rest, hs, hn⟩)
              · rcases hs _ rfl with h2 | h2
                · cases h2
                · exact absurd h2 hc
              · cases hs; rfl

theorem get?_algTable {pi : Dict (List String)} {cdb : Dict Cinfo} (hn : (cdb.map (·.1)).Nodup) {c alg : String}
    (h : (algTable pi cdb).get? c = some alg) : ∃ ci, cdb.get? c = some ci ∧ signAlgFor pi ci "id_token" = .ok alg := by
  have hm := Dict.get?_mem h
  unfold algTable at hm
  obtain ⟨⟨k, ci⟩, hp, hv⟩ := List.mem_filterMap.1 hm
  simp only [] at hv
  split at hv
  · rename_i a ha
    simp only [Option.some.injEq, Prod.mk.injEq] at hv
    obtain ⟨rfl, rfl⟩ := hv
    exact ⟨ci, get?_of_mem_nodup hn hp, ha⟩
  · cases hv

/-- C88.  Every ID token that is made for a client verifies with the algorithm for its ID tokens; it has the client as its
audience. -/
theorem C88_id_token_signed (L : JwtLib) (K : IdtCfg) (pi : Dict (List String)) (cdb : Dict Cinfo) (hn : (cdb.map (·.1)).Nodup)
    (hK : K.algOf = algTable pi cdb) (cfg : ClaimsCfg) (users : Option UserDb) (now : Int) (nonce : Nat)
    (sid user client : String) (g : Grant) (second : Option String) (scope : List String) (code atok : Option String)
    (jti : String) (db db' : ClaimsDb) (tok : Str)
    (h : mintIdt L K cfg users now nonce sid user client g second scope code atok jti db = (.ok tok, db')) :
    ∃ ci alg p, cdb.get? client = some ci ∧ IdTokenAlg pi ci alg ∧ L.unpack alg tok = .ok p ∧
      p.get? "aud" = some (.arr [.str client]) := by
  obtain ⟨p, alg, a, -, halg, -, rfl⟩ := mintIdt_spec h
  rw [hK] at halg
  obtain ⟨ci, hci, ha⟩ := get?_algTable hn halg
  exact ⟨ci, alg, _, hci, (C88_id_token_alg _ _ _).1 ha, L.unpack_sign _ _ _, Dict.get?_set_self _ _ _⟩

/-- C88.  For a client that registered itself, through any series of registrations, this is an algorithm that the provider
supports. -/
theorem C88_supported (C : RegConf) (s : RegState) (calls : List RegCall) (c : String) (ci : Cinfo) (sup : List String)
    (hnew : s.cdb.get? c = none) (hc : (regHistory C s calls).cdb.get? c = some ci)
    (hs : C.providerInfo.get? "id_token_signing_alg_values_supported" = some sup) (hne : sup ≠ []) (alg : String)
    (h : IdTokenAlg C.providerInfo ci alg) : alg ∈ sup := by
  rcases h with h | ⟨-, ⟨rfl, h⟩ | ⟨rest, h, -⟩⟩
  · obtain ⟨j, sup', hj, hs', hw⟩ := C56_history C s calls c ci hnew hc _ "id_token_signing_alg_values_supported" _ (by decide) h
    cases hj
    rw [hs] at hs'; cases hs'
    unfold Within at hw
    rw [if_neg (by decide)] at hw
    rcases hw with ⟨a, ha, hm⟩ | ⟨vs, hv, -⟩ | ⟨d, hd, -⟩
    · cases ha; exact hm
    · cases hv
    · cases hd
  · exact (h sup hs).resolve_left hne
  · rw [hs] at h; cases h; simp

/-- C88.  User info is signed with an algorithm exactly if the client asks for it, encrypted exactly if the client asks for
both algorithms, and plain exactly if it asks for neither. -/
theorem C88_userinfo (ci : Cinfo) (args : Option JwtArgs) (h : userinfoArgs ci = .ok args) :
    (∀ alg, SignedBy args alg ↔ Asks ci "userinfo_signed_response_alg" alg) ∧
    (∀ alg enc, EncryptedBy args alg enc ↔
      Asks ci "userinfo_encrypted_response_alg" alg ∧ Asks ci "userinfo_encrypted_response_enc" enc) ∧
    (args = none ↔ (∀ alg, ¬ SignedBy args alg) ∧ ∀ alg enc, ¬ EncryptedBy args alg enc) ∧
    (∀ a, args = some a → (a.sign = true ↔ ∃ alg, Asks ci "userinfo_signed_response_alg" alg) ∧
      (a.encrypt = true ↔ ∃ alg enc, Asks ci "userinfo_encrypted_response_alg" alg ∧
        Asks ci "userinfo_encrypted_response_enc" enc)) := by
  unfold userinfoArgs at h
  cases h1 : algMember ci "userinfo_signed_response_alg" with
  | error e => rw [h1] at h; cases h
  | ok sa =>
    rw [h1] at h
    simp only [] at h
    cases h2 : userinfoEnc ci with
    | error e => rw [h2] at h; cases h
    | ok enc =>
      rw [h2] at h
      simp only [] at h
      have hsa : ∀ alg, sa = some alg ↔ Asks ci "userinfo_signed_response_alg" alg := by
        intro alg
        rw [← algMember_some, h1]
        constructor
        · rintro rfl; rfl
        · intro e; exact Except.ok.inj e
      have henc : ∀ alg en, enc = some (alg, en) ↔
          Asks ci "userinfo_encrypted_response_alg" alg ∧ Asks ci "userinfo_encrypted_response_enc" en := by
        intro alg en
        rw [← algMember_some, ← algMember_some]
        unfold userinfoEnc at h2
        cases h3 : algMember ci "userinfo_encrypted_response_enc" with
        | error e => rw [h3] at h2; cases h2
        | ok x =>
          rw [h3] at h2
          cases x with
          | none => cases h2; simp
          | some ee =>
            simp only [] at h2
            cases h4 : algMember ci "userinfo_encrypted_response_alg" with
            | error e => rw [h4] at h2; cases h2
            | ok y =>
              rw [h4] at h2
              cases y with
              | none => cases h2; simp
              | some ea =>
                cases h2
                simp
      have hs : ∀ alg, SignedBy args alg ↔ sa = some alg := by
        intro alg
        unfold SignedBy
        by_cases hc : (sa.isSome || enc.isSome) = true
        · rw [if_pos hc] at h; cases h
          constructor
          · rintro ⟨a, ha, -, hb⟩; cases ha; exact hb
          · rintro rfl; exact ⟨_, rfl, rfl, rfl⟩
        · rw [if_neg hc] at h; cases h
          cases sa <;> simp_all
      have he : ∀ alg en, EncryptedBy args alg en ↔ enc = some (alg, en) := by
        intro alg en
        unfold EncryptedBy
        by_cases hc : (sa.isSome || enc.isSome) = true
        · rw [if_pos hc] at h; cases h
          constructor
          · rintro ⟨a, ha, -, hb, hd⟩; cases ha
            cases enc with
            | none => cases hb
            | some q => obtain ⟨q1, q2⟩ := q; cases hb; cases hd; rfl
          · rintro rfl; exact ⟨_, rfl, rfl, rfl, rfl⟩
        · rw [if_neg hc] at h; cases h
          cases enc <;> simp_all
      refine ⟨fun alg => (hs alg).trans (hsa alg), fun alg en => (he alg en).trans (henc alg en), ?_, ?_⟩
      rotate_left
      · intro a ha
        subst ha
        by_cases hc : (sa.isSome || enc.isSome) = true
        · rw [if_pos hc] at h
          cases h
          refine ⟨?_, ?_⟩
          · simp only [← hsa]
            exact Option.isSome_iff_exists
          · simp only [← henc]
            cases enc with
            | none => simp
            | some q => exact ⟨fun _ => ⟨q.1, q.2, rfl⟩, fun _ => rfl⟩
        · rw [if_neg hc] at h
          cases h
      constructor
      · rintro rfl
        exact ⟨fun alg ⟨a, ha, _⟩ => by (cases ha), fun alg en ⟨a, ha, _⟩ => by (cases ha)⟩
      · rintro ⟨g1, g2⟩
        have : sa = none := by
          cases sa with
          | none => rfl
          | some a => exact absurd ((hs a).2 rfl) (g1 a)
        have h5 : enc = none := by
          cases enc with
          | none => rfl
          | some q => exact absurd ((he q.1 q.2).2 rfl) (g2 q.1 q.2)
        rw [this, h5] at h
        cases h; rfl

/-- C88 (partial), logout tokens.  They are signed with the algorithm for ID tokens if the client asks for one, or if RS256 is the
first that the provider supports.  (Missing: other clients, see `C88_logout_refuted`.) -/
theorem C88_logout_partial (pi : Dict (List String)) (ci : Cinfo) (alg alg' : String) (h : logoutAlg pi ci = .ok alg)
    (h' : IdTokenAlg pi ci alg')
    (hc : (∃ a, Asks ci "id_token_signed_response_alg" a) ∨
      ∃ rest, pi.get? "id_token_signing_alg_values_supported" = some ("RS256" :: rest)) : alg = alg' := by
  unfold logoutAlg at h
  rcases h' with h' | ⟨h', hr⟩
  · rw [algMember_some.2 h'] at h; cases h; rfl
  · rcases hc with ⟨a, ha⟩ | ⟨rest, hp⟩
    · unfold Asks at ha; unfold Silent at h'; rw [ha] at h'; cases h'
    · rw [algMember_none.2 h', hp] at h
      cases h
      rcases hr with ⟨rfl, -⟩ | ⟨r, h1, h2⟩
      · rfl
      · rw [hp] at h1; cases h1; exact absurd (by simp) h2

/-- The algorithm is the one that `backChannel` (Model/Logout) signs with. -/
theorem C88_logout_token (pi : Dict (List String)) (ci : Cinfo) (K : LogoutCtx) (reg : LogoutReg) (rest : List String)
    (hr : algMember ci "id_token_signed_response_alg" = .ok reg.alg)
    (hd : pi.get? "id_token_signing_alg_values_supported" = some (K.dfltAlg :: rest)) (now : Int) (n : Nat) (sid uri : String)
    (tok : Str) (h : backChannel K now n reg sid = .ok (some (uri, tok))) :
    ∃ alg p, logoutAlg pi ci = .ok alg ∧ K.J.unpack alg tok = .ok p := by
  unfold backChannel at h
  split at h
  · cases h
  · simp only [] at h
    split at h
    · cases h
    · split at h
      · cases h
      · cases h
        refine ⟨reg.alg.getD K.dfltAlg, _, ?_, K.J.unpack_sign _ _ _⟩
        unfold logoutAlg
        rw [hr]
        cases reg.alg with
        | none => simp only [hd]; rfl
        | some a => rfl

/-- The algorithm, or the content encryption, of encrypted ID tokens: the one the client asks for, or else the first that the
provider supports, if it says. -/
theorem encParam_iff (pi : Dict (List String)) (ci : Cinfo) (which asked sup : String) (x : Option String)
    (h1 : "id_token" ++ "_encrypted_response_" ++ which = asked)
    (h2 : "id_token" ++ "_encryption_" ++ which ++ "_values_supported" = sup) (h : encParam pi ci "id_token" which = .ok x) :
    (∀ a, Asks ci asked a → x = some a) ∧ (Silent ci asked → ∀ a, x = some a ↔ ∃ rest, pi.get? sup = some (a :: rest)) := by
  unfold encParam at h
  rw [h1, h2] at h
  refine ⟨fun a ha => ?_, fun hs a => ?_⟩
  · rw [algMember_some.2 ha] at h
    cases h; rfl
  · rw [algMember_none.2 hs] at h
    cases hp : pi.get? sup with
    | none => rw [hp] at h; cases h; simp
    | some l =>
      rw [hp] at h
      cases h
      cases l <;> simp

/-- C88.  An ID token that is encrypted is encrypted with what the client asks for; where the client does not say, with what
the provider supports first.  It is signed before, with the algorithm for the client's ID tokens, and so is one that is not
encrypted. -/
theorem C88_id_token_encrypted (pi : Dict (List String)) (ci : Cinfo) (p : Dict Json) (args : JwtArgs)
    (h : idtArgs pi ci p = .ok args) :
    args.sign = true ∧ (∃ alg, args.signAlg = some alg ∧ IdTokenAlg pi ci alg) ∧
    (args.encrypt = true ↔ ∃ j, p.get? "encrypt" = some j ∧ j.truthy = true) ∧
    (args.encrypt = true →
      (∀ a, Asks ci "id_token_encrypted_response_alg" a → args.encAlg = some a) ∧
      (∀ a, Asks ci "id_token_encrypted_response_enc" a → args.encEnc = some a) ∧
      (Silent ci "id_token_encrypted_response_alg" → ∀ a, args.encAlg = some a ↔
        ∃ rest, pi.get? "id_token_encryption_alg_values_supported" = some (a :: rest)) ∧
      (Silent ci "id_token_encrypted_response_enc" → ∀ a, args.encEnc = some a ↔
        ∃ rest, pi.get? "id_token_encryption_enc_values_supported" = some (a :: rest))) := by
  unfold idtArgs signAndEncrypt at h
  have hw : (((p.get? "encrypt").map Json.truthy).getD false) = true ↔ ∃ j, p.get? "encrypt" = some j ∧ j.truthy = true := by
    cases p.get? "encrypt" <;> simp
  rw [← hw]
  cases hs : signAlgFor pi ci "id_token" with
  | error e => rw [hs] at h; cases h
  | ok alg =>
    rw [hs] at h
    simp only [] at h
    have ha := (C88_id_token_alg _ _ _).1 hs
    by_cases hc : (((p.get? "encrypt").map Json.truthy).getD false) = true
    · rw [if_pos hc] at h
      cases h1 : encParam pi ci "id_token" "alg" with
      | error e => rw [h1] at h; cases h
      | ok ea =>
        rw [h1] at h
        simp only [] at h
        cases h2 : encParam pi ci "id_token" "enc" with
        | error e => rw [h2] at h; cases h
        | ok ee =>
          rw [h2] at h
          cases h
          obtain ⟨k1, k2⟩ := encParam_iff pi ci "alg" "id_token_encrypted_response_alg"
            "id_token_encryption_alg_values_supported" ea (by decide) (by decide) h1
          obtain ⟨k3, k4⟩ := encParam_iff pi ci "enc" "id_token_encrypted_response_enc"
            "id_token_encryption_enc_values_supported" ee (by decide) (by decide) h2
          exact ⟨rfl, ⟨alg, rfl, ha⟩, by simp only [hc], fun _ => ⟨k1, k3, k2, k4⟩⟩
    · rw [if_neg hc] at h
      cases h
      exact ⟨rfl, ⟨alg, rfl, ha⟩, by simp only [hc], nofun⟩

/-- Encryption of ID tokens: none is ever made unless the user has a claim called "encrypt". -/
theorem C88_never_encrypted (pi : Dict (List String)) (ci : Cinfo) (cfg : ClaimsCfg) (users : Option UserDb)
    (user client point jti : String) (g : Grant) (second : Option String) (scope : List String) (code atok : Option String)
    (p : Dict Json) (db db' : ClaimsDb) (hu : NotInRecord users user "encrypt")
    (h : payloadArguments cfg users user client g point second scope (idtExtra code atok) jti db = (.ok p, db'))
    (args : JwtArgs) (ha : idtArgs pi ci p = .ok args) : args.encrypt = false := by
  have hp : p.get? "encrypt" = none := by
    rw [arguments_get? h (by decide) hu, base_get? (by decide) (by decide) (by decide)]
    cases code <;> cases atok <;> rfl
  unfold idtArgs signAndEncrypt at ha
  rw [hp] at ha
  split at ha
  · cases ha
  · cases ha; rfl

end OidcOp

namespace OidcOp.Ex
open OidcOp Spec

/-- A client that has asked for ES256, and for encryption. -/
def careful : Cinfo :=
  [("id_token_signed_response_alg", .json (.str "ES256")), ("id_token_encrypted_response_alg", .json (.str "RSA-OAEP")),
   ("id_token_encrypted_response_enc", .json (.str "A256GCM")), ("userinfo_signed_response_alg", .json (.str "ES256")),
   ("userinfo_encrypted_response_alg", .json (.str "RSA-OAEP")), ("userinfo_encrypted_response_enc", .json (.str "A256GCM"))]

def supported : Dict (List String) := [("id_token_signing_alg_values_supported", ["ES256", "RS256"])]

example : signAlgFor supported careful "id_token" = .ok "ES256" ∧ signAlgFor supported [] "id_token" = .ok "RS256" ∧
    signAlgFor [("id_token_signing_alg_values_supported", ["ES256"])] [] "id_token" = .ok "ES256" ∧
    logoutAlg supported careful = .ok "ES256" := by decide +kernel

example : userinfoArgs careful = .ok (some { sign := true, encrypt := true, signAlg := some "ES256", encAlg := some "RSA-OAEP", encEnc := some "A256GCM" }) ∧
    userinfoArgs [("userinfo_signed_response_alg", .json (.str "ES256"))] = .ok (some { sign := true, signAlg := some "ES256" }) ∧
    userinfoArgs [] = .ok none := by decide +kernel

/-- C88: an encrypted ID token, for a client that asks for both algorithms and for one that does not say. -/
example : idtArgs supported careful [("encrypt", .bool true)] =
      .ok { sign := true, encrypt := true, signAlg := some "ES256", encAlg := some "RSA-OAEP", encEnc := some "A256GCM" } ∧
    idtArgs [("id_token_encryption_alg_values_supported", ["RSA-OAEP"]), ("id_token_encryption_enc_values_supported", ["A128GCM"])] []
      [("encrypt", .bool true)] =
      .ok { sign := true, encrypt := true, signAlg := some "RS256", encAlg := some "RSA-OAEP", encEnc := some "A128GCM" } := by
  decide +kernel

/-- The hypotheses of `C88_id_token_signed`. -/
example : (mintIdt jwtLib { idtCfg with algOf := algTable supported [("c", careful), ("d", [])] } payloadCfg (some [("d", [])])
    1 0 "s" "d" "c" (askGrant ["email"]) none ["openid"] none none "j" []).1.isOk = true := by
  decide +kernel

/-- C88 is false of the code: logout tokens of a client that does not say are signed with another algorithm than its ID
tokens. -/
theorem C88_logout_refuted :
    ¬ (∀ (pi : Dict (List String)) (ci : Cinfo) (alg alg' : String), logoutAlg pi ci = .ok alg → IdTokenAlg pi ci alg' → alg = alg') := by
  intro h
  exact absurd (h supported [] "ES256" "RS256" (by decide +kernel) ((C88_id_token_alg _ _ _).1 (by decide +kernel))) (by decide)

/-- C88 is false of the code: a client that has asked for encryption of its ID tokens gets them in the clear. -/
theorem C88_encryption_refuted :
    ¬ (∀ (pi : Dict (List String)) (ci : Cinfo) (cfg : ClaimsCfg) (users : Option UserDb)
      (user client point jti : String) (g : Grant) (second : Option String) (scope : List String) (code atok : Option String)
      (p : Dict Json) (db db' : ClaimsDb) (alg enc : String), Asks ci "id_token_encrypted_response_alg" alg →
      Asks ci "id_token_encrypted_response_enc" enc →
      payloadArguments cfg users user client g point second scope (idtExtra code atok) jti db = (.ok p, db') →
      ∀ args, idtArgs pi ci p = .ok args → EncryptedBy (some args) alg enc) := by
  intro h
  obtain ⟨a, ha, he, -⟩ := h supported careful payloadCfg (some [("d", [])]) "d" "c" "id_token" "j" (askGrant ["email"]) none ["openid"] none none
    [("scope", .arr [.str "openid"]), ("aud", .arr []), ("jti", .str "j"), ("client_id", .str "c"), ("sub", .str "subject")] [] []
    "RSA-OAEP" "A256GCM" (by unfold Asks; decide +kernel) (by unfold Asks; decide +kernel) (by decide +kernel)
    { sign := true, signAlg := some "ES256" } (by decide +kernel)
  cases ha
  cases he

/-- C88 is false of the code: a client whose record asks for encrypted user info, but leaves the content encryption to its default, gets
user info in the clear. -/
theorem C88_userinfo_default_refuted :
    ¬ (∀ (ci : Cinfo) (alg : String) (args : Option JwtArgs), Asks ci "userinfo_encrypted_response_alg" alg →
      userinfoArgs ci = .ok args → ∃ enc, EncryptedBy args alg enc) := by
  intro h
  obtain ⟨enc, a, ha, -⟩ := h [("userinfo_encrypted_response_alg", .json (.str "RSA-OAEP"))] "RSA-OAEP" none
    (by unfold Asks; decide +kernel) (by decide +kernel)
  cases ha

end OidcOp.Ex
