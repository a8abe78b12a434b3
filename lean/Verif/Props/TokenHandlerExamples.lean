/-
A concrete configuration for C29, and the three ways in which the full statement fails.
-/
import Verif.Props.TokenHandler
import Verif.Base.JsonCode

namespace OidcOp.Ex
open OidcOp Spec

/-- A toy cipher for each key. -/
def cipher (k : Char) : Cipher where
  enc _ p := 'E' :: k :: p
  dec s := match s with
    | 'E' :: c :: p => if c = k then some p else none
    | _ => none
  dec_enc n p := by simp

/-- A toy signature: the algorithm and the payload in clear. -/
def jwtText (mark : Char) (alg : String) (p : Dict Json) : Str := mark :: (Json.codeChars alg.toList ++ Json.codeO p)

theorem jwtText_inj {m m' : Char} {a a' : String} {p p' : Dict Json} (h : jwtText m a p = jwtText m' a' p') :
    m = m' ∧ a = a' ∧ p = p' := by
  simp only [jwtText, List.cons.injEq] at h
  obtain ⟨h1, h2⟩ := Json.codeChars_inj h.2
  exact ⟨h.1, String.toList_inj.1 h1, Json.codeO_injective h2⟩

open Classical in
/-- A toy JWT library: tokens marked `J` are verified with their algorithm, the payload of those marked `F` (with a bad
signature) can only be looked at. -/
noncomputable def jwtLib : JwtLib where
  sign _ alg p := jwtText 'J' alg p
  unpack alg s := if h : ∃ p, s = jwtText 'J' alg p then .ok h.choose else .error .unknownToken
  peek s := if h : ∃ p : Dict Json, ∃ a, s = jwtText 'J' a p ∨ s = jwtText 'F' a p then some h.choose else none
  unpack_sign n alg p := by
    have h : ∃ q, jwtText 'J' alg p = jwtText 'J' alg q := ⟨p, rfl⟩
    rw [dif_pos h]
    rw [← (jwtText_inj h.choose_spec).2.2]
  peek_sign n alg p := by
    have h : ∃ q : Dict Json, ∃ a, jwtText 'J' alg p = jwtText 'J' a q ∨ jwtText 'J' alg p = jwtText 'F' a q :=
      ⟨p, alg, .inl rfl⟩
    rw [dif_pos h]
    obtain ⟨a, h2 | h2⟩ := h.choose_spec
    · rw [← (jwtText_inj h2).2.2]
    · exact absurd (jwtText_inj h2).1 (by decide)

/-- A text with a bad signature. -/
theorem jwtLib_forged (a : String) (p : Dict Json) : jwtLib.peek (jwtText 'F' a p) = some p ∧
    ∀ alg, jwtLib.unpack alg (jwtText 'F' a p) = .error .unknownToken := by
  constructor
  · have h : ∃ q : Dict Json, ∃ b, jwtText 'F' a p = jwtText 'J' b q ∨ jwtText 'F' a p = jwtText 'F' b q :=
      ⟨p, a, .inr rfl⟩
    refine (dif_pos h).trans ?_
    obtain ⟨b, h2 | h2⟩ := h.choose_spec
    · exact absurd (jwtText_inj h2).1 (by decide)
    · rw [← (jwtText_inj h2).2.2]
  · intro alg
    refine dif_neg ?_
    rintro ⟨q, h⟩
    exact absurd (jwtText_inj h).1 (by decide)

/-- Codes and refresh tokens are encrypted with the same key, access tokens are JWTs. -/
def handlers : Dict Handler :=
  [("authorization_code", .dflt (cipher 'a') "authorization_code" 300), ("access_token", .jwt "access_token" "ES256" 600),
   ("refresh_token", .dflt (cipher 'a') "refresh_token" 3600), ("id_token", .idt [("c1", "ES256")])]

theorem handlers_cases {n : String} {h : Handler} (hg : handlers.get? n = some h) :
    (n = "authorization_code" ∧ h = .dflt (cipher 'a') "authorization_code" 300) ∨
    (n = "access_token" ∧ h = .jwt "access_token" "ES256" 600) ∨
    (n = "refresh_token" ∧ h = .dflt (cipher 'a') "refresh_token" 3600) ∨
    (n = "id_token" ∧ h = .idt [("c1", "ES256")]) := by
  simp only [handlers, Dict.get?_cons, Dict.get?_nil] at hg
  repeat' split at hg
  all_goals first
    | (cases hg; done)
    | (rename_i hn; cases hg; subst hn; simp)

theorem asConfigured : AsConfigured handlers := by
  intro n h hg
  rcases handlers_cases hg with ⟨rfl, rfl⟩ | ⟨rfl, rfl⟩ | ⟨rfl, rfl⟩ | ⟨rfl, rfl⟩ <;> simp [tokenClasses]

theorem dflt_key {n : String} {C : Cipher} {c : String} {l : Int} (hg : handlers.get? n = some (.dflt C c l)) : C = cipher 'a' := by
  rcases handlers_cases hg with ⟨-, h⟩ | ⟨-, h⟩ | ⟨-, h⟩ | ⟨-, h⟩ <;> cases h <;> rfl

theorem unpack_total (alg : String) (s : Str) :
    (∃ p, jwtLib.unpack alg s = .ok p ∧ s = jwtText 'J' alg p) ∨ jwtLib.unpack alg s = .error .unknownToken := by
  by_cases h : ∃ p, s = jwtText 'J' alg p
  · obtain ⟨p, rfl⟩ := h
    exact .inl ⟨p, jwtLib.unpack_sign 0 alg p, rfl⟩
  · exact .inr (dif_neg h)

theorem separated : Separated jwtLib handlers where
  keys := by
    intro n m C C' c c' l l' h1 h2
    rw [dflt_key h1, dflt_key h2]
    exact .inl (cipher 'a').dec_enc
  encNotJwt := by
    intro n C c l h1 k p
    rw [dflt_key h1]
    constructor
    · refine dif_neg ?_
      rintro ⟨q, a, h | h⟩ <;> simp [cipher, jwtText] at h
    · intro alg
      refine ⟨.unknownToken, ?_, by decide⟩
      rcases unpack_total alg ((cipher 'a').enc k p) with ⟨q, -, h⟩ | h
      · simp [cipher, jwtText] at h
      · exact h
  jwtNotEnc := by
    intro n C c l h1 k alg p
    rw [dflt_key h1]
    rfl
  algs := by
    intro k alg alg' p
    rcases unpack_total alg' (jwtLib.sign k alg p) with ⟨q, h1, h2⟩ | h
    · have := (jwtText_inj h2).2.2
      subst this
      exact .inl h1
    · exact .inr ⟨_, h, by decide⟩

def sid1 : Str := "S".toList

/-- An access token for an audience. -/
noncomputable def access (extra : Dict Json) : Str :=
  jwtCall jwtLib "iss" "access_token" "ES256" 600 none 1000 0 sid1 (("aud", .arr [.str "c1"]) :: extra)

theorem access_minted : MintedAs jwtLib handlers "access_token" (.jwt "access_token" "ES256" 600) "iss" none 1000 sid1
    (access []) :=
  ⟨by decide, rfl, 0, [], _, by decide, by decide, rfl⟩

/-- C29: the access token and a code are recognised in the usual order and in others. -/
example : handlerInfo jwtLib 1200 handlers (access []) ["authorization_code", "access_token", "refresh_token", "id_token"] =
    .ok { sid := some sid1, cls := some "access_token" } :=
  C29_minted_is_recognised_partial jwtLib handlers asConfigured separated _ _ _ _ _ _ _ _ access_minted
    ⟨by decide, by decide⟩ ["authorization_code"] _ (by decide)

example : handlerInfo jwtLib 1200 handlers (defaultCall (cipher 'a') "authorization_code" 300 1000 0 [] sid1 [])
      ["refresh_token", "access_token", "authorization_code", "id_token"] =
    .ok { sid := some sid1, cls := some "authorization_code" } :=
  C29_minted_is_recognised_partial jwtLib handlers asConfigured separated "authorization_code" _ "iss" none 1000 _ _ _
    ⟨by decide, rfl, 0, [], [], by decide, by decide, rfl⟩ trivial ["refresh_token", "access_token"] _ (by decide)

/-- C29: a string with no meaning is refused. -/
example : handlerInfo jwtLib 1200 handlers "nonsense".toList ["authorization_code", "access_token", "refresh_token", "id_token"] =
    .error .unknownToken := by
  apply C29_forged_is_unknown_partial
  intro n _ h hg
  have hu : ∀ alg, ∃ e, jwtLib.unpack alg "nonsense".toList = .error e ∧ skipped e = true := by
    intro alg
    rcases unpack_total alg "nonsense".toList with ⟨q, -, h⟩ | h
    · simp [jwtText] at h
    · exact ⟨_, h, by decide⟩
  rcases handlers_cases hg with ⟨rfl, rfl⟩ | ⟨rfl, rfl⟩ | ⟨rfl, rfl⟩ | ⟨rfl, rfl⟩
  · rfl
  · exact hu _
  · rfl
  · left
    refine dif_neg ?_
    rintro ⟨q, a, h | h⟩ <;> simp [jwtText] at h

/-- C29 does not hold in every order: with the ID token handler first, an access token of a known audience is answered
without its class. -/
theorem C29_id_handler_first_refuted :
    ¬ (∀ (L : JwtLib) (handlers : Dict Handler), AsConfigured handlers → Separated L handlers →
      ∀ (cls : String) (h : Handler) (issuer : String) (rules : Option Int) (madeAt now : Int) (sid token : Str),
        MintedAs L handlers cls h issuer rules madeAt sid token → Fresh rules madeAt now h →
        ∀ order : List String, cls ∈ order →
          handlerInfo L now handlers token order = .ok { sid := some sid, cls := some cls }) := by
  intro H
  have h := H jwtLib handlers asConfigured separated _ _ _ _ _ 1200 _ _ access_minted ⟨by decide, by decide⟩
    ["id_token", "access_token"] (by decide)
  obtain ⟨p, h1, h2, h3, h4, h5, h6⟩ := jwtCall_payload "iss" "access_token" (by decide) none 600 1000 sid1
    [("aud", .arr [.str "c1"])] (by decide) (by decide) jwtLib "ES256" 0
  have hinfo : Handler.info jwtLib 1200 (access []) (.idt [("c1", "ES256")]) = .ok { sid := some sid1, cls := none } := by
    show idtInfo _ _ _ (jwtCall _ _ _ _ _ _ _ _ _ _) = _
    rw [h1]
    unfold idtInfo
    rw [jwtLib.peek_sign]
    simp only [h5, Dict.get?_cons, if_true, audClient, jwtLib.unpack_sign, h6 (by decide), h4]
    have h7 : isExpired 1200 (1000 + (none : Option Int).getD 600) = false := by decide
    rw [h7]
    simp [payloadSid]
  rw [handlerInfo, show handlers.get? "id_token" = some (.idt [("c1", "ES256")]) from rfl] at h
  simp only [hinfo] at h
  exact absurd h (by decide)

/-- C29 does not hold for every payload: a user claim "ttype" that is put into a JWT access token decides the class it is
taken for; with JWT refresh tokens it is taken for a refresh token. -/
theorem C29_claim_named_ttype_refuted :
    ¬ (∀ (L : JwtLib) (handlers : Dict Handler), AsConfigured handlers → Separated L handlers →
      ∀ (cls : String) (h : Handler) (issuer : String) (rules : Option Int) (madeAt now : Int) (sid token : Str)
        (nonce : Nat) (rnd : Str) (payload : Dict Json), handlers.get? cls = some h → cls ∈ tokenClasses →
        h.call L issuer rules madeAt nonce rnd sid payload = some token → Fresh rules madeAt now h →
        ∀ r, handlerInfo L now handlers token ["authorization_code", "access_token", "refresh_token"] = .ok r →
          r.cls = some cls) := by
  intro H
  let hs : Dict Handler := [("access_token", .jwt "access_token" "ES256" 600), ("refresh_token", .jwt "refresh_token" "ES256" 3600)]
  have hcases : ∀ {n h}, hs.get? n = some h → (n = "access_token" ∧ h = .jwt "access_token" "ES256" 600) ∨
      (n = "refresh_token" ∧ h = .jwt "refresh_token" "ES256" 3600) := by
    intro n h hg
    simp only [hs, Dict.get?_cons, Dict.get?_nil] at hg
    repeat' split at hg
    all_goals first
      | (cases hg; done)
      | (rename_i hn; cases hg; subst hn; simp)
  have hconf : AsConfigured hs := by
    intro n h hg
    rcases hcases hg with ⟨rfl, rfl⟩ | ⟨rfl, rfl⟩ <;> simp [tokenClasses]
  have hno : ∀ n C c l, hs.get? n ≠ some (.dflt C c l) := by
    intro n C c l hg
    rcases hcases hg with ⟨-, h⟩ | ⟨-, h⟩ <;> cases h
  have hsep : Separated jwtLib hs :=
    ⟨fun n m C C' c c' l l' h1 _ => absurd h1 (hno _ _ _ _), fun n C c l h1 => absurd h1 (hno _ _ _ _),
     fun n C c l h1 => absurd h1 (hno _ _ _ _), separated.algs⟩
  let payload : Dict Json := [("ttype", .str "refresh_token")]
  have h := H jwtLib hs hconf hsep "access_token" (.jwt "access_token" "ES256" 600) "iss" none 1000 1200 sid1 _ 0 [] payload
    rfl (by decide) rfl ⟨by decide, by decide⟩ { sid := some sid1, cls := some "refresh_token" } ?_
  · exact absurd h (by decide)
  · unfold jwtCall
    have hp : jwtPayload "iss" "access_token" 600 none 1000 sid1 payload =
        [("ttype", .str "refresh_token"), ("sid", .str "S"), ("token_class", .str "access_token"), ("iss", .str "iss"),
          ("iat", .num 1000), ("exp", .num 1600)] := by decide +kernel
    rw [hp]
    have hu := jwtLib.unpack_sign 0 "ES256" [("ttype", .str "refresh_token"), ("sid", .str "S"),
      ("token_class", .str "access_token"), ("iss", .str "iss"), ("iat", .num 1000), ("exp", .num 1600)]
    have e1 : Handler.info jwtLib 1200 (jwtLib.sign 0 "ES256" [("ttype", .str "refresh_token"), ("sid", .str "S"),
      ("token_class", .str "access_token"), ("iss", .str "iss"), ("iat", .num 1000), ("exp", .num 1600)])
        (.jwt "access_token" "ES256" 600) = .error .wrongTokenClass := by
      show jwtInfo _ _ _ _ _ = _
      unfold jwtInfo
      rw [hu]
      decide +kernel
    have e2 : Handler.info jwtLib 1200 (jwtLib.sign 0 "ES256" [("ttype", .str "refresh_token"), ("sid", .str "S"),
      ("token_class", .str "access_token"), ("iss", .str "iss"), ("iat", .num 1000), ("exp", .num 1600)])
        (.jwt "refresh_token" "ES256" 3600) = .ok { sid := some sid1, cls := some "refresh_token" } := by
      show jwtInfo _ _ _ _ _ = _
      unfold jwtInfo
      rw [hu]
      decide +kernel
    have g0 : hs.get? "authorization_code" = none := rfl
    have g1 : hs.get? "access_token" = some (.jwt "access_token" "ES256" 600) := rfl
    have g2 : hs.get? "refresh_token" = some (.jwt "refresh_token" "ES256" 3600) := rfl
    simp only [handlerInfo, g0, g1, g2, e1, e2, show skipped .wrongTokenClass = true from rfl, if_true]

/-- C29 does not hold for every string: a text that looks like a JWT, is signed by nobody and has an empty "aud" makes
`info` raise IndexError instead of UnknownToken. -/
theorem C29_forged_raises_refuted :
    ¬ (∀ (L : JwtLib) (now : Int) (handlers : Dict Handler) (token : Str), AsConfigured handlers → Separated L handlers →
      (∀ n C c l, handlers.get? n = some (.dflt C c l) → C.dec token = none) →
      (∀ alg, ∃ e, L.unpack alg token = .error e ∧ skipped e = true) →
      handlerInfo L now handlers token ["authorization_code", "access_token", "refresh_token", "id_token"] = .error .unknownToken) := by
  intro H
  let tok := jwtText 'F' "none" [("aud", .arr [])]
  obtain ⟨hp, hu⟩ := jwtLib_forged "none" [("aud", .arr [])]
  have h := H jwtLib 0 handlers tok asConfigured separated (by
      intro n C c l hg
      rw [dflt_key hg]
      rfl) (fun alg => ⟨_, hu alg, by decide⟩)
  have e0 : Handler.info jwtLib 0 tok (.dflt (cipher 'a') "authorization_code" 300) = .error .unknownToken := rfl
  have e1 : Handler.info jwtLib 0 tok (.jwt "access_token" "ES256" 600) = .error .unknownToken := by
    show jwtInfo _ _ _ _ _ = _
    unfold jwtInfo
    rw [hu]
  have e2 : Handler.info jwtLib 0 tok (.dflt (cipher 'a') "refresh_token" 3600) = .error .unknownToken := rfl
  have e3 : Handler.info jwtLib 0 tok (.idt [("c1", "ES256")]) = .error .indexError := by
    show idtInfo _ _ _ _ = _
    unfold idtInfo
    rw [hp]
    rfl
  have g0 : handlers.get? "authorization_code" = some (.dflt (cipher 'a') "authorization_code" 300) := rfl
  have g1 : handlers.get? "access_token" = some (.jwt "access_token" "ES256" 600) := rfl
  have g2 : handlers.get? "refresh_token" = some (.dflt (cipher 'a') "refresh_token" 3600) := rfl
  have g3 : handlers.get? "id_token" = some (.idt [("c1", "ES256")]) := rfl
  simp only [handlerInfo, g0, g1, g2, g3, e0, e1, e2, e3, show skipped .unknownToken = true from rfl, if_true,
    show skipped .indexError = false from rfl, Bool.false_eq_true, if_false] at h
  exact absurd h (by decide)

end OidcOp.Ex
