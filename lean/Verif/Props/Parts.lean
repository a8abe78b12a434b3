/-
C75: tokens of the configured handlers are unique and name their session; the histories of a provider that is put together
from the modelled parts.
-/
import Verif.Lemmas.Parts
import Verif.Props.WorldExamples
import Verif.Base.JsonCode

namespace OidcOp
open Spec

/-- C75. Two handler calls that succeed give the same text only if they are the same call, for the same class and the same
session. -/
theorem C75_tokens_never_repeat (p : Parts) (jti : Nat → String) (hp : SoundParts p jti) (n m : Nat) (c d : TokenClass)
    (s s' : String) (hc : p.failure n c = none) (hd : p.failure m d = none) (h : p.token n c s = p.token m d s') :
    n = m ∧ c = d ∧ s = s' := token_inj hp hc hd h

/-- C75. Whenever a token is looked at and in whatever order the handlers are asked: the session id that is found in it is
the one it was made for. -/
theorem C75_token_names_its_session (p : Parts) (jti : Nat → String) (hp : SoundParts p jti) (n : Nat) (c : TokenClass)
    (s : String) (hc : p.failure n c = none) (now : Int) (order : List String) (r : TokInfo)
    (h : handlerInfo p.jwt now p.handlers (p.token n c s) order = .ok r) : r.sid = some s.toList :=
  tokenSid_seal hp hc s now order r h

/-- C75, for whole histories: two tokens of whatever grants with the same value are the same token. -/
theorem C75_history_tokens_distinct (p : Parts) (jti : Nat → String) (hp : SoundParts p jti) (now : Int) (ops : List WOp)
    (r r' i i' : Nat) (t t' : Token) (h : TokenAt (run (p.env jti hp) { now := now } ops) r i t)
    (h' : TokenAt (run (p.env jti hp) { now := now } ops) r' i' t') (hv : t.value = t'.value) : r = r' ∧ i = i' := by
  obtain ⟨g, hg, ht⟩ := h
  obtain ⟨g', hg', ht'⟩ := h'
  have hw := winv_reachable (E := p.env jti hp) ⟨now, ops, rfl⟩
  exact hw.core.uniq r r' g g' i i' t t' (grantAt_iff.2 hg) (grantAt_iff.2 hg') ht ht' hv

namespace Ex

/-- A toy cipher whose texts have neither blanks nor semicolons. -/
def wireCipher : Cipher where
  enc _ x := enc [x]
  dec s := match dec s false [] with
    | [x] => some x
    | _ => none
  dec_enc n x := by simp only [dec_enc]

def wireSig (alg : String) (x : Dict Json) : Str := enc ["J".toList, alg.toList, Json.codeO x]

theorem wireSig_inj {a a' : String} {x x' : Dict Json} (h : wireSig a x = wireSig a' x') : a = a' ∧ x = x' := by
  have := congrArg (fun t => dec t false []) h
  simp only [wireSig, dec_enc, List.cons.injEq, true_and, and_true, String.toList_inj] at this
  exact ⟨this.1, Json.codeO_injective this.2⟩

/-- The algorithm and the payload of a signed text. -/
def wireRead (s : Str) : Option (String × Dict Json) :=
  match dec s false [] with
  | [_, a, body] =>
    match Json.readAll body with
    | some x => if s = wireSig (String.ofList a) x then some (String.ofList a, x) else none
    | none => none
  | _ => none

theorem wireRead_sig (alg : String) (x : Dict Json) : wireRead (wireSig alg x) = some (alg, x) := by
  have h : dec (wireSig alg x) false [] = ["J".toList, alg.toList, Json.codeO x] := dec_enc _
  unfold wireRead
  rw [h]
  simp only [Json.readAll_code, String.ofList_toList, if_true]

theorem wireRead_some {s : Str} {a : String} {x : Dict Json} (h : wireRead s = some (a, x)) : s = wireSig a x := by
  unfold wireRead at h
  split at h
  · split at h
    · split at h
      · rename_i hs
        cases h
        exact hs
      · cases h
    · cases h
  · cases h

def wireOk (alg : String) : Option (String × Dict Json) → Except Exc (Dict Json)
  | some (a, x) => if a = alg then .ok x else .error .unknownToken
  | none => .error .unknownToken

/-- A toy JWT library in which signing is deterministic. -/
def wireJwt : JwtLib where
  sign _ alg x := wireSig alg x
  unpack alg s := wireOk alg (wireRead s)
  peek s := (wireRead s).map (·.2)
  unpack_sign n alg x := by rw [wireRead_sig]; exact if_pos rfl
  peek_sign n alg x := by rw [wireRead_sig]; rfl

theorem enc_ne_sig (x : Str) (a : String) (y : Dict Json) : enc [x] ≠ wireSig a y := by
  intro h
  have := congrArg (fun t => dec t false []) h
  simp [wireSig, dec_enc] at this

theorem wireText_enc (x : Str) (r : List Str) : WireText (enc (x :: r)) := by
  refine ⟨?_, fun h => (enc_clean _ _ h).1 rfl, fun h => (enc_clean _ _ h).2 rfl⟩
  simp [enc]

/-- Codes, access and refresh tokens encrypted with one key, ID tokens signed. -/
def partHandlers (access : Handler) : Dict Handler :=
  [("authorization_code", .dflt wireCipher "authorization_code" 300), ("access_token", access),
   ("refresh_token", .dflt wireCipher "refresh_token" 3600), ("id_token", .idt [("c1", "ES256")])]

def reps (c : Char) (n : Nat) : String := String.ofList (List.replicate n c)

theorem reps_inj {c : Char} {n m : Nat} (h : reps c n = reps c m) : n = m := by
  have := congrArg List.length (ofList_inj h)
  simpa using this

def parts (access : Handler) : Parts where
  cfg := cfg
  authz := authz
  jwt := wireJwt
  handlers := partHandlers access
  issuer := "https://op"
  crypt := wireCipher
  sidRnd n := List.replicate n 'q'
  clock n := n
  rnd n := List.replicate n 'r'
  expiresIn _ _ _ := none
  payload n _ _ := [("aud", .arr [.str "c1"]), ("jti", .str (reps 'j' n))]
  idAlg _ _ := "ES256"
  idPayload n s := [("sid", .str s), ("jti", .str (reps 'j' n)), ("exp", .num (n + 300)), ("aud", .arr [.str "c1"])]
  fail _ _ := none
  uuid n := reps 'u' (n + 1)
  hash x := x
  claims := { modules := [("userinfo", {}), ("introspection", {}), ("id_token", {}), ("access_token", {})] }
  claimsDb := [("c1", {})]
  scopes := {}
  uri := simpleUri
  redirectUris := [("c1", some [.plain "https://rp/cb"]), ("c2", some [.plain "https://rp/cb"])]

theorem partHandlers_cases {a : Handler} {n : String} {h : Handler} (hg : (partHandlers a).get? n = some h) :
    (n = "authorization_code" ∧ h = .dflt wireCipher "authorization_code" 300) ∨ (n = "access_token" ∧ h = a) ∨
    (n = "refresh_token" ∧ h = .dflt wireCipher "refresh_token" 3600) ∨ (n = "id_token" ∧ h = .idt [("c1", "ES256")]) := by
  simp only [partHandlers, Dict.get?_cons, Dict.get?_nil] at hg
  repeat' split at hg
  all_goals first
    | (cases hg; done)
    | (rename_i hn; cases hg; subst hn; simp)

theorem wire_unpack (alg : String) (s : Str) :
    (∃ x, wireJwt.unpack alg s = .ok x ∧ s = wireSig alg x) ∨ wireJwt.unpack alg s = .error .unknownToken := by
  have hu : wireJwt.unpack alg s = wireOk alg (wireRead s) := rfl
  rw [hu]
  cases h : wireRead s with
  | none => exact .inr rfl
  | some q =>
    obtain ⟨a, x⟩ := q
    unfold wireOk
    by_cases ha : a = alg
    · subst ha
      exact .inl ⟨x, if_pos rfl, wireRead_some h⟩
    · exact .inr (if_neg ha)

/-- Access tokens are encrypted too, or they are signed. -/
def accessEnc : Handler := .dflt wireCipher "access_token" 600
def accessJwt : Handler := .jwt "access_token" "ES256" 600

theorem parts_sound (a : Handler) (ha : a = accessEnc ∨ a = accessJwt) : SoundParts (parts a) (reps 'j') := by
  have key : ∀ {n : String} {C : Cipher} {c : String} {l : Int}, (partHandlers a).get? n = some (.dflt C c l) → C = wireCipher := by
    intro n C c l hg
    rcases partHandlers_cases hg with ⟨-, h⟩ | ⟨-, h⟩ | ⟨-, h⟩ | ⟨-, h⟩
    · cases h; rfl
    · rcases ha with rfl | rfl <;> cases h; rfl
    · cases h; rfl
    · cases h
  refine ⟨?_, ⟨?_, ?_, ?_, ?_⟩, ?_, ?_, ?_, ?_, ?_, ?_, ?_, ?_, ?_⟩
  · intro n h hg
    rcases partHandlers_cases hg with ⟨rfl, rfl⟩ | ⟨rfl, rfl⟩ | ⟨rfl, rfl⟩ | ⟨rfl, rfl⟩
    · simp [tokenClasses]
    · rcases ha with rfl | rfl <;> simp [accessEnc, accessJwt, tokenClasses]
    · simp [tokenClasses]
    · rfl
  · intro n m C C' c c' l l' h1 h2
    rw [key h1, key h2]
    exact .inl wireCipher.dec_enc
  · intro n C c l h1 k x
    rw [key h1]
    constructor
    · show (wireRead (wireCipher.enc k x)).map (·.2) = none
      cases h : wireRead (wireCipher.enc k x) with
      | none => rfl
      | some q => exact absurd (wireRead_some h) (enc_ne_sig _ _ _)
    · intro alg
      rcases wire_unpack alg (wireCipher.enc k x) with ⟨q, -, h⟩ | h
      · exact absurd h (enc_ne_sig _ _ _)
      · exact ⟨_, h, by decide⟩
  · intro n C c l h1 k alg x
    rw [key h1]
    show (match dec (wireSig alg x) false [] with | [x] => some x | _ => none) = none
    simp [wireSig, dec_enc]
  · intro k alg alg' x
    rcases wire_unpack alg' (wireJwt.sign k alg x) with ⟨q, h1, h2⟩ | h
    · rw [← (wireSig_inj h2).2] at h1
      exact .inl h1
    · exact .inr ⟨_, h, by decide⟩
  · intro n C c l h1 k x
    rw [key h1]
    exact wireText_enc _ _
  · intro k alg x
    exact wireText_enc _ _
  · intro k x
    exact wireText_enc _ _
  · intro n m h
    simpa [parts] using congrArg List.length h
  · exact fun h => reps_inj h
  · intro n c s
    exact ⟨rfl, rfl, rfl⟩
  · intro n s
    exact ⟨⟨rfl, rfl, rfl⟩, rfl⟩
  · intro n
    show GrantId (reps 'u' (n + 1))
    refine ⟨⟨?_, ?_⟩, ?_⟩
    · intro h
      have := congrArg String.toList h
      simp [reps, List.replicate_succ] at this
    · rw [reps, String.toList_ofList]
      intro h
      exact absurd (List.eq_of_mem_replicate h) (by decide)
    · rw [reps, String.toList_ofList]
      rintro ⟨pre, c, h, hc⟩
      have : c ∈ List.replicate (n + 1) 'u' := by rw [h]; simp
      rw [List.eq_of_mem_replicate this] at hc
      exact absurd hc (by decide)
  · intro n m h
    have h' : reps 'u' (n + 1) = reps 'u' (m + 1) := h
    have := reps_inj h'
    omega

/-- A provider whose tokens are encrypted. -/
def PE : Env := (parts accessEnc).env (reps 'j') (parts_sound accessEnc (.inl rfl))

/-- An authorization and a code exchange at this provider: the numbers are 0 for the grant id, 1 for the code. -/
def partsHistory : List WOp :=
  [.login "d" "c1" (authzReq "c1") event, .authorize (PE.encSid 0 ["d", "c1", PE.uuid 0]) (authzReq "c1"), .tick 5,
   .parse "c1" (codeReq (PE.mkVal 1 .authorizationCode (PE.encSid 0 ["d", "c1", PE.uuid 0]))), .process 0 none]

set_option maxRecDepth 20000 in
/-- C75: the code is redeemed, and the session holds four tokens. -/
example : (run PE { now := 1000 } partsHistory).log.length = 2 ∧
    (((run PE { now := 1000 } partsHistory).st.grantAt 2).map (fun g => g.issuedToken.map (·.cls))) =
      some [.authorizationCode, .accessToken, .refreshToken, .idToken] := by
  decide +kernel

end Ex
end OidcOp
