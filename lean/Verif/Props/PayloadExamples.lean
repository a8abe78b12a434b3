/-
Concrete cases for Props/Payload.lean, and the refutations of C47 and C48.
-/
import Verif.Props.Payload
import Verif.Props.TokenHandlerExamples

namespace OidcOp.Ex
open OidcOp Spec

def idtCfg : IdtCfg :=
  { issuer := "op", lifetime := 3, algOf := [("c", "ES256")], inclSid := fun _ => false, hash := fun _ v => .str ("#" ++ v) }

def payloadCfg : ClaimsCfg := { modules := [("id_token", {}), ("access_token", {})] }

/-- A grant for a request that asks for some claims. -/
def askGrant (names : List String) : Grant :=
  { sub := "subject", scope := ["openid"]
    authzReq := some { clientId := some "c", nonce := some "n",
                       claims := [("id_token", names.map (fun k => (k, Json.null))), ("access_token", names.map (fun k => (k, Json.null)))] }
    authnEvent := some { uid := "d", authnInfo := "pw", authnTime := 7, validUntil := 9 } }

/-- An ID token for a user with an email and with claims named as protocol claims, all of which are asked for: only the email
gets in. -/
example : (mintIdt jwtLib idtCfg payloadCfg
      (some [("d", [("email", .str "e"), ("sub", .str "x"), ("nonce", .str "x"), ("aud", .str "x"), ("exp", .str "x")])])
      1 0 "s" "d" "c" (askGrant ["email", "sub", "nonce", "aud", "exp"]) none ["openid"] (some "code1") none "j" []).1 =
    .ok (jwtLib.sign 0 "ES256"
      [("sub", .str "subject"), ("sid", .str "s"), ("auth_time", .num 7), ("acr", .str "pw"), ("scope", .arr [.str "openid"]),
       ("jti", .str "j"), ("client_id", .str "c"), ("email", .str "e"), ("c_hash", .str "#code1"), ("nonce", .str "n"),
       ("iss", .str "op"), ("iat", .num 1), ("exp", .num 4), ("aud", .arr [.str "c"])]) := by
  decide +kernel

/-- C47 is false of the code: a user claim with the name "code" takes the place of the code in the hash, for the payload is
passed on as keyword arguments (session/grant.py:240, 344-346; token/id_token.py:262-299). -/
theorem C47_code_claim_refuted :
    ¬ (∀ (L : JwtLib) (K : IdtCfg) (cfg : ClaimsCfg) (users : Option UserDb) (now : Int) (nonce : Nat)
      (sid user client : String) (g : Grant) (second : Option String) (scope : List String) (code : String)
      (atok : Option String) (jti : String) (db db' : ClaimsDb) (tok : Str),
      mintIdt L K cfg users now nonce sid user client g second scope (some code) atok jti db = (.ok tok, db') → code ≠ "" →
      ∃ alg p, K.algOf.get? client = some alg ∧ L.unpack alg tok = .ok p ∧ p.get? "c_hash" = some (K.hash alg code)) := by
  intro h
  obtain ⟨alg, p, h1, h2, h3⟩ := h jwtLib idtCfg payloadCfg (some [("d", [("code", .str "forged")])]) 1 0 "s" "d" "c"
    (askGrant ["code"]) none ["openid"] "code1" none "j" [] []
    (jwtLib.sign 0 "ES256"
      [("sub", .str "subject"), ("sid", .str "s"), ("auth_time", .num 7), ("acr", .str "pw"), ("scope", .arr [.str "openid"]),
       ("jti", .str "j"), ("client_id", .str "c"), ("c_hash", .str "#forged"), ("nonce", .str "n"),
       ("iss", .str "op"), ("iat", .num 1), ("exp", .num 4), ("aud", .arr [.str "c"])]) (by decide +kernel) (by decide)
  have : alg = "ES256" := by
    have e : idtCfg.algOf.get? "c" = some "ES256" := by decide +kernel
    rw [e] at h1; cases h1; rfl
  subst this
  rw [jwtLib.unpack_sign] at h2
  cases h2
  exact absurd h3 (by decide +kernel)

/-- C47 is false of the code: an ID token that is issued alone has a hash of a code if the user has a claim "c_hash". -/
theorem C47_hash_claim_refuted :
    ¬ (∀ (L : JwtLib) (K : IdtCfg) (cfg : ClaimsCfg) (users : Option UserDb) (now : Int) (nonce : Nat)
      (sid user client : String) (g : Grant) (second : Option String) (scope : List String)
      (atok : Option String) (jti : String) (db db' : ClaimsDb) (tok : Str),
      mintIdt L K cfg users now nonce sid user client g second scope none atok jti db = (.ok tok, db') →
      ∃ alg p, K.algOf.get? client = some alg ∧ L.unpack alg tok = .ok p ∧ p.get? "c_hash" = none) := by
  intro h
  obtain ⟨alg, p, h1, h2, h3⟩ := h jwtLib idtCfg payloadCfg (some [("d", [("c_hash", .str "forged")])]) 1 0 "s" "d" "c"
    (askGrant ["c_hash"]) none ["openid"] none "j" [] []
    (jwtLib.sign 0 "ES256"
      [("sub", .str "subject"), ("sid", .str "s"), ("auth_time", .num 7), ("acr", .str "pw"), ("scope", .arr [.str "openid"]),
       ("jti", .str "j"), ("client_id", .str "c"), ("c_hash", .str "forged"), ("nonce", .str "n"),
       ("iss", .str "op"), ("iat", .num 1), ("exp", .num 4), ("aud", .arr [.str "c"])]) (by decide +kernel)
  have : alg = "ES256" := by
    have e : idtCfg.algOf.get? "c" = some "ES256" := by decide +kernel
    rw [e] at h1; cases h1; rfl
  subst this
  rw [jwtLib.unpack_sign] at h2
  cases h2
  exact absurd h3 (by decide +kernel)

/-- The hypotheses of `C48_access_token_partial`. -/
example : (mintJwt jwtLib "op" "ES256" 600 payloadCfg (some [("d", [("email", .str "e")])]) "access_token" (some 3) 1 0 "s".toList
      "d" "c" (askGrant ["email"]) ["openid"] "j" []).1 =
    .ok (jwtLib.sign 0 "ES256"
      [("scope", .arr [.str "openid"]), ("aud", .arr []), ("jti", .str "j"), ("client_id", .str "c"), ("sub", .str "subject"),
       ("email", .str "e"), ("sid", .str "s"), ("token_class", .str "access_token"), ("iss", .str "op"), ("iat", .num 1),
       ("exp", .num 4)]) := by
  decide +kernel

/-- C48 is false of the code: user claims are put over the members of the payload (session/grant.py:240), so the subject and
the scope in an access token may come from the user's record. -/
theorem C48_user_claims_refuted :
    ¬ (∀ (L : JwtLib) (issuer alg : String) (lifetime : Int) (cfg : ClaimsCfg) (users : Option UserDb)
      (rules : Option Int) (now : Int) (nonce : Nat) (sid : Str) (user client : String) (g : Grant) (scope : List String)
      (jti : String) (db db' : ClaimsDb) (tok : Str) (req : AuthzReq),
      g.authzReq = some req → req.clientId = some client → client ≠ "" →
      mintJwt L issuer alg lifetime cfg users "access_token" rules now nonce sid user client g scope jti db = (.ok tok, db') →
      ∃ p, L.unpack alg tok = .ok p ∧ p.get? "sub" = some (.str g.sub) ∧ p.get? "scope" = some (.arr (scope.map Json.str))) := by
  intro h
  obtain ⟨p, h2, h3, _⟩ := h jwtLib "op" "ES256" 600 payloadCfg
    (some [("d", [("sub", .str "someone else"), ("scope", .str "admin")])]) (some 3) 1 0 "s".toList
      "d" "c" (askGrant ["sub", "scope"]) ["openid"] "j" [] []
    (jwtLib.sign 0 "ES256"
      [("scope", .str "admin"), ("aud", .arr []), ("jti", .str "j"), ("client_id", .str "c"), ("sub", .str "someone else"),
       ("sid", .str "s"), ("token_class", .str "access_token"), ("iss", .str "op"), ("iat", .num 1),
       ("exp", .num 4)]) _ rfl rfl (by decide) (by decide +kernel)
  rw [jwtLib.unpack_sign] at h2
  cases h2
  exact absurd h3 (by decide +kernel)

end OidcOp.Ex
