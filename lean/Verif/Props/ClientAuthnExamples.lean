/-
Concrete cases for Props/ClientAuthn.lean, and the refutations of C49 and C51.
-/
import Verif.Props.ClientAuthn

namespace OidcOp.Ex
open OidcOp Spec

/-- Two clients with secrets; the secret of the second expired at 50.  Headers are not encoded, and the only JWTs are "jwt1" and
"jwt2", of the same client and with the same identifier, and "jwt3" of another issuer. -/
def actx : AuthnCtx :=
  { cdb := [("c1", .info { secret := some "s1" }), ("c2", .info { secret := some "s2", expiresAt := 50 }), ("a", .info {}),
            ("a:b", .info {})]
    now := 100
    targets := ["https://op/token"]
    decode := some
    unquote := String.ofList
    unpack := fun t =>
      if t = "jwt1" ∨ t = "jwt2" then
        some { iss := some "c1", aud := some ["https://x", "https://op/token"], jti := some "j", hs := true, octKey := some "s1" }
      else if t = "jwt3" then some { iss := some "a", aud := some ["https://op/token"], jti := some "b:c" }
      else if t = "jwt4" then some { iss := some "a:b", aud := some ["https://op/token"], jti := some "c" }
      else none }

def secrets : List (Option CAuthn) := [some .basic, some .post]

/-- The hypotheses of the C49 theorems. -/
example : verifyClient actx secrets none {} (some "Basic c1:s1") [] =
      (.ok (some { clientId := some "c1", method := "client_secret_basic" }), []) ∧
    verifyClient actx secrets none {} (some "Basic c1:s2") [] = (.ok none, []) ∧
    (verifyClient actx secrets none {} (some "Basic c2:s2") []).1 = .error (.other "InvalidClient") ∧
    actx.cdb.get? "" = none := by decide +kernel

example : PostCredentials { clientId := some "c1", clientSecret := some "s1" } "c1" "s1" ∧ HasSecret actx.cdb "c1" "s1" ∧
    InForce actx.cdb actx.now "c1" := by
  refine ⟨⟨rfl, rfl⟩, ⟨{ secret := some "s1" }, by decide +kernel, rfl⟩, ⟨{ secret := some "s1" }, by decide +kernel, .inl rfl⟩⟩

/-- C49 is false of the code: the endpoint allows no unauthenticated access, the secret is wrong, and still the client is
returned, for a bearer token in the body, whatever it is, makes the client id of the request count (client_authn.py:170-179). -/
theorem C49_bearer_body_refuted :
    ¬ (∀ (C : AuthnCtx) (ms : List (Option CAuthn)) (req : AuthnReq) (header : Option String) (r : AuthInfo)
        (c s : String) (seen seen' : List String), none ∉ ms → req.clientId = some c → req.clientSecret = some s →
      ¬ HasSecret C.cdb c s → verifyClient C ms none req header seen = (.ok (some r), seen') → r.clientId ≠ some c) := by
  intro h
  refine h actx [some .post, some .bearerBody] { clientId := some "c1", clientSecret := some "wrong", accessToken := some "x" }
    none { clientId := some "c1", token := some "x", method := "bearer_body" } "c1" "wrong" [] [] (by decide) rfl rfl ?_
    (by decide +kernel) rfl
  rw [← secretMatches_iff]
  decide +kernel

/-- C50: the second use of the identifier is refused, also with another text. -/
example : (authHistory [] [⟨actx, [some .secretJwt], none, { clientAssertion := some "jwt1" }, none⟩,
      ⟨actx, [some .secretJwt], none, { clientAssertion := some "jwt2" }, none⟩]).map
        (fun r => r.map (fun o => o.bind (·.clientId))) = [.ok (some "c1"), .ok none] := by decide +kernel

/-- The private key method does not take a symmetric signature. -/
example : verifyClient actx [some .privateKeyJwt] none { clientAssertion := some "jwt1" } none [] = (.ok none, []) := by
  decide +kernel

/-- An observation: the key of the record is `iss:jti`, so the assertion of another issuer may use up an identifier: the one with
issuer "a:b" and identifier "c" is refused after the one with issuer "a" and identifier "b:c". -/
example : (authHistory [] [⟨actx, [some .privateKeyJwt], none, { clientAssertion := some "jwt3" }, none⟩,
      ⟨actx, [some .privateKeyJwt], none, { clientAssertion := some "jwt4" }, none⟩]).map
        (fun r => r.map (fun o => o.bind (·.clientId))) = [.ok (some "a"), .ok none] ∧
    (authHistory [] [⟨actx, [some .privateKeyJwt], none, { clientAssertion := some "jwt4" }, none⟩]).map
        (fun r => r.map (fun o => o.bind (·.clientId))) = [.ok (some "a:b")] := by decide +kernel

/-- C51: the record for the token, and not for another client. -/
example : (readRegistration actx [some .bearerHeader] [("t1", "c1")] { clientId := some "c1" } (some "Bearer t1") []).1 = .ok "c1" ∧
    (readRegistration actx [some .bearerHeader] [("t1", "c1")] { clientId := some "c2" } (some "Bearer t1") []).1 =
      .error .keyError ∧
    (readRegistration actx [some .bearerHeader] [("t1", "c1")] { clientId := some "c1" } (some "Bearer t2") []).1 =
      .error (.other "BearerTokenAuthenticationError") := by decide +kernel

/-- C51 is false of the code for other method lists: with bearer tokens in the body any token will do, for the client id is taken
from the request (client_authn.py:170-179). -/
theorem C51_bearer_body_refuted :
    ¬ (∀ (C : AuthnCtx) (ms : List (Option CAuthn)) (tokens : Dict String) (req : AuthnReq) (header : Option String)
        (seen : List String) (c : String), ms ≠ [] → none ∉ ms →
      (readRegistration C ms tokens req header seen).1 = .ok c →
      ∃ t, (BearerToken header t ∨ req.accessToken = some t) ∧ tokens.get? t = some c) := by
  intro h
  obtain ⟨t, _, ht⟩ := h actx [some .bearerBody] [] { clientId := some "c1", accessToken := some "x" } none [] "c1" (by decide)
    (by decide) (by decide +kernel)
  cases ht

/-- C51 is false of the code for other method lists: an endpoint without configured methods answers everybody
(endpoint.py:228-230). -/
theorem C51_no_method_refuted :
    ¬ (∀ (C : AuthnCtx) (ms : List (Option CAuthn)) (tokens : Dict String) (req : AuthnReq) (header : Option String)
        (seen : List String) (c : String), none ∉ ms →
      (readRegistration C ms tokens req header seen).1 = .ok c →
      ∃ t, (BearerToken header t ∨ req.accessToken = some t) ∧ tokens.get? t = some c) := by
  intro h
  obtain ⟨t, _, ht⟩ := h actx [] [] { clientId := some "c1" } none [] "c1" (by decide) (by decide +kernel)
  cases ht

end OidcOp.Ex
