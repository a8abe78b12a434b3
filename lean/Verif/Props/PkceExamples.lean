/-
Concrete histories of a provider with PKCE: they meet the hypotheses of the theorems in Props/Pkce.lean.
-/
import Verif.Props.Pkce
import Verif.Props.WorldExamples

namespace OidcOp.Ex
open OidcOp Spec

/-- Toy transformations. -/
def hash : CCHash :=
  { s256 := fun x => .ok ("2" ++ x), s384 := fun x => .ok ("3" ++ x), s512 := fun x => .ok ("5" ++ x) }

/-- PKCE is required of the first client; S384 and S512 are not configured. -/
def pkce : PkceCfg := { methods := ["plain", "S256"], cdb := [("c1", some true), ("c2", none)] }

def pkceReq : AuthzReq :=
  { authzReq "c1" with codeChallenge := some "2abc", codeChallengeMethod := some "S256" }

/-- Authorization with a challenge and a code exchange with a verifier. -/
def pkceOps (verifier : Option String) : List WOp :=
  [.login "d" "c1" pkceReq event, .authorize (sid "c1" 0) pkceReq, .tick 5,
   .parse "c1" { codeReq (E.mkVal 1 .authorizationCode (sid "c1" 0)) with codeVerifier := verifier }, .process 0 none]

/-- The right verifier gets a token response; a wrong one, none, or the challenge itself do not. -/
example : (prun E hash pkce init (pkceOps (some "abc"))).log.countP
      (isCodeResponse (E.mkVal 1 .authorizationCode (sid "c1" 0))) = 1 ∧
    (prun E hash pkce init (pkceOps (some "abd"))).log.length = 1 ∧
    (prun E hash pkce init (pkceOps (some "2abc"))).log.length = 1 ∧
    (prun E hash pkce init (pkceOps none)).log.length = 1 := by
  decide +kernel

/-- Without a challenge the first client gets no session, the second one does. -/
example : (prun E hash pkce init (start "c1")).st.heap.length = 0 ∧
    (prun E hash pkce init (start "c2")).log.length = 2 := by
  decide +kernel

/-- The first client is one that C28 speaks about, and a method that is not configured is refused. -/
example : PkceRequired pkce "c1" ∧ pkce.cdb.get? "c1" ≠ none ∧
    pkceAuthnParse pkce "c1" pkceReq = .ok (.req pkceReq) ∧
    pkceAuthnParse pkce "c2" { pkceReq with codeChallengeMethod := some "S512" } =
      .ok (.err "invalid_request" "Unsupported code_challenge_method") := by
  refine ⟨.inl (by decide +kernel), by decide +kernel, by decide +kernel, by decide +kernel⟩

end OidcOp.Ex
