/-
Concrete histories: they meet the hypotheses of the theorems in Props/World.lean, and one of them refutes C20.
Everything here is computed by the kernel.
-/
import Verif.Props.World
import Verif.Lemmas.ExEnv

namespace OidcOp.Ex
open OidcOp Spec

instance (w : World) (r : Nat) (g : Grant) : Decidable (GrantAt w r g) :=
  inferInstanceAs (Decidable (w.st.heap[r]? = some (.grant g)))

/-- Two clients; refresh token rotation is on for the second. -/
def cfg : TokenCfg :=
  { cdb := [("c1", {}), ("c2", { revokeRefresh := some true })]
    providerGrantTypes := ["authorization_code", "refresh_token"] }

def authz : AuthzCfg :=
  { usageRules := some
      [(.authorizationCode, { supportsMinting := some [.accessToken, .refreshToken, .idToken], expiresIn := some 300 }),
       (.accessToken, { expiresIn := some 600 }),
       (.refreshToken, { supportsMinting := some [.accessToken, .refreshToken, .idToken], expiresIn := some 86400 })] }

def E : Env := env cfg authz (fun _ _ => none)

def authzReq (c : String) : AuthzReq :=
  { clientId := some c, redirectUri := some "https://rp/cb", responseType := ["code"],
    scope := some ["openid", "email", "offline_access"], state := some "s" }

def event : AuthnEvent := { uid := "d", authnTime := 1000, validUntil := 5000 }

/-- The session id of the first grant of the user at a client; its grant id was drawn as number `k`. -/
def sid (c : String) (k : Nat) : String := E.encSid 0 ["d", c, E.uuid k]

def codeReq (v : String) : TokenReq :=
  { grantType := some "authorization_code", code := some v, redirectUri := some "https://rp/cb" }

def refreshReq (v : String) (sc : Option (List String)) : TokenReq :=
  { grantType := some "refresh_token", refreshToken := some v, scope := sc }

/-- Authorization and code exchange: numbers 0 grant id, 1 code, 2 access token, 3 refresh token, 4 ID token. -/
def start (c : String) : List WOp :=
  [.login "d" c (authzReq c) event, .authorize (sid c 0) (authzReq c), .tick 5,
   .parse c (codeReq (E.mkVal 1 .authorizationCode (sid c 0))), .process 0 none]

def init : World := { now := 1000 }

/-- A history with a code exchange answers twice: an authorization response and a token response. -/
example : (run E init (start "c1")).log.length = 2 ∧
    (run E init (start "c1")).log.countP (isCodeResponse (E.mkVal 1 .authorizationCode (sid "c1" 0))) = 1 := by
  decide +kernel

/-- The grant after the code exchange. -/
def grant1 (c : String) : Grant := ((run E init (start c)).st.grantAt 2).getD {}

example : GrantAt (run E init (start "c1")) 2 (grant1 "c1") := by decide +kernel

example : (grant1 "c1").issuedToken.map (fun t => (t.cls, t.used, t.basedOn.isSome)) =
    [(.authorizationCode, 1, false), (.accessToken, 0, true), (.refreshToken, 0, true), (.idToken, 0, true)] := by
  decide +kernel

/-- C11: the used code is a spent token of a reachable state. -/
example : ∃ t, TokenAt (run E init (start "c1")) 2 0 t ∧ Spent t (run E init (start "c1")).now := by
  refine ⟨((grant1 "c1").issuedToken[0]?).getD default, ⟨grant1 "c1", by decide +kernel, by decide +kernel⟩, .inr (.inl ⟨1, ?_, ?_⟩)⟩
  · decide +kernel
  · decide +kernel

/-- C16: the used code is found through its session, and the client may use the code grant. -/
example : ∃ s, sessionByToken E (run E init (start "c1")) (E.mkVal 1 .authorizationCode (sid "c1" 0)) = .ok s ∧
    s.grant = grant1 "c1" ∧ E.cfg.cdb.get? "c1" = some {} := by
  refine ⟨{ sid := sid "c1" 0, user := "d", client := "c1", gid := E.uuid 0, ref := 2, grant := grant1 "c1" }, ?_, rfl, ?_⟩
  · decide +kernel
  · decide +kernel

/-- C21, C22: a refresh request with rotation on is accepted, answered, and the token is revoked. -/
example : (run E init (start "c2" ++ [.parse "c2" (refreshReq (E.mkVal 3 .refreshToken (sid "c2" 0)) (some ["openid"])),
      .process 1 none])).log.length = 3 ∧
    (((run E init (start "c2" ++ [.parse "c2" (refreshReq (E.mkVal 3 .refreshToken (sid "c2" 0)) (some ["openid"])),
      .process 1 none])).st.grantAt 2).getD {}).issuedToken.map (fun t => (t.cls, t.revoked)) =
    [(.authorizationCode, false), (.accessToken, false), (.refreshToken, true), (.idToken, false),
     (.accessToken, false), (.idToken, false)] ∧
    RotationInForce E.cfg "c2" := by
  refine ⟨by decide +kernel, by decide +kernel, .inl ⟨{ revokeRefresh := some true }, by decide +kernel, rfl⟩⟩

/-- C24: a revoked grant with tokens. -/
example : ∃ g, GrantAt (run E init (start "c1" ++ [.revokeGrant (sid "c1" 0)])) 2 g ∧ g.revoked = true ∧
    g.issuedToken.length = 4 :=
  ⟨{ grant1 "c1" with revoked := true }, by decide +kernel, rfl, by decide +kernel⟩

/-- C26: the session ids of the history are genuine, and both kinds of answer are in the log. -/
example : GenuineHistory E (start "c1") := by
  intro s req h
  simp only [start, List.mem_cons, WOp.authorize.injEq, reduceCtorEq, List.not_mem_nil, or_false, false_or] at h
  refine ⟨0, "d", "c1", E.uuid 0, ?_, ?_, E.uuid_clean 0, h.1⟩
  · constructor <;> decide
  · constructor <;> decide

/-- C14: presenting the code again, also with the request accepted before the first answer, gives nothing. -/
example : (run E init (start "c1" ++ [.process 0 none])).log.countP
      (isCodeResponse (E.mkVal 1 .authorizationCode (sid "c1" 0))) = 1 ∧
    ((run E init (start "c1" ++ [.process 0 none])).st.grantAt 2).map (fun g => g.issuedToken.length) = some 4 := by
  decide +kernel

/-! ## C20 -/

/-- A refresh that narrows the scope (numbers 5 access token, 6 refresh token, 7 ID token), then a refresh with the
narrowed token that asks for a scope outside it. -/
def widening : List WOp :=
  start "c1" ++
  [.parse "c1" (refreshReq (E.mkVal 3 .refreshToken (sid "c1" 0)) (some ["openid", "offline_access"])), .process 1 none,
   .parse "c1" (refreshReq (E.mkVal 6 .refreshToken (sid "c1" 0)) (some ["openid", "email"])), .process 2 none]

/-- C20 is false of the code: with a refresh token that was issued with the scope [openid, offline_access] a later
refresh gets a response, and an access token, with the scope [openid, email].  `find_scope` is asked about the parent
of the presented token, not about the token itself (oauth2/token.py:346-350, 264-266). -/
theorem C20_widening_refuted :
    ¬ (∀ (E : Env) (now : Int) (ops : List WOp) (ref : Nat) (client v : String) (req : TokenReq) (resp : TokenResp)
        (g : Grant) (t : Token),
      Event.token ref client true v req resp ∈ (run E { now := now } ops).log →
      GrantAt (run E { now := now } ops) ref g → t ∈ g.issuedToken → t.value = v →
      ∀ x ∈ resp.scope, x ∈ t.scope) := by
  intro h
  let w := run E init widening
  let g := (w.st.grantAt 2).getD {}
  let t := (g.issuedToken[5]?).getD default
  let v := E.mkVal 6 .refreshToken (sid "c1" 0)
  let e := (w.log[3]?).getD default
  let resp : TokenResp := match e with
    | .token _ _ _ _ _ r => r
    | _ => {}
  have h1 : e = .token 2 "c1" true v { refreshReq v (some ["openid", "email"]) with clientId := some "c1" } resp := by
    decide +kernel
  have h2 : e ∈ w.log := List.mem_of_getElem? (i := 3) (by decide +kernel)
  rw [h1] at h2
  have h3 : GrantAt w 2 g := by decide +kernel
  have h4 : t ∈ g.issuedToken := List.mem_of_getElem? (i := 5) (by decide +kernel)
  have h5 : t.value = v := by decide +kernel
  have := h E 1000 widening 2 "c1" v _ resp g t h2 h3 h4 h5 "email" (by decide +kernel)
  exact absurd this (by decide +kernel)

end OidcOp.Ex
