/-
C89: tokens go to the client they belong to.
-/
import Verif.Props.WorldExamples
import Verif.Props.RefreshIssue
import Verif.Props.ClientAuthn
import Verif.Spec.TokenHttp

namespace OidcOp
open Spec

theorem hrun_snoc (E : Env) (A : TokenAuth) (s : HState) (ops : List HOp) (op : HOp) :
    hrun E A s (ops ++ [op]) = hstep E A (hrun E A s ops) op := by
  simp [hrun]

theorem hrun_append (E : Env) (A : TokenAuth) (s : HState) (ops ops' : List HOp) :
    hrun E A s (ops ++ ops') = hrun E A (hrun E A s ops) ops' := by
  simp [hrun]

/-- A token response was given for a request that had been parsed. -/
theorem log_parsed (E : Env) (now : Int) (ops : List WOp) (ref : Nat) (client : String) (rf : Bool) (v : String)
    (req : TokenReq) (resp : TokenResp) (h : Event.token ref client rf v req resp ∈ (run E { now := now } ops).log) :
    ∃ c req0, WOp.parse c req0 ∈ ops ∧ req = { req0 with clientId := some c } := by
  obtain ⟨pre, op, post, rfl, hl⟩ := answer_step E now ops _ h
  have hw := winv_reachable (E := E) (w := run E { now := now } pre) ⟨now, pre, rfl⟩
  obtain ⟨-, -, h3⟩ := step_spec hw (sidClosed_true E) op (fun _ _ _ => trivial)
  have hp : req ∈ (run E { now := now } pre).pool := by
    rcases h3 with h3 | ⟨e, h3, hn⟩
    · rw [h3] at hl
      simp at hl
    · rw [h3] at hl
      simp only [List.append_cancel_left_eq, List.cons.injEq, and_true] at hl
      subst hl
      rcases hn with ⟨_, _, _, _, he, _⟩ | ⟨_, _, _, _, _, _, he, hp, _⟩
      · cases he
      · cases he; exact hp
  obtain ⟨c, r0, m1, m2⟩ := C26_request_of_authenticated_client E now pre req hp
  exact ⟨c, r0, by simp [m1], m2⟩

/-- Where a parsed request comes from: an HTTP request, and the client that authentication gave. -/
def ParsedFrom (E : Env) (A : TokenAuth) (s : HState) (ops : List HOp) (c : String) (r : TokenReq) : Prop :=
  ∃ pre h post ai seen', ops = pre ++ .token h :: post ∧ r = h.req ∧
    tokenAuthn A (hrun E A s pre) h = (.ok ai, seen') ∧ parsedClient h.authn ai = some c

/-- The world goes through a history of the token endpoint's inner operations. -/
theorem hrun_run (E : Env) (A : TokenAuth) (s : HState) (ops : List HOp) (ho : OverHttp ops) :
    ∃ wops, (hrun E A s ops).w = run E s.w wops ∧
      (∀ c r, WOp.parse c r ∈ wops → ParsedFrom E A s ops c r) ∧
      (∀ sid q, WOp.authorize sid q ∈ wops → HOp.plain (.authorize sid q) ∈ ops) := by
  induction ops using List.reverseRecOn with
  | nil => exact ⟨[], rfl, fun c r h => by simp at h, fun sid q h => by simp at h⟩
  | append_singleton ops op ih =>
    obtain ⟨wops, h1, h2, h3⟩ := ih (fun c r h => ho c r (by simp [h]))
    have up : ∀ c r, ParsedFrom E A s ops c r → ParsedFrom E A s (ops ++ [op]) c r := by
      rintro c r ⟨pre, h, post, ai, seen', e, k⟩
      exact ⟨pre, h, post ++ [op], ai, seen', by rw [e]; simp, k⟩
    rw [hrun_snoc]
    have same : (hstep E A (hrun E A s ops) op).w = (hrun E A s ops).w →
        ∃ wops, (hstep E A (hrun E A s ops) op).w = run E s.w wops ∧
          (∀ c r, WOp.parse c r ∈ wops → ParsedFrom E A s (ops ++ [op]) c r) ∧
          (∀ sid q, WOp.authorize sid q ∈ wops → HOp.plain (.authorize sid q) ∈ ops ++ [op]) := fun e =>
      ⟨wops, by rw [e, h1], fun c r h => up c r (h2 c r h), fun sid q h => by simp [h3 sid q h]⟩
    cases op with
    | plain wop =>
      refine ⟨wops ++ [wop], ?_, ?_, ?_⟩
      · simp only [hstep, h1, run, List.foldl_append, List.foldl_cons, List.foldl_nil]
      · intro c r h
        rcases List.mem_append.1 h with h | h
        · exact up c r (h2 c r h)
        · simp only [List.mem_singleton] at h
          subst h
          exact absurd (by simp) (ho c r)
      · intro sid q h
        rcases List.mem_append.1 h with h | h
        · simp [h3 sid q h]
        · simp only [List.mem_singleton] at h
          subst h
          simp
    | token h =>
      cases ha : tokenAuthn A (hrun E A s ops) h with
      | mk res seen' =>
        cases res with
        | error e => exact same (by simp only [hstep, tokenHttp, ha])
        | ok ai =>
          cases hc : parsedClient h.authn ai with
          | none => exact same (by simp only [hstep, tokenHttp, ha, hc])
          | some c =>
            refine ⟨wops ++ [.parse c h.req], ?_, ?_, ?_⟩
            · simp only [hstep, tokenHttp, ha, hc, h1, run, List.foldl_append, List.foldl_cons, List.foldl_nil]
            · intro c' r' h'
              rcases List.mem_append.1 h' with h' | h'
              · exact up c' r' (h2 c' r' h')
              · simp only [List.mem_singleton, WOp.parse.injEq] at h'
                obtain ⟨rfl, rfl⟩ := h'
                exact ⟨ops, h, [], ai, seen', rfl, rfl, ha, hc⟩
            · intro sid q h'
              rcases List.mem_append.1 h' with h' | h'
              · simp [h3 sid q h']
              · simp at h'

/-- With methods that authenticate, the client of a parsed request has shown who it is. -/
theorem proves_client {A : TokenAuth} (hm : RealMethods A.methods) {s : HState} {h : TokenHttp} {ai : Option AuthInfo}
    {seen' : List String} {c : String} (ha : tokenAuthn A s h = (.ok ai, seen')) (hc : parsedClient h.authn ai = some c)
    (hne : c ≠ "") : ProvesClient A s.w.now h c := by
  unfold tokenAuthn clientAuthentication at ha
  have hv : verifyClient (A.at s.w.now) A.methods none h.authn h.header s.seen = (.ok ai, seen') ∧ ai ≠ none := by
    split at ha
    · rw [if_neg (by simpa using hm.1)] at ha
      cases ha
    · rename_i x hx
      refine ⟨ha, ?_⟩
      rintro rfl
      exact hx _ ha
  obtain ⟨hv, hn⟩ := hv
  cases ai with
  | none => exact absurd rfl hn
  | some r =>
    have hr : r.clientId = some c := by
      simp only [parsedClient] at hc
      split at hc
      · exact hc
      · rename_i hz
        exfalso
        obtain ⟨ai, hf, hfin⟩ := verifyClient_spec hv
        have : r.clientId = ai.clientId := by
          rcases finish_spec hfin with ⟨_, _, _, _, rfl⟩ | ⟨_, ⟨_, rfl⟩ | ⟨_, _, _, e, _, _, _, rfl⟩⟩
          · rfl
          · rfl
          · cases e
        rw [this] at hz
        rcases hf with ⟨m, hmm, hx⟩ | ⟨hmm, -⟩
        · rcases hm.2 _ hmm with e | e | e | e <;> (cases e; cases hx; simp at hz)
        · rcases hm.2 _ hmm with e | e | e | e <;> cases e
    rcases C49_every_method_partial _ _ _ _ _ _ _ r c hr hne hv with ⟨h1, h2⟩ | ⟨f, t, e, -⟩
    · refine ⟨h1, ?_⟩
      rcases h2 with ⟨-, s, k1, k2⟩ | ⟨-, s, k1, k2⟩ | ⟨-, t, a, k1, k2⟩ | ⟨-, t, a, k1, k2⟩ | ⟨k, -⟩ | ⟨k, -⟩ | ⟨k, -⟩
      · exact .inl ⟨s, k1, k2⟩
      · exact .inr (.inl ⟨s, k1.1, k1.2, k2⟩)
      · exact .inr (.inr ⟨_, t, a, k1, k2⟩)
      · exact .inr (.inr ⟨_, t, a, k1, k2⟩)
      · rcases hm.2 _ k with e | e | e | e <;> cases e
      · rcases hm.2 _ k with e | e | e | e <;> cases e
      · rcases hm.2 _ k with e | e | e | e <;> cases e
    · cases e

/-- C89.  In every history of a provider whose token endpoint has methods that authenticate clients and no other: every token
response was asked for in an HTTP request whose sender showed, at that time, to be the client; and the code or refresh token
it was given for had been delivered to this same client. -/
theorem C89_tokens_to_the_client_partial (E : Env) (A : TokenAuth) (hm : RealMethods A.methods) (now : Int) (ops : List HOp)
    (ho : OverHttp ops) (hg : ∀ sid q, HOp.plain (.authorize sid q) ∈ ops → GenuineSid E sid)
    (ref : Nat) (client : String) (hne : client ≠ "") (rf : Bool) (v : String) (req : TokenReq) (resp : TokenResp)
    (h : Event.token ref client rf v req resp ∈ (hrun E A { w := { now := now } } ops).w.log) :
    (∃ pre http post, ops = pre ++ .token http :: post ∧ req = { http.req with clientId := some client } ∧
      ProvesClient A (hrun E A { w := { now := now } } pre).w.now http client) ∧
    (∀ ref' client' x, Event.authz ref' client' x ∈ (hrun E A { w := { now := now } } ops).w.log → x.code = some v →
      client' = client ∧ ref' = ref) ∧
    (∀ ref' client' rf' v' req' resp',
      Event.token ref' client' rf' v' req' resp' ∈ (hrun E A { w := { now := now } } ops).w.log →
      resp'.refreshToken = some v → client' = client ∧ ref' = ref) := by
  obtain ⟨wops, h1, h2, h3⟩ := hrun_run E A { w := { now := now } } ops ho
  rw [h1] at h ⊢
  simp only [] at h ⊢
  obtain ⟨k1, k2, k3⟩ := C26_client_binding E now wops (fun sid q hs => hg sid q (h3 sid q hs)) ref client rf v req resp h
  refine ⟨?_, k2, k3⟩
  obtain ⟨c, r0, m1, m2⟩ := log_parsed E now wops _ _ _ _ _ _ h
  have hcc : c = client := by
    rw [m2] at k1; simpa using k1
  subst hcc
  obtain ⟨pre, http, post, ai, seen', e, rfl, a1, a2⟩ := h2 c r0 m1
  exact ⟨pre, http, post, e, m2, proves_client hm a1 a2 hne⟩

/-! ### Assertions -/

theorem authn_seen {A : TokenAuth} {s : HState} {h : TokenHttp} {k : String} (hk : k ∈ s.seen) :
    k ∈ (tokenAuthn A s h).2 := by
  have := client_seen (C := A.at s.w.now) (ms := A.methods) (getId := none) (req := h.authn) (header := h.header) hk
  unfold tokenAuthn clientAuthentication
  split
  · rename_i hv
    rw [hv] at this
    split <;> exact this
  · exact this

theorem hstep_seen (E : Env) (A : TokenAuth) (s : HState) (op : HOp) {k : String} (hk : k ∈ s.seen) :
    k ∈ (hstep E A s op).seen := by
  cases op with
  | plain op => exact hk
  | token h =>
    have := authn_seen (A := A) (h := h) hk
    simp only [hstep, tokenHttp]
    cases ha : tokenAuthn A s h with
    | mk res seen' =>
      rw [ha] at this
      cases res with
      | error e => exact this
      | ok ai => cases hc : parsedClient h.authn ai <;> simp only [hc] <;> exact this

theorem hrun_seen (E : Env) (A : TokenAuth) (s : HState) (ops : List HOp) {k : String} (hk : k ∈ s.seen) :
    k ∈ (hrun E A s ops).seen := by
  induction ops generalizing s with
  | nil => exact hk
  | cons op ops ih => exact ih _ (hstep_seen E A s op hk)

theorem tokenAuthn_verify {A : TokenAuth} {s : HState} {h : TokenHttp} {ai : AuthInfo}
    (ha : (tokenAuthn A s h).1 = .ok (some ai)) :
    verifyClient (A.at s.w.now) A.methods none h.authn h.header s.seen = (.ok (some ai), (tokenAuthn A s h).2) := by
  unfold tokenAuthn clientAuthentication at ha ⊢
  split at ha
  · split at ha <;> cases ha
  · exact Prod.ext ha rfl

theorem hstep_token_seen (E : Env) (A : TokenAuth) (s : HState) (h : TokenHttp) :
    (hstep E A s (.token h)).seen = (tokenAuthn A s h).2 := by
  simp only [hstep, tokenHttp]
  cases ha : tokenAuthn A s h with
  | mk res seen' =>
    cases res with
    | error e => rfl
    | ok ai => cases hc : parsedClient h.authn ai <;> simp only [hc]

/-- C89.  In every history, an assertion authenticates at most once: of two requests to the token endpoint that were both
accepted for an assertion, the assertions differ in the issuer or in the identifier. -/
theorem C89_assertion_once (E : Env) (A : TokenAuth) (s : HState) (pre mid : List HOp) (h h' : TokenHttp) (ai ai' : AuthInfo)
    (a a' : Assertion) (hi : (tokenAuthn A (hrun E A s pre) h).1 = .ok (some ai)) (ha : ai.assertion = some a)
    (hi' : (tokenAuthn A (hrun E A s (pre ++ .token h :: mid)) h').1 = .ok (some ai')) (ha' : ai'.assertion = some a')
    (jti : String) (hj : a.jti = some jti) (hne : jti ≠ "") (hj' : a'.jti = some jti) : a.iss ≠ a'.iss := by
  have k1 := tokenAuthn_verify hi
  have k2 := tokenAuthn_verify hi'
  obtain ⟨iss, h1, h2⟩ := client_once (by rw [k1]) ha
  obtain ⟨iss', h1', h2'⟩ := client_once (by rw [k2]) ha'
  rw [k1] at h2
  intro he
  rw [h1, h1'] at he
  cases he
  refine (h2' jti hj' hne).1 ?_
  rw [hrun_append]
  refine hrun_seen E A _ mid ?_
  rw [hstep_token_seen]
  exact (h2 jti hj hne).2

end OidcOp

namespace OidcOp.Ex
open OidcOp Spec

/-- Two clients with secrets, of which the second's expires at 1003, and an assertion of the first. -/
def tauth (ms : List (Option CAuthn)) : TokenAuth :=
  { cdb := [("c1", .info { secret := some "s1" }), ("c2", .info { secret := some "s2", expiresAt := 1003 })]
    methods := ms
    targets := ["https://op/token"]
    decode := some
    unpack := fun _ t => if t = "jwt1" then
        some { iss := some "c1", aud := some ["https://op/token"], jti := some "j", hs := true, octKey := some "s1" }
      else none }

def realMethods : List (Option CAuthn) := [some .basic, some .post, some .secretJwt]

/-- The history of `start`, with the token request over HTTP. -/
def hstart (c : String) (header : Option String) (creds : AuthnReq) (cid : Option String) : List HOp :=
  [.plain (.login "d" c (authzReq c) event), .plain (.authorize (sid c 0) (authzReq c)), .plain (.tick 5),
   .token { header := header, creds := creds,
            req := { codeReq (E.mkVal 1 .authorizationCode (sid c 0)) with clientId := cid } },
   .plain (.process 0 none)]

/-- The number of answers of a history. -/
def answers (ms : List (Option CAuthn)) (ops : List HOp) : Nat := (hrun E (tauth ms) { w := init } ops).w.log.length

/-- C89: tokens for the right secret, in the header or the body, and for an assertion; none for a wrong secret, for no
credentials, for a client whose secret has expired, or for another client. -/
example : answers realMethods (hstart "c1" (some "Basic c1:s1") {} (some "c1")) = 2 ∧
    answers realMethods (hstart "c1" none { clientSecret := some "s1" } (some "c1")) = 2 ∧
    answers realMethods (hstart "c1" none { clientAssertion := some "jwt1" } none) = 2 ∧
    answers realMethods (hstart "c1" (some "Basic c1:s2") {} (some "c1")) = 1 ∧
    answers realMethods (hstart "c1" none {} (some "c1")) = 1 ∧
    answers realMethods (hstart "c2" (some "Basic c2:s2") {} (some "c2")) = 1 ∧
    answers realMethods (hstart "c2" (some "Basic c1:s1") {} (some "c2")) = 1 := by decide +kernel

example : RealMethods (tauth realMethods).methods := by
  refine ⟨by decide, ?_⟩
  decide

example : OverHttp (hstart "c1" (some "Basic c1:s1") {} (some "c1")) := by
  intro c r h
  simp [hstart] at h

/-- C89: the assertion is not accepted a second time. -/
example : (tokenAuthn (tauth realMethods) { w := init } { creds := { clientAssertion := some "jwt1" } }).1.toOption.isSome = true ∧
    (tokenAuthn (tauth realMethods) (hstep E (tauth realMethods) { w := init } (.token { creds := { clientAssertion := some "jwt1" } }))
      { creds := { clientAssertion := some "jwt1" } }).1 = .error (.other "UnAuthorizedClient") := by decide +kernel

/-- What C89 says of the answers of a history. -/
def OnlyToClients (E : Env) (A : TokenAuth) (now : Int) (ops : List HOp) : Prop :=
  ∀ ref client rf v req resp, Event.token ref client rf v req resp ∈ (hrun E A { w := { now := now } } ops).w.log →
    ∃ pre http post, ops = pre ++ .token http :: post ∧ req = { http.req with clientId := some client } ∧
      ProvesClient A (hrun E A { w := { now := now } } pre).w.now http client

/-- A history with one request to the token endpoint that proves nothing and is answered. -/
theorem not_onlyToClients (ms : List (Option CAuthn)) (header : Option String) (creds : AuthnReq)
    (hc : creds.clientSecret = none) (ha : creds.clientAssertion = none) (hh : ∀ x, header ≠ some (String.ofList ("Basic ".toList ++ x)))
    (hlog : ((hrun E (tauth ms) { w := init } (hstart "c1" header creds (some "c1"))).w.log.any
      (fun e => match e with | .token .. => true | _ => false)) = true) :
    ¬ OnlyToClients E (tauth ms) 1000 (hstart "c1" header creds (some "c1")) := by
  intro h
  obtain ⟨e, he, hk⟩ := List.any_eq_true.1 hlog
  cases e with
  | authz => cases hk
  | token ref client rf v req resp =>
    obtain ⟨pre, http, post, h1, -, -, h2⟩ := h _ _ _ _ _ _ he
    have hm : HOp.token http ∈ hstart "c1" header creds (some "c1") := by rw [h1]; simp
    simp only [hstart, List.mem_cons, reduceCtorEq, HOp.token.injEq, List.not_mem_nil, or_false, false_or] at hm
    subst hm
    rcases h2 with ⟨s, ⟨x, i, s', h3, -⟩, -⟩ | ⟨s, -, h3, -⟩ | ⟨pk, t, a, h3, -⟩
    · exact hh x h3
    · rw [hc] at h3; cases h3
    · rw [ha] at h3; cases h3

/-- C89 is false of the code as it is configured when nothing is said: the token endpoint then has no methods at all
(oauth2/token.py:373, endpoint.py:115-120), and endpoint.py:228-230 lets everybody pass who names a client id. -/
theorem C89_no_methods_refuted :
    ¬ (∀ (E : Env) (A : TokenAuth) (now : Int) (ops : List HOp), A.methods = [] → OverHttp ops → OnlyToClients E A now ops) := by
  intro h
  refine not_onlyToClients [] none {} rfl rfl (fun _ => nofun) (by decide +kernel) (h _ _ _ _ rfl ?_)
  intro c r h
  simp [hstart] at h

/-- C89 is false of the code with "bearer_header" among the methods: the header "Bearer x", with whatever token, is taken
(client_authn.py:154-155); the endpoint does not look up whose token it is, and goes on with the client id of the request. -/
theorem C89_bearer_refuted :
    ¬ (∀ (E : Env) (A : TokenAuth) (now : Int) (ops : List HOp), A.methods ≠ [] → none ∉ A.methods → OverHttp ops →
      OnlyToClients E A now ops) := by
  intro h
  refine not_onlyToClients [some .basic, some .bearerHeader] (some "Bearer x") {} rfl rfl ?_ (by decide +kernel)
    (h _ _ _ _ (by decide) (by decide) ?_)
  · intro x hx
    have := congrArg String.toList (Option.some.inj hx)
    simp at this
  · intro c r h
    simp [hstart] at h

end OidcOp.Ex
