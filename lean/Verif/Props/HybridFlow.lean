/-
C123: the other flows work too: what comes with the response to the login can be used.
-/
import Verif.Props.CodeFlow

namespace OidcOp
open Spec

/-- C123, for names as in C68.  After any history of the provider a login page is there for a request for any of a code, an access
token and an ID token, and a user logs in on it.  Then the response has exactly those, and the state of the request.  Let anything
happen after that, as long as nothing is done to this session, and neither the access token nor the login has ended.  Then the user
info endpoint has claims for the access token of the response, about the subject that the user is for the client. -/
theorem C123_access_token (p : Prov) (U : String → Prop) (hn : Names p U) (now : Int) (ops later : List POp) (i : Nat) (user client : String)
    (hf : ∀ op ∈ ops ++ .loggedIn i user :: later, FairP p U op) (s0 s1 s2 : PState) (h0 : s0 = provHistory p now ops)
    (h1 : s1 = provHistory p now (ops ++ [.loggedIn i user])) (h2 : s2 = provHistory p now (ops ++ .loggedIn i user :: later))
    (req : AuthzReq) (m : AuthnMethod) (hpage : s0.pending[i]? = some (req, m)) (hc : req.clientId = some client)
    (hne : req.responseType ≠ []) (hall : ∀ x ∈ req.responseType, x = "code" ∨ x = "token" ∨ x = "id_token")
    (asked : List String) (hasked : req.scope = some asked)
    (hdel : p.E.deliverable req = true) (hcl : ClaimsWork p.E) (hh : HandlersDo p.E s2.w.now)
    (hexp : ∀ n, p.E.authz.expiresIn = some n → 0 ≤ n) :
    ∃ ref r, s1.w.log = s0.w.log ++ [.authz ref client r] ∧ r.state = truthyStr req.state ∧
      (r.code.isSome = true ↔ "code" ∈ req.responseType) ∧ (r.accessToken.isSome = true ↔ "token" ∈ req.responseType) ∧
      (r.idToken.isSome = true ↔ "id_token" ∈ req.responseType) ∧
      (found s2.w.st (.gra user client (p.E.uuid s0.w.n)) = found s1.w.st (.gra user client (p.E.uuid s0.w.n)) →
        AccessInTime p.E client m s0.w.now s2.w.now → ∀ a, r.accessToken = some a → ∀ db,
          ∃ info, userinfoProcess p.E (some db) s2.w a = .ok (.claims info client) ∧
            info.get? "sub" = some (.str (p.E.subOf user req))) := by
  have hu : U user := hf (.loggedIn i user) (by simp)
  have hinv0 := pinv_history hn (passing_vetted p (names_ne hn)) now ops (fun o ho => hf o (by simp [ho]))
  rw [← h0] at hinv0
  obtain ⟨sid, ref, r, g, hgood, hsid, hlog, hr0, hr1, hr2, hr3, hr4, hr5, hr6, hfound, hcg⟩ :=
    login_flow hn hinv0 hpage hu hc hne hall hasked hdel hcl hh.make hexp
  have hs1 : s1 = provStep p s0 (.loggedIn i user) := by rw [h1, codeHistory_snoc, h0]
  rw [← hs1] at hlog hfound
  have key : ∀ {P : Prop} {o : Option String} {c : TokenClass}, (¬ P → o = none) → (P → CameWith p.E s0.w.now sid g c o) →
      (o.isSome = true ↔ P) := by
    intro P o c k1 k2
    by_cases hp : P
    · obtain ⟨k, t, e, -⟩ := k2 hp
      rw [e]; simp [hp]
    · rw [k1 hp]; simp [hp]
  refine ⟨ref, r, hlog, hr0, key hr1 hr4, key hr2 hr5, key hr3 hr6, ?_⟩
  intro hsame hin a ha db
  rw [hfound] at hsame
  have hiss := hr5 ((key hr2 hr5).1 (by rw [ha]; rfl))
  rw [ha] at hiss
  exact flow_access hn hf hgood hsid h2 hcl hh hsame hcg hin hiss db

/-- C123.  As before, for the code of the response, whatever else came with it: as in C121 the token request that goes with it is
answered. -/
theorem C123_code (p : Prov) (U : String → Prop) (hn : Names p U) (now : Int) (ops later : List POp) (i : Nat) (user client : String)
    (hf : ∀ op ∈ ops ++ .loggedIn i user :: later, FairP p U op) (s0 s1 s2 : PState) (h0 : s0 = provHistory p now ops)
    (h1 : s1 = provHistory p now (ops ++ [.loggedIn i user])) (h2 : s2 = provHistory p now (ops ++ .loggedIn i user :: later))
    (req : AuthzReq) (m : AuthnMethod) (hpage : s0.pending[i]? = some (req, m)) (hc : req.clientId = some client)
    (hcode : "code" ∈ req.responseType) (hall : ∀ x ∈ req.responseType, x = "code" ∨ x = "token" ∨ x = "id_token")
    (asked : List String) (hasked : req.scope = some asked)
    (hdel : p.E.deliverable req = true) (hcl : ClaimsWork p.E) (hh : HandlersDo p.E s2.w.now)
    (hexp : ∀ n, p.E.authz.expiresIn = some n → 0 ≤ n) (hopen : NotExcluded p.E.cfg client "authorization_code")
    (mints : List TokenClass) (hm : ExchangedFor (p.E.authz.rulesOf (some client)) mints) (hat : TokenClass.accessToken ∈ mints)
    (hlives : AccessLives (p.E.authz.rulesOf (some client))) :
    ∃ ref code r, s1.w.log = s0.w.log ++ [.authz ref client r] ∧ r.code = some code ∧
      (found s2.w.st (.gra user client (p.E.uuid s0.w.n)) = found s1.w.st (.gra user client (p.E.uuid s0.w.n)) →
        InTime p.E client m s0.w.now s2.w.now → ∀ treq, GoesWith p req code treq → ∀ kw db s3,
          s3 = provHistory p now (ops ++ .loggedIn i user :: later ++ [.token client treq, .redeem s2.w.pool.length kw]) →
          ∃ ref' r' a info, s3.w.log = s2.w.log ++ [.token ref' client false code { treq with clientId := some client } r'] ∧
            r'.accessToken = some a ∧ r'.scope = asked ∧
            (r'.refreshToken.isSome = true ↔ RefreshAsked p.E.cfg.flavor kw asked ∧ TokenClass.refreshToken ∈ mints ∧
              GrantTypeOpen p.E.cfg client "refresh_token") ∧
            (r'.idToken.isSome = true ↔ p.E.cfg.flavor = .oidc ∧ "openid" ∈ asked ∧ TokenClass.idToken ∈ mints) ∧
            userinfoProcess p.E (some db) s3.w a = .ok (.claims info client) ∧
            info.get? "sub" = some (.str (p.E.subOf user req))) := by
  have hu : U user := hf (.loggedIn i user) (by simp)
  have hinv0 := pinv_history hn (passing_vetted p (names_ne hn)) now ops (fun o ho => hf o (by simp [ho]))
  rw [← h0] at hinv0
  obtain ⟨sid, ref, r, g, hgood, hsid, hlog, -, -, -, -, hr4, -, -, hfound, hcg⟩ :=
    login_flow hn hinv0 hpage hu hc (List.ne_nil_of_mem hcode) hall hasked hdel hcl hh.make hexp
  have hs1 : s1 = provStep p s0 (.loggedIn i user) := by rw [h1, codeHistory_snoc, h0]
  rw [← hs1] at hlog hfound
  have hiss := hr4 hcode
  obtain ⟨k, t, hco, -⟩ := id hiss
  rw [hco] at hiss
  refine ⟨ref, _, r, hlog, hco, ?_⟩
  intro hsame hin treq hgo kw db s3 hs3
  rw [hfound] at hsame
  exact flow_exchange hn hf hu hgood hsid h2 hasked hcl hh hopen hm hat hlives hsame hcg hin hiss hgo kw db hs3

/-! ### The theorems are about something -/

namespace Ex

/-- A provider whose first client may ask for everything at once. -/
def provHybrid : Prov :=
  { prov with clients := [("c1", { redirectUris := some [.pair "https://rp/cb" []], responseTypes := ["code id_token token"] }),
                          ("c2", { redirectUris := some [.pair "https://rp2/cb" []], responseTypes := ["code"] })] }

theorem names_provHybrid : Names provHybrid isD := names_of provHybrid rfl (fun _ h => twoClients h)

def hybridReq : AuthzReq := { authzReq "c1" with responseType := ["code", "id_token", "token"] }

def hybridBegun : List POp := [.request "c1" hybridReq [] [] none]

theorem fair_hybrid : ∀ op ∈ hybridBegun ++ .loggedIn 0 "d" :: meanwhile, FairP provHybrid isD op := by
  intro op hop
  simp only [hybridBegun, meanwhile, List.mem_cons, List.not_mem_nil, or_false, List.mem_append] at hop
  rcases hop with rfl | rfl | rfl | rfl | rfl | rfl <;> trivial

theorem hybrid_log : (provHistory provHybrid 1000 (hybridBegun ++ [.loggedIn 0 "d"])).w.log = (provHistory provHybrid 1000 hybridBegun).w.log ++
    [.authz 2 "c1" {
      state := some "s"
      scope := some ["openid", "email", "offline_access"]
      code := some (E.mkVal 1 .authorizationCode (sid "c1" 0))
      accessToken := some (E.mkVal 2 .accessToken (sid "c1" 0))
      expiresIn := some 600
      idToken := some (E.mkVal 3 .idToken (sid "c1" 0)) }] := by
  decide +kernel

/-- C123: the claims for the access token of a hybrid response. -/
example : ∃ info, userinfoProcess E (some []) (provHistory provHybrid 1000 (hybridBegun ++ .loggedIn 0 "d" :: meanwhile)).w
      (E.mkVal 2 .accessToken (sid "c1" 0)) = .ok (.claims info "c1") ∧ info.get? "sub" = some (.str "d") := by
  obtain ⟨ref, r, h1, -, -, -, -, h2⟩ := C123_access_token provHybrid isD names_provHybrid 1000 hybridBegun meanwhile 0 "d" "c1" fair_hybrid _ _ _
    rfl rfl rfl hybridReq { acr := "password" } (by decide +kernel) rfl (by decide) (by decide) _ rfl rfl claimsWork (handlersDo _)
    (fun n h => by cases h)
  rw [hybrid_log] at h1
  cases List.append_cancel_left h1
  have hnow : (provHistory provHybrid 1000 (hybridBegun ++ .loggedIn 0 "d" :: meanwhile)).w.now = 1205 := by decide +kernel
  have hnow0 : (provHistory provHybrid 1000 hybridBegun).w.now = 1000 := by decide +kernel
  refine h2 (by decide +kernel) ?_ _ rfl []
  rw [hnow, hnow0]
  refine ⟨fun n h _ => ?_, lives.uses, fun n h => ?_⟩
  · obtain ⟨r, h1, h2⟩ := h
    cases h1; cases h2; decide
  · rcases h with ⟨-, rfl⟩ | ⟨h, -⟩
    · decide
    · cases h

/-- C123: the code of the same response is exchanged. -/
example : ∃ s3 ref r' a info, s3 = provHistory provHybrid 1000 (hybridBegun ++ .loggedIn 0 "d" :: meanwhile ++
      [.token "c1" (codeReq (E.mkVal 1 .authorizationCode (sid "c1" 0))), .redeem 0 none]) ∧
    s3.w.log.getLast? = some (.token ref "c1" false (E.mkVal 1 .authorizationCode (sid "c1" 0))
      { codeReq (E.mkVal 1 .authorizationCode (sid "c1" 0)) with clientId := some "c1" } r') ∧
    r'.accessToken = some a ∧ r'.refreshToken.isSome = true ∧
    userinfoProcess E (some []) s3.w a = .ok (.claims info "c1") ∧ info.get? "sub" = some (.str "d") := by
  obtain ⟨ref, code, r, h1, h2, h3⟩ := C123_code provHybrid isD names_provHybrid 1000 hybridBegun meanwhile 0 "d" "c1" fair_hybrid _ _ _
    rfl rfl rfl hybridReq { acr := "password" } (by decide +kernel) rfl (by decide) (by decide) _ rfl rfl claimsWork (handlersDo _)
    (fun n h => by cases h) ⟨{}, by decide +kernel, fun _ h => by cases h⟩ [.accessToken, .refreshToken, .idToken]
    (.inl ⟨_, rfl, rfl⟩) (by decide) lives
  rw [hybrid_log] at h1
  cases List.append_cancel_left h1
  cases h2
  have hpool : (provHistory provHybrid 1000 (hybridBegun ++ .loggedIn 0 "d" :: meanwhile)).w.pool.length = 0 := by decide +kernel
  have hnow : (provHistory provHybrid 1000 (hybridBegun ++ .loggedIn 0 "d" :: meanwhile)).w.now = 1205 := by decide +kernel
  have hnow0 : (provHistory provHybrid 1000 hybridBegun).w.now = 1000 := by decide +kernel
  have hin : InTime E "c1" { acr := "password" } (provHistory provHybrid 1000 hybridBegun).w.now
      (provHistory provHybrid 1000 (hybridBegun ++ .loggedIn 0 "d" :: meanwhile)).w.now := by
    rw [hnow, hnow0]
    refine ⟨fun n h _ => ?_, fun n h => (by cases h), fun n h => ?_⟩
    · obtain ⟨r, h1, h2⟩ := h
      cases h1; cases h2; decide
    · rcases h with ⟨-, rfl⟩ | ⟨h, -⟩
      · decide
      · cases h
  obtain ⟨ref', r', a, info, g1, g2, g3, g4, g5, g6, g7⟩ := h3 (by decide +kernel) hin (codeReq (E.mkVal 1 .authorizationCode (sid "c1" 0)))
    ⟨rfl, rfl, rfl, fun H P h => by cases h⟩ none [] _ rfl
  rw [hpool] at g1 g6
  refine ⟨_, ref', r', a, info, rfl, ?_, g2, ?_, g6, g7⟩
  · rw [g1]; simp
  · exact g4.2 ⟨.inr ⟨rfl, by decide +kernel, by decide⟩, by decide, ⟨{}, by decide +kernel, by decide +kernel⟩⟩

end Ex

end OidcOp
