/-
C121: the authorization code flow works, from the login to the claims.
-/
import Verif.Lemmas.Flow

namespace OidcOp
open Spec

/-- C121, for names as in C68.  After any history of the provider a login page is there for a request for a code, and a user logs in
on it.  Then the response has a code and nothing else that is secret, and the state of the request.  Let anything happen after that,
as long as nothing is done to this session, whose grant id was drawn at the login (see C119), and neither the code nor the grant nor the login has ended.  Then the token
request that goes with the code is answered, with the scope of the request, with a refresh token and an ID token exactly when they
are asked for and the code can be exchanged for them, and with an access token for which the user info endpoint has claims, about the
subject that the user is for the client. -/
theorem C121_code_flow (p : Prov) (U : String → Prop) (hn : Names p U) (now : Int) (ops later : List POp) (i : Nat) (user client : String)
    (hf : ∀ op ∈ ops ++ .loggedIn i user :: later, FairP p U op) (s0 s1 s2 : PState) (h0 : s0 = provHistory p now ops)
    (h1 : s1 = provHistory p now (ops ++ [.loggedIn i user])) (h2 : s2 = provHistory p now (ops ++ .loggedIn i user :: later))
    (req : AuthzReq) (m : AuthnMethod) (hpage : s0.pending[i]? = some (req, m)) (hc : req.clientId = some client)
    (hrt : req.responseType = ["code"]) (asked : List String) (hasked : req.scope = some asked)
    (hdel : p.E.deliverable req = true) (hcl : ClaimsWork p.E) (hh : HandlersDo p.E s2.w.now)
    (hexp : ∀ n, p.E.authz.expiresIn = some n → 0 ≤ n) (hopen : NotExcluded p.E.cfg client "authorization_code")
    (mints : List TokenClass) (hm : ExchangedFor (p.E.authz.rulesOf (some client)) mints) (hat : TokenClass.accessToken ∈ mints)
    (hlives : AccessLives (p.E.authz.rulesOf (some client))) :
    ∃ ref code r, s1.w.log = s0.w.log ++ [.authz ref client r] ∧ r.code = some code ∧ r.accessToken = none ∧ r.idToken = none ∧
      r.state = truthyStr req.state ∧
      (found s2.w.st (.gra user client (p.E.uuid s0.w.n)) = found s1.w.st (.gra user client (p.E.uuid s0.w.n)) → InTime p.E client m s0.w.now s2.w.now →
        ∀ treq, GoesWith p req code treq → ∀ kw db s3,
          s3 = provHistory p now (ops ++ .loggedIn i user :: later ++ [.token client treq, .redeem s2.w.pool.length kw]) →
          ∃ ref' r' a info, s3.w.log = s2.w.log ++ [.token ref' client false code { treq with clientId := some client } r'] ∧
            r'.accessToken = some a ∧ r'.scope = asked ∧
            (r'.refreshToken.isSome = true ↔ RefreshAsked p.E.cfg.flavor kw asked ∧ TokenClass.refreshToken ∈ mints ∧
              GrantTypeOpen p.E.cfg client "refresh_token") ∧
            (r'.idToken.isSome = true ↔ p.E.cfg.flavor = .oidc ∧ "openid" ∈ asked ∧ TokenClass.idToken ∈ mints) ∧
            userinfoProcess p.E (some db) s3.w a = .ok (.claims info client) ∧
            info.get? "sub" = some (.str (p.E.subOf user req))) := by
  have hu : U user := hf (.loggedIn i user) (by simp)
  have hinv0 := pinv_history hn (passing_vetted p (names_ne hn)) now ops (fun o ho => hf o (by simp [ho]))
  rw [← h0] at hinv0
  obtain ⟨sid, ref, r, g, hgood, hsid, hlog, hr0, -, hr2, hr3, hr4, -, -, hfound, hcg⟩ :=
    login_flow hn hinv0 hpage hu hc (by rw [hrt]; decide) (by rw [hrt]; intro x hx; simp at hx; exact .inl hx) hasked hdel hcl hh.make hexp
  have hs1 : s1 = provStep p s0 (.loggedIn i user) := by rw [h1, codeHistory_snoc, h0]
  rw [← hs1] at hlog hfound
  have hiss := hr4 (by rw [hrt]; decide)
  obtain ⟨k, t, hcode, -⟩ := id hiss
  rw [hcode] at hiss
  refine ⟨ref, _, r, hlog, hcode, hr2 (by rw [hrt]; decide), hr3 (by rw [hrt]; decide), hr0, ?_⟩
  intro hsame hin treq hgo kw db s3 hs3
  rw [hfound] at hsame
  exact flow_exchange hn hf hu hgood hsid h2 hasked hcl hh hopen hm hat hlives hsame hcg hin hiss hgo kw db hs3

/-! ### The theorem is about something -/

namespace Ex

theorem handlersDo (now : Int) : HandlersDo E now := by
  have hi : ∀ k c sid, c ≠ .idToken → E.info (E.mkVal k c sid) now = .ok (some sid) := by
    intro k c sid _
    show info (String.ofList (val k c sid)) = _
    unfold info
    rw [String.toList_ofList, inside_val]
    simp
  refine ⟨fun _ _ _ => rfl, fun k sid => hi k _ sid (by decide), fun k sid => hi k _ sid (by decide), fun k u c g h => ?_⟩
  have h1 : enc [u.toList, c.toList, g.toList] = [] := ofList_inj (b := []) (show E.encSid k [u, c, g] = "" from h)
  have h2 := congrArg (fun l => dec l false []) h1
  rw [dec_enc] at h2
  simp [dec] at h2

theorem claimsWork : ClaimsWork E := by
  refine ⟨fun _ _ _ => ⟨[], rfl⟩, fun _ _ _ cl restr h hr => ?_⟩
  cases h
  cases hr

/-- Meanwhile the same user logs in for the other client. -/
def meanwhile : List POp :=
  [.tick 5, .request "c2" { authzReq "c2" with redirectUri := some "https://rp2/cb" } [0] [] none, .loggedIn 1 "d", .tick 200]

def begun : List POp := [.request "c1" (authzReq "c1") [] [] none]

theorem fair_meanwhile : ∀ op ∈ begun ++ .loggedIn 0 "d" :: meanwhile, FairP prov isD op := by
  intro op hop
  simp only [begun, meanwhile, List.mem_cons, List.not_mem_nil, or_false, List.mem_append] at hop
  rcases hop with rfl | rfl | rfl | rfl | rfl | rfl <;> trivial

theorem lives : AccessLives (E.authz.rulesOf (some "c1")) := by
  refine ⟨fun n h => ?_, fun r k h1 h2 => ?_⟩
  · rcases h with ⟨r, h1, h2⟩ | ⟨h1 | h1, -⟩
    · cases h1; cases h2; decide
    · cases h1
    · cases h1
  · cases h1; cases h2

/-- C121: the code is exchanged although there is much going on; with a refresh token and an ID token. -/
example : ∃ s3 ref r' a info, s3 = provHistory prov 1000 (begun ++ .loggedIn 0 "d" :: meanwhile ++
      [.token "c1" (codeReq (E.mkVal 1 .authorizationCode (sid "c1" 0))), .redeem 0 none]) ∧
    s3.w.log.getLast? = some (.token ref "c1" false (E.mkVal 1 .authorizationCode (sid "c1" 0))
      { codeReq (E.mkVal 1 .authorizationCode (sid "c1" 0)) with clientId := some "c1" } r') ∧
    r'.accessToken = some a ∧ r'.scope = ["openid", "email", "offline_access"] ∧ r'.refreshToken.isSome = true ∧ r'.idToken.isSome = true ∧
    userinfoProcess E (some []) s3.w a = .ok (.claims info "c1") ∧ info.get? "sub" = some (.str "d") := by
  obtain ⟨ref, code, r, h1, h2, -, -, -, h3⟩ := C121_code_flow prov isD names_prov 1000 begun meanwhile 0 "d" "c1" fair_meanwhile _ _ _
    rfl rfl rfl (authzReq "c1") { acr := "password" } (by decide +kernel) rfl rfl _ rfl rfl claimsWork (handlersDo _)
    (fun n h => by cases h) ⟨{}, by decide +kernel, fun _ h => by cases h⟩ [.accessToken, .refreshToken, .idToken]
    (.inl ⟨_, rfl, rfl⟩) (by decide) lives
  have hlog : (provHistory prov 1000 (begun ++ [.loggedIn 0 "d"])).w.log = (provHistory prov 1000 begun).w.log ++
      [.authz 2 "c1" { state := some "s", scope := some ["openid", "email", "offline_access"], code := some (E.mkVal 1 .authorizationCode (sid "c1" 0)) }] := by
    decide +kernel
  rw [hlog] at h1
  have h1' := List.append_cancel_left h1
  cases h1'
  cases h2
  have hpool : (provHistory prov 1000 (begun ++ .loggedIn 0 "d" :: meanwhile)).w.pool.length = 0 := by decide +kernel
  have hnow : (provHistory prov 1000 (begun ++ .loggedIn 0 "d" :: meanwhile)).w.now = 1205 := by decide +kernel
  have hnow0 : (provHistory prov 1000 begun).w.now = 1000 := by decide +kernel
  have hin : InTime E "c1" { acr := "password" } (provHistory prov 1000 begun).w.now
      (provHistory prov 1000 (begun ++ .loggedIn 0 "d" :: meanwhile)).w.now := by
    rw [hnow, hnow0]
    refine ⟨fun n h _ => ?_, fun n h => (by cases h), fun n h => ?_⟩
    · obtain ⟨r, h1, h2⟩ := h
      cases h1; cases h2; decide
    · rcases h with ⟨-, rfl⟩ | ⟨h, -⟩
      · decide
      · cases h
  obtain ⟨ref', r', a, info, g1, g2, g3, g4, g5, g6, g7⟩ := h3 (by decide +kernel) hin (codeReq (E.mkVal 1 .authorizationCode (sid "c1" 0)))
    ⟨rfl, rfl, rfl, fun H P h => by cases h⟩ none [] _ rfl
  rw [hpool] at g1 g6
  refine ⟨_, ref', r', a, info, rfl, ?_, g2, g3, ?_, ?_, g6, g7⟩
  · rw [g1]; simp
  · exact g4.2 ⟨.inr ⟨rfl, by decide +kernel, by decide⟩, by decide, ⟨{}, by decide +kernel, by decide +kernel⟩⟩
  · exact g5.2 ⟨rfl, by decide, by decide⟩

end Ex

end OidcOp
