/-
C91: the resource endpoints over HTTP.
-/
import Verif.Spec.ResourceHttp
import Verif.Props.ResourceExamples
import Verif.Props.TokenHttp
import Verif.Props.Algs

namespace OidcOp
open Spec

theorem clientAuthentication_some {C : AuthnCtx} {ms : List (Option CAuthn)}
    {getId : Option (String → AuthnReq → Except Exc String)} {req : AuthnReq} {header : Option String}
    {seen seen' : List String} {ai : AuthInfo} (h : clientAuthentication C ms getId req header seen = (.ok (some ai), seen')) :
    verifyClient C ms getId req header seen = (.ok (some ai), seen') := by
  unfold clientAuthentication at h
  split at h
  · split at h <;> cases h
  · exact h

/-- The token that goes on is one that the request has. -/
theorem userinfoParse_carries {E : Env} {A : TokenAuth} {w : World} {seen seen' : List String} {h : ResHttp} {v : String}
    (hp : userinfoParse E A w seen h = (.ok (.token v), seen')) : CarriesToken h v := by
  unfold userinfoParse at hp
  split at hp
  · simp only [Prod.mk.injEq] at hp
    obtain ⟨hp, -⟩ := hp
    split at hp <;> cases hp
  · rename_i ai s' ha
    simp only [Prod.mk.injEq] at hp
    obtain ⟨hp, -⟩ := hp
    cases ai with
    | none => cases hp
    | some ai =>
      simp only [infoToken] at hp
      split at hp
      · rename_i c t hc ht
        cases hp
        obtain ⟨a0, hf, hfin⟩ := verifyClient_spec (clientAuthentication_some ha)
        have e : a0.token = ai.token := by
          rcases finish_spec hfin with ⟨_, _, _, _, rfl⟩ | ⟨_, ⟨_, rfl⟩ | ⟨_, _, _, _, _, _, _, rfl⟩⟩ <;> rfl
        rw [← e] at ht
        rcases hf with ⟨m, -, hx⟩ | ⟨-, rfl⟩
        · cases hx with
          | bearerHeader hb => cases ht; exact .inl hb
          | bearerBody hb => cases ht; exact .inr hb
          | _ => cases ht
        · cases ht
      · cases hp

theorem infoForm_spec {clients : Dict Cinfo} {c : String} {f : Option JwtArgs} (h : infoForm clients c = .ok f) :
    ∃ ci, clients.get? c = some ci ∧ FormOf ci f := by
  unfold infoForm at h
  split at h
  · cases h
  · split at h
    · cases h
    · rename_i ci hci
      obtain ⟨h1, h2, -⟩ := C88_userinfo ci f h
      exact ⟨ci, hci, h1, h2⟩

/-- Where an answer with claims comes from. -/
theorem userinfoHttp_claims {E : Env} {I : InfoEndpoint} {w : World} {seen : List String} {h : ResHttp}
    {form : Option JwtArgs} {info : Dict Json} {recv : String}
    (ha : (userinfoHttp E I w seen h).1 = .ok (.claims form info recv)) :
    ∃ v ci, CarriesToken h v ∧ userinfoProcess E I.users w v = .ok (.claims info recv) ∧ I.clients.get? recv = some ci ∧
      FormOf ci form := by
  unfold userinfoHttp at ha
  split at ha
  · cases ha
  · cases ha
  · rename_i v s' hp
    split at ha
    · cases ha
    · rename_i r hr
      cases r with
      | err c => cases ha
      | denied c =>
        simp only [infoResponse] at ha
        cases hf : infoForm I.clients c <;> rw [hf] at ha <;> cases ha
      | claims i c =>
        simp only [infoResponse] at ha
        cases hf : infoForm I.clients c with
        | error e => rw [hf] at ha; cases ha
        | ok f =>
          rw [hf] at ha
          cases ha
          obtain ⟨ci, h1, h2⟩ := infoForm_spec hf
          exact ⟨v, ci, userinfoParse_carries hp, hr, h1, h2⟩

/-- C91, user info.  After every history of the provider, whatever methods the endpoint has and whatever client the request
names: if the answer to an HTTP request has claims then the request has a token with it that is a live access token of a grant.
The subject is the user who logged in for this grant, the claims are this user's, and the answer is made out to the client that
asked for the grant, in the form that this client asks for. -/
theorem C91_userinfo (p : Prov) (U : String → Prop) (hn : Names p U) (now : Int) (ops : List POp)
    (hf : ∀ op ∈ ops, FairP p U op) (I : InfoEndpoint) (seen : List String) (h : ResHttp) (form : Option JwtArgs)
    (info : Dict Json) (recv : String)
    (ha : (userinfoHttp p.E I (provHistory p now ops).w seen h).1 = .ok (.claims form info recv)) :
    ∃ v g t user req ev d ci, CarriesToken h v ∧ LiveToken (provHistory p now ops).w v g t ∧ t.cls = .accessToken ∧
      g.authzReq = some req ∧ req.clientId = some recv ∧ g.authnEvent = some ev ∧ ev.uid = user ∧
      (∃ x ∈ (provHistory p now ops).logins, x.user = user ∧ x.req.clientId = some recv) ∧
      info.get? "sub" = some (.str (p.E.subOf user req)) ∧ I.users = some d ∧
      (∀ k x, info.get? k = some x → k ≠ "sub" → MayRelease d g user "userinfo" k x ∨ (k = "acr" ∧ x = .str ev.authnInfo)) ∧
      I.clients.get? recv = some ci ∧ FormOf ci form := by
  obtain ⟨v, ci, h1, h2, h3, h4⟩ := userinfoHttp_claims ha
  obtain ⟨user, req, x0, g, t, ev, d, k1, k2, k3, k4, k5, k6, k7, k8, k9, k10, k11, k12⟩ :=
    C45_whose_claims_partial p U hn now ops hf I.users v info recv h2
  exact ⟨v, g, t, user, req, ev, d, ci, h1, k1, k2, k3, k4, k9, k10, ⟨x0, k6, k7, k8⟩, k5, k11, k12, h3, h4⟩

theorem afterPrefix_bearer (v : String) : afterPrefix "Bearer " (some ("Bearer " ++ v)) = some v.toList := by
  unfold afterPrefix
  simp only [String.toList_append]
  rw [if_pos (by simp), show "Bearer ".length = 7 from by decide]
  rfl

/-- C91, user info, the other direction.  With the methods that the endpoint has by default, a request that has the token in
the header, or in the body and names no client, gets the claims of that token, in the form that the client of the token asks
for. -/
theorem C91_userinfo_works (E : Env) (I : InfoEndpoint) (hm : I.auth.methods = userinfoMethods) (w : World)
    (seen : List String) (h : ResHttp) (v : String) (hv : v ≠ "")
    (hc : BearerToken h.header v ∨ (h.header = none ∧ h.authn.accessToken = some v ∧ h.authn.clientId = none))
    (info : Dict Json) (client : String) (hi : userinfoProcess E I.users w v = .ok (.claims info client)) (hne : client ≠ "")
    (ci : Cinfo) (hci : I.clients.get? client = some ci) (form : Option JwtArgs) (hform : userinfoArgs ci = .ok form) :
    userinfoHttp E I w seen h = (.ok (.claims form info client), seen) := by
  obtain ⟨s, t, ev, hs, -, -, -, -, -, -, rfl⟩ := userinfo_session hi
  have hfin : ∀ ai : AuthInfo, ai.clientId = none → ai.token = some v →
      finishClient (I.auth.at w.now) (some (userinfoClientOf E w)) h.authn ai = .ok { ai with clientId := some s.client } := by
    intro ai h1 h2
    simp only [finishClient, h1, truthyStr, clientOfToken, h2, if_neg hv, userinfoClientOf, hs, Except.map]
  have hp : ∃ ai : AuthInfo, ai.clientId = none ∧ ai.token = some v ∧
      tryMethods (I.auth.at w.now) h.authn h.header userinfoMethods seen = (some ai, seen) := by
    rcases hc with hb | ⟨h1, h2, h3⟩
    · unfold BearerToken at hb
      refine ⟨{ token := some v, method := "bearer_header" }, rfl, rfl, ?_⟩
      simp only [userinfoMethods, tryMethods, CAuthn.usable, CAuthn.verify, hb, afterPrefix_bearer, Option.isSome_some, if_true,
        String.ofList_toList]
      rfl
    · refine ⟨{ token := some v, method := "bearer_body" }, rfl, rfl, ?_⟩
      simp only [userinfoMethods, tryMethods, CAuthn.usable, CAuthn.verify, h1, h2, h3, afterPrefix, Option.isSome_some, if_true,
        Option.isSome_none, Bool.false_eq_true, if_false, truthyStr]
      rfl
  obtain ⟨ai, h1, h2, h3⟩ := hp
  have hauth : clientAuthentication (I.auth.at w.now) I.auth.methods (some (userinfoClientOf E w)) h.authn h.header seen =
      (.ok (some { ai with clientId := some s.client }), seen) := by
    simp only [clientAuthentication, verifyClient, hm, h3, hfin ai h1 h2, Except.map]
  have hpar : userinfoParse E I.auth w seen h = (.ok (.token v), seen) := by
    simp only [userinfoParse, hauth, infoToken, h2]
  simp only [userinfoHttp, hpar, hi, infoResponse, infoForm, if_neg hne, hci, hform, Except.map]

/-- C91, introspection.  If the endpoint has methods that authenticate clients and no other, then whoever is told anything about a
token has shown to be a client that is registered and in force. -/
theorem C91_introspection_partial (E : Env) (A : TokenAuth) (hm : RealMethods A.methods) (hnl : NoNameless A)
    (db : Option UserDb) (issuer : String) (extra : String → Dict Json) (username : Bool) (w : World) (seen : List String)
    (h : ResHttp) (info : Dict Json) (ha : (introspectHttp E A db issuer extra username w seen h).1 = .ok info) :
    ∃ client, ShowsClient A w.now h client := by
  unfold introspectHttp at ha
  split at ha
  · cases ha
  · rename_i ai s' hca
    have hta : tokenAuthn A { w := w, seen := seen } { header := h.header, creds := h.authn, req := { clientId := h.authn.clientId } } =
        (.ok ai, s') := hca
    cases ai with
    | none =>
      exfalso
      unfold clientAuthentication at hca
      split at hca
      · rw [if_neg (by simpa using hm.1)] at hca
        cases hca
      · rename_i x hx
        exact hx _ hca
    | some r =>
      have hv := clientAuthentication_some hca
      obtain ⟨a0, hf, hfin⟩ := verifyClient_spec hv
      have e : r.clientId = a0.clientId := by
        rcases finish_spec hfin with ⟨_, _, _, _, rfl⟩ | ⟨_, ⟨_, rfl⟩ | ⟨_, _, _, e, _⟩⟩
        · rfl
        · rfl
        · cases e
      have hc : ∃ c, a0.clientId = some c ∧ c ≠ "" := by
        have hsec : ∀ c s, HasSecret (A.at w.now).cdb c s → c ≠ "" := by
          rintro c s ⟨x, hx, -⟩ rfl
          have : A.cdb.get? "" = some (.info x) := hx
          rw [hnl.1] at this
          cases this
        have hjwt : ∀ pk t a c, GoodAssertion (A.at w.now) pk t a c → c ≠ "" := by
          rintro pk t a c ⟨h1, h2, -⟩ rfl
          exact hnl.2 _ _ _ h1 h2
        rcases hf with ⟨m, hmm, hx⟩ | ⟨hmm, -⟩
        · rcases hm.2 _ hmm with e | e | e | e <;> cases e
          · cases hx with
            | basic h1 h2 => exact ⟨_, rfl, hsec _ _ h2⟩
          · cases hx with
            | post h1 h2 => exact ⟨_, rfl, hsec _ _ h2⟩
          · cases hx with
            | secretJwt h1 h2 => exact ⟨_, rfl, hjwt _ _ _ _ h2⟩
          · cases hx with
            | privateKeyJwt h1 h2 => exact ⟨_, rfl, hjwt _ _ _ _ h2⟩
        · rcases hm.2 _ hmm with e | e | e | e <;> cases e
      obtain ⟨c, h1, h2⟩ := hc
      rw [h1] at e
      exact ⟨c, proves_client hm hta (by simp [parsedClient, e]) h2⟩

/-- C91, introspection.  Whoever is told that a token is active: the token in the request is then a live access token or refresh token
of a grant. -/
theorem C91_introspection_live_partial (E : Env) (A : TokenAuth) (db : Option UserDb) (issuer : String) (extra : String → Dict Json)
    (username : Bool) (w : World) (seen : List String) (h : ResHttp) (info : Dict Json)
    (ha : (introspectHttp E A db issuer extra username w seen h).1 = .ok info) (hact : info.get? "active" = some (.bool true)) :
    ∃ v g t, h.token = some v ∧ LiveToken w v g t ∧ (t.cls = .accessToken ∨ t.cls = .refreshToken) := by
  unfold introspectHttp at ha
  split at ha
  · cases ha
  · split at ha
    · cases ha; exact absurd hact (by decide)
    · rename_i v hv
      obtain ⟨g, t, h1, h2⟩ := C46_active_sound_partial E db issuer extra username w v info ha hact
      exact ⟨v, g, t, hv, h1, h2⟩

/-- C91, introspection, the other direction.  A registered client whose secret is in force, and who sends it in the body, is told at an
endpoint with this method what there is to be told about the token. -/
theorem C91_introspection_works (E : Env) (A : TokenAuth) (hm : A.methods = [some .post]) (db : Option UserDb) (issuer : String)
    (extra : String → Dict Json) (username : Bool) (w : World) (seen : List String) (h : ResHttp) (client secret : String)
    (hc : h.authn.clientId = some client) (hs : h.authn.clientSecret = some secret) (hne : client ≠ "") (cl : AuthnClient)
    (hcl : A.cdb.get? client = some (.info cl)) (hsec : cl.secret = some secret) (hexp : cl.expiresAt = 0 ∨ w.now ≤ cl.expiresAt)
    (v : String) (hv : h.token = some v) :
    introspectHttp E A db issuer extra username w seen h = (introspectProcess E db issuer extra username w v, seen) := by
  have hval : validClientInfo w.now cl = true := by
    unfold validClientInfo
    rcases hexp with e | e
    · simp [e]
    · simp; exact .inr e
  have hfin : finishClient (A.at w.now) none h.authn { clientId := some client, method := "client_secret_post" } =
      .ok { clientId := some client, method := "client_secret_post" } := by
    simp only [finishClient, truthyStr, if_neg hne, checkClient, TokenAuth.at, hcl, hval, if_true]
  have hauth : clientAuthentication (A.at w.now) A.methods none h.authn h.header seen =
      (.ok (some { clientId := some client, method := "client_secret_post" }), seen) := by
    simp only [clientAuthentication, verifyClient, hm, tryMethods, CAuthn.usable, hc, hs, Option.isSome_some, Bool.and_self, if_true,
      CAuthn.verify, secretMatches, TokenAuth.at, hcl, hsec, decide_true, CAuthn.tag]
    rw [show AuthnCtx.mk A.cdb w.now A.targets A.decode A.unquote (A.unpack w.now) = A.at w.now from rfl, hfin]
    rfl
  unfold introspectHttp
  rw [hauth, hv]

/-- C91, user info.  A token that no handler knows, or that cannot be read, is answered with "invalid_token". -/
theorem C91_invalid_token (E : Env) (I : InfoEndpoint) (hm : I.auth.methods = userinfoMethods) (w : World) (seen : List String)
    (h : ResHttp) (v : String) (hv : v ≠ "")
    (hc : BearerToken h.header v ∨ (h.header = none ∧ h.authn.accessToken = some v ∧ h.authn.clientId = none))
    (hi : E.info v w.now = .error .unknownToken ∨ E.info v w.now = .error .valueError) :
    userinfoHttp E I w seen h = (.ok (.err "invalid_token"), seen) := by
  obtain ⟨e, he, hs⟩ : ∃ e, (e = .unknownToken ∨ e = .valueError) ∧ sessionByToken E w v = .error e := by
    rcases hi with hi | hi
    · exact ⟨_, .inl rfl, by unfold sessionByToken; rw [hi]⟩
    · exact ⟨_, .inr rfl, by unfold sessionByToken; rw [hi]⟩
  have hfin : ∀ ai : AuthInfo, ai.clientId = none → ai.token = some v →
      finishClient (I.auth.at w.now) (some (userinfoClientOf E w)) h.authn ai = .error e := by
    intro ai h1 h2
    simp only [finishClient, h1, truthyStr, clientOfToken, h2, if_neg hv, userinfoClientOf, hs, Except.map]
    rcases he with rfl | rfl <;> rfl
  have hp : ∃ ai : AuthInfo, ai.clientId = none ∧ ai.token = some v ∧
      tryMethods (I.auth.at w.now) h.authn h.header userinfoMethods seen = (some ai, seen) := by
    rcases hc with hb | ⟨h1, h2, h3⟩
    · unfold BearerToken at hb
      refine ⟨{ token := some v, method := "bearer_header" }, rfl, rfl, ?_⟩
      simp only [userinfoMethods, tryMethods, CAuthn.usable, CAuthn.verify, hb, afterPrefix_bearer, Option.isSome_some, if_true,
        String.ofList_toList]
      rfl
    · refine ⟨{ token := some v, method := "bearer_body" }, rfl, rfl, ?_⟩
      simp only [userinfoMethods, tryMethods, CAuthn.usable, CAuthn.verify, h1, h2, h3, afterPrefix, Option.isSome_some, if_true,
        Option.isSome_none, Bool.false_eq_true, if_false, truthyStr]
      rfl
  obtain ⟨ai, h1, h2, h3⟩ := hp
  have hauth : clientAuthentication (I.auth.at w.now) I.auth.methods (some (userinfoClientOf E w)) h.authn h.header seen =
      (.error e, seen) := by
    simp only [clientAuthentication, verifyClient, hm, h3, hfin ai h1 h2, Except.map]
  have hpar : userinfoParse E I.auth w seen h = (.ok (.err "invalid_token"), seen) := by
    simp only [userinfoParse, hauth]
    rcases he with rfl | rfl <;> simp
  simp only [userinfoHttp, hpar]

end OidcOp

namespace OidcOp.Ex
open OidcOp Spec

/-- The user info endpoint with its default methods; the first client wants signed answers. -/
def infoEndpoint : InfoEndpoint :=
  { auth := { tauth userinfoMethods with cdb := [("c1", .info { secret := some "s1" }), ("c2", .info { secret := some "s2" })] }
    clients := [("c1", [("userinfo_signed_response_alg", .json (.str "ES256"))]), ("c2", [])]
    users := some people }

def signedForm : Option JwtArgs := some { sign := true, signAlg := some "ES256" }

/-- The hypotheses of C91 for user info: claims for the token in the header or in the body, in the form that the client of the token
asks for, even if the request names another client. -/
example : Names { prov with E := EC } isD ∧
    (userinfoHttp EC infoEndpoint (provHistory { prov with E := EC } 1000 session).w [] { header := some ("Bearer " ++ atok) }).1 =
      .ok (.claims signedForm [("email", .str "d@x"), ("sub", .str "d"), ("acr", .str "password")] "c1") ∧
    (userinfoHttp EC infoEndpoint (provHistory { prov with E := EC } 1000 session).w []
      { authn := { accessToken := some atok, clientId := some "c2" } }).1 =
      .ok (.claims signedForm [("email", .str "d@x"), ("sub", .str "d"), ("acr", .str "password")] "c1") := by
  refine ⟨⟨names_prov.1, names_prov.2, ?_⟩, by decide +kernel, by decide +kernel⟩
  intro n u c g _
  exact encSid_notD n _ (by simp)

/-- No claims without a token, for an unknown token, or with methods that yield no token. -/
example : (userinfoHttp EC infoEndpoint wc [] {}).1 = .error (.other "UnAuthorizedClient") ∧
    (userinfoHttp EC infoEndpoint wc [] { header := some "Bearer x" }).1 = .ok (.err "invalid_token") ∧
    (userinfoHttp EC { infoEndpoint with auth := tauth [none] } wc [] { authn := { clientId := some "c1", accessToken := some atok } }).1 =
      .error .keyError := by decide +kernel

/-- The hypotheses of C91 for introspection: a client with a secret is told, others are not. -/
example : RealMethods (tauth realMethods).methods ∧ NoNameless (tauth realMethods) ∧
    ((introspectHttp EC (tauth realMethods) (some people) "https://op" (fun _ => []) false wc []
      { header := some "Basic c2:s2", token := some atok }).1.toOption.bind (fun d => d.get? "active")) = none ∧
    ((introspectHttp EC (tauth realMethods) (some people) "https://op" (fun _ => []) false wc []
      { header := some "Basic c1:s1", token := some atok }).1.toOption.bind (fun d => d.get? "active")) = some (.bool true) := by
  refine ⟨⟨by decide, by decide⟩, ⟨by decide, ?_⟩, by decide +kernel, by decide +kernel⟩
  intro now t a h
  simp only [tauth] at h
  split at h
  · cases h; decide
  · cases h

/-- C91 is false of the introspection endpoint as it is when the configuration names no methods: it then has none, and
endpoint.py:228-230 lets everybody pass; a stranger who has got hold of a token is told what it is good for. -/
theorem C91_introspection_refuted :
    ¬ (∀ (E : Env) (A : TokenAuth) (db : Option UserDb) (issuer : String) (extra : String → Dict Json) (username : Bool)
      (now : Int) (ops : List WOp) (h : ResHttp) (info : Dict Json), NoNameless A → A.methods = [] →
      (introspectHttp E A db issuer extra username (run E { now := now } ops) [] h).1 = .ok info →
      info.get? "active" = some (.bool true) → ∃ client, ShowsClient A (run E { now := now } ops).now h client) := by
  intro h
  cases hi : (introspectHttp EC (tauth []) (some people) "https://op" (fun _ => []) false (run EC init (start "c1")) []
      { token := some atok }).1 with
  | error e =>
    exact absurd hi (by
      intro hi
      have := congrArg (fun x => x.toOption.isSome) hi
      simp only [Except.toOption, Option.isSome_none] at this
      revert this
      decide +kernel)
  | ok info =>
    have hact : info.get? "active" = some (.bool true) := by
      have := congrArg (fun x => x.toOption.bind (fun d => Dict.get? d "active")) hi
      simp only [Except.toOption, Option.bind_some] at this
      rw [← this]
      decide +kernel
    have hnl : NoNameless (tauth []) := by
      refine ⟨by decide, ?_⟩
      intro now t a h
      simp only [tauth] at h
      split at h
      · cases h; decide
      · cases h
    obtain ⟨c, -, h2⟩ := h EC (tauth []) (some people) "https://op" (fun _ => []) false 1000 (start "c1") { token := some atok }
      info hnl rfl hi hact
    rcases h2 with ⟨s, ⟨x, i, s', h3, -⟩, -⟩ | ⟨s, h3, -⟩ | ⟨pk, t, a, h3, -⟩
    · cases h3
    · cases h3
    · cases h3

/-- C91: a token nobody knows. -/
example : infoEndpoint.auth.methods = userinfoMethods ∧ EC.info "n" 1005 = .error .unknownToken ∧
    (userinfoHttp EC infoEndpoint (provHistory { prov with E := EC } 1000 session).w [] { header := some "Bearer n" }).1 =
      .ok (.err "invalid_token") := by decide +kernel

/-- C91: a client with its secret is told that the token is active. -/
example : (((introspectHttp EC (tauth [some .post]) (some people) "https://op" (fun _ => []) false
      (provHistory { prov with E := EC } 1000 session).w []
      { authn := { clientId := some "c1", clientSecret := some "s1" }, token := some atok }).1.toOption.getD []).get? "active") =
    some (.bool true) := by decide +kernel

end OidcOp.Ex
