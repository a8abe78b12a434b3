/-
C122: tokens that are bound to a key, at the endpoints that take them.
-/
import Verif.Props.Dpop
import Verif.Props.Payload
import Verif.Props.ResourceHttp

namespace OidcOp
open Spec

/-- C122 (partial), for those who read signed tokens themselves.  In every history of an OpenID Connect provider with DPoP as in C82:
right after a token response, a signed access token that is made of its grant says the key that the request for it has proven, unless
the record of the user has a claim with the name that the standard gives to it.  (Missing: the provider's own endpoints, see the
refutations.) -/
theorem C122_signed_token_partial (E : Env) (L : DpopLib) (cfg : TokenCfg) (hE : E.cfg = cfg.withDpop) (hf : cfg.flavor = .oidc)
    (now : Int) (ops : List DOp) (hops : ∀ op ∈ ops, WithProofs L op) (ref : Nat) (client : String) (rf : Bool) (v : String)
    (req : TokenReq) (r : TokenResp) (he : .token ref client rf v req r ∈ (drun E L { now := now } ops).log) :
    ∃ c req0 h k, .token c req0 (some h) ∈ ops ∧ ProvesKey L h k ∧ req = { req0 with clientId := some c, dpopJkt := some (L.thumbprint k) } ∧
      ∃ pre op post g, ops = pre ++ op :: post ∧
        (drun E L { now := now } (pre ++ [op])).log = (drun E L { now := now } pre).log ++ [.token ref client rf v req r] ∧
        GrantAt (drun E L { now := now } (pre ++ [op])) ref g ∧
        ∀ (J : JwtLib) (issuer alg : String) (lifetime : Int) (ccfg : ClaimsCfg) (users : Option UserDb) (rules : Option Int)
          (clock : Int) (nonce : Nat) (sid : Str) (user : String) (scope : List String) (jti : String) (db db' : ClaimsDb) (tok : Str)
          (ar : AuthzReq) (owner : String), g.authzReq = some ar → ar.clientId = some owner → owner ≠ "" →
          NotInRecord users user "cnf" →
          mintJwt J issuer alg lifetime ccfg users "access_token" rules clock nonce sid user owner g scope jti db = (.ok tok, db') →
          ∃ p, J.unpack alg tok = .ok p ∧ p.get? "cnf" = some (.obj [("jkt", .str (L.thumbprint k))]) := by
  obtain ⟨-, c, req0, h, k, h1, h2, h3, pre, op, post, g, h4, h5, h6, h7⟩ :=
    C82_responses_bound_partial E L cfg hE hf now ops hops ref client rf v req r he
  refine ⟨c, req0, h, k, h1, h2, h3, pre, op, post, g, h4, h5, h6, ?_⟩
  intro J issuer alg lifetime ccfg users rules clock nonce sid user scope jti db db' tok ar owner ha ho hne hn hm
  obtain ⟨p, p1, -, -, -, -, -, -, -, -, -, p2⟩ := C48_access_token_partial J issuer alg lifetime ccfg users rules clock nonce sid user
    owner g scope jti db db' tok ar ha ho hne hm
  exact ⟨p, p1, p2 hn _ h7 (L.thumbprint_ne k)⟩

/-- C122 is false of the code, for every state and every list of methods: who presents a token in the way the standard says, with the
authorization scheme "DPoP", is never given claims, whatever the token. -/
theorem C122_dpop_scheme_refuted (E : Env) (I : InfoEndpoint) (w : World) (seen : List String) (h : ResHttp) (x : String)
    (hx : h.header = some ("DPoP " ++ x)) (hb : h.authn.accessToken = none) (form : Option JwtArgs) (info : Dict Json) (recv : String) :
    (userinfoHttp E I w seen h).1 ≠ .ok (.claims form info recv) := by
  intro ha
  obtain ⟨v, -, hc, -⟩ := userinfoHttp_claims ha
  rcases hc with hc | hc
  · unfold BearerToken at hc
    rw [hx] at hc
    have := congrArg String.toList (Option.some.inj hc)
    simp at this
  · rw [hb] at hc; cases hc

namespace Ex

/-- The state after a code has been exchanged with the key "k1", and the access token. -/
def wd : World := drun ED dlib { now := 1000 } (dhistory.take 5)

def dtok : String := ED.mkVal 2 .accessToken (dsid "c1" 0)

/-- The endpoint, with the method for DPoP as well. -/
def dpopInfo : InfoEndpoint :=
  { infoEndpoint with auth := { infoEndpoint.auth with methods := [some .dpop, some .bearerHeader, some .bearerBody] } }

/-- Its grant and its record. -/
def dgrant : Grant := (wd.st.grantAt 2).getD {}

def drecord : Token := (dgrant.getToken dtok).getD default

theorem live_dtok : LiveToken wd dtok dgrant drecord ∧ dgrant.dpopJkt = some "tk1" := by
  refine ⟨⟨⟨2, ?_⟩, ?_, ?_, (isActive_clock_iff _ _).1 ?_⟩, ?_⟩
  · show wd.st.heap[2]? = some (.grant dgrant)
    decide +kernel
  all_goals decide +kernel

theorem take_proofs : ∀ op ∈ dhistory.take 5, WithProofs dlib op := fun op h => dhistory_proofs op (List.mem_of_mem_take h)

/-- C122 is false of the code: a token that is bound to a key is taken from someone who proves nothing. -/
theorem C122_bearer_refuted :
    ¬ (∀ (E : Env) (L : DpopLib) (now : Int) (ops : List DOp) (I : InfoEndpoint) (seen : List String) (h : ResHttp) (http : HttpInfo)
        (v : String) (g : Grant) (t : Token) (j : String) (form : Option JwtArgs) (info : Dict Json) (recv : String),
      (∀ op ∈ ops, WithProofs L op) → (userinfoHttp E I (drun E L { now := now } ops) seen h).1 = .ok (.claims form info recv) →
      CarriesToken h v → LiveToken (drun E L { now := now } ops) v g t → g.dpopJkt = some j →
      ∃ k, ProvesKey L http k ∧ L.thumbprint k = j) := by
  intro h
  have hu : (userinfoHttp ED dpopInfo wd [] { header := some ("Bearer " ++ dtok) }).1 =
      .ok (.claims signedForm [("sub", .str "d")] "c1") := by decide +kernel
  obtain ⟨k, ⟨hd, -, -, -, -, -, hk, -⟩, -⟩ := h ED dlib 1000 (dhistory.take 5) dpopInfo [] { header := some ("Bearer " ++ dtok) } {} dtok
    dgrant drecord "tk1" signedForm [("sub", .str "d")] "c1" take_proofs hu (.inl rfl) live_dtok.1 live_dtok.2
  cases hk

/-- C122 is false of the code: introspection does not tell the key that an active token is bound to. -/
theorem C122_introspection_refuted :
    ¬ (∀ (E : Env) (L : DpopLib) (now : Int) (ops : List DOp) (db : Option UserDb) (issuer : String) (username : Bool) (v : String)
        (g : Grant) (t : Token) (j : String) (info : Dict Json),
      (∀ op ∈ ops, WithProofs L op) → LiveToken (drun E L { now := now } ops) v g t → g.dpopJkt = some j →
      introspectProcess E db issuer (fun _ => []) username (drun E L { now := now } ops) v = .ok info →
      info.get? "cnf" = some (.obj [("jkt", .str j)])) := by
  intro h
  have hi : introspectProcess ED (some people) "https://op" (fun _ => []) false wd dtok =
      .ok [("active", .bool true), ("scope", .str "openid email offline_access"), ("client_id", .str "c1"), ("exp", .num 1605),
        ("iat", .num 1005), ("sub", .str "d"), ("iss", .str "https://op"), ("token_type", .str "DPoP"),
        ("aud", .arr [.str "c1"])] := by decide +kernel
  have := h ED dlib 1000 (dhistory.take 5) (some people) "https://op" false dtok dgrant drecord "tk1" _ take_proofs live_dtok.1
    live_dtok.2 hi
  exact absurd this (by decide)

/-- The hypotheses of C122: a token response in the log, and a request with the scheme "DPoP" at an endpoint that has the method. -/
example : (∃ ref v req r, Event.token ref "c1" false v req r ∈ (drun ED dlib init dhistory).log) ∧
    (userinfoHttp ED dpopInfo wd [] { header := some ("DPoP " ++ dtok) }).1 = .error (.other "UnAuthorizedClient") := by
  refine ⟨?_, by decide +kernel⟩
  have : ∃ ref v req r, (drun ED dlib init dhistory).log[1]? = some (Event.token ref "c1" false v req r) :=
    ⟨2, ED.mkVal 1 .authorizationCode (dsid "c1" 0),
      { codeReq (ED.mkVal 1 .authorizationCode (dsid "c1" 0)) with clientId := some "c1", dpopJkt := some "tk1" },
      respAt (drun ED dlib init dhistory) 1, by decide +kernel⟩
  obtain ⟨ref, v, req, r, h⟩ := this
  exact ⟨ref, v, req, r, List.mem_of_getElem? h⟩

end Ex

end OidcOp
