/-
C124: a request that is in order brings up the login page, and so does one that was pushed.
-/
import Verif.Spec.InOrder
import Verif.Props.HybridFlow
import Verif.Props.Hints
import Verif.Props.PushedWorks
import Verif.Props.TokenClaims

namespace OidcOp
open Spec

theorem findSome_first {broker : List AuthnMethod} {acrs : List String} {m : AuthnMethod} (h : FirstMethod broker acrs m) :
    (acrs.map Json.str).findSome? (fun x => broker.find? (fun m => decide (.str m.acr = x))) = some m := by
  obtain ⟨⟨pre, post, rfl, h1⟩, before, after, rfl, h2⟩ := h
  have e1 : (pre.map Json.str).findSome? (fun x => (before ++ m :: after).find? (fun m => decide (.str m.acr = x))) = none := by
    rw [List.findSome?_eq_none_iff]
    intro x hx
    obtain ⟨a, ha, rfl⟩ := List.mem_map.1 hx
    rw [List.find?_eq_none]
    intro m' hm' e
    exact h1 a ha m' hm' (by simpa using e)
  have e2 : (before ++ m :: after).find? (fun m' => decide (Json.str m'.acr = .str m.acr)) = some m := by
    rw [List.find?_eq_some_iff_append]
    exact ⟨by simp, before, after, rfl, fun a ha => by simpa using h2 a ha⟩
  rw [List.map_append, List.findSome?_append, e1, List.map_cons, List.findSome?_cons, e2]
  rfl

theorem pickMethod_for {broker : List AuthnMethod} {hint : List String} {req : AuthzReq} {m : AuthnMethod}
    (h : MethodFor broker hint req m) : pickMethod broker hint req = .ok m := by
  have key : ∀ acrs, wantedAcrs hint req = .ok (acrs.map .str) → FirstMethod broker acrs m → pickMethod broker hint req = .ok m := by
    intro acrs hw hf
    unfold pickMethod pickAuth
    split
    · rename_i x m' hb
      split at hb
      · obtain ⟨-, before, after, e, -⟩ := hf
        cases before with
        | nil => cases e; cases hb; rfl
        | cons b bs => cases bs <;> cases e
      · rw [hw] at hb
        cases acrs with
        | nil => obtain ⟨⟨pre, post, e, -⟩, -⟩ := hf; cases pre <;> cases e
        | cons a as =>
          have := findSome_first hf
          simp only [List.map_cons] at hb this
          rw [this] at hb
          cases hb; rfl
    · rename_i x hb
      exfalso
      apply hb m
      split
      · obtain ⟨-, before, after, e, -⟩ := hf
        cases before with
        | nil => cases e; rfl
        | cons b bs => cases bs <;> cases e
      · rw [hw]
        cases acrs with
        | nil => obtain ⟨⟨pre, post, e, -⟩, -⟩ := hf; cases pre <;> cases e
        | cons a as =>
          have := findSome_first hf
          simp only [List.map_cons] at this ⊢
          rw [this]
  cases h with
  | only h => subst h; rfl
  | asked h hf =>
    rename_i acrs
    refine key acrs (wantedAcrs_of h ?_) hf
    rintro rfl
    obtain ⟨⟨pre, post, e, -⟩, -⟩ := hf
    cases pre <;> cases e
  | hinted h hf => exact key hint (by simp [wantedAcrs, acrClaim, h.1, h.2]) hf
  | first h h1 h2 =>
    subst h1
    have hw : wantedAcrs [] req = .ok [] := by simp [wantedAcrs, acrClaim, h.1, h.2]
    unfold pickMethod pickAuth
    split
    · rename_i x m' hb
      split at hb
      · cases h2; cases hb; rfl
      · rw [hw, h2] at hb; cases hb; rfl
    · rename_i x hb
      exfalso
      apply hb m
      split
      · cases h2; rfl
      · rw [hw, h2]

theorem checkScopes_ok {cfg : ScopeCfg} {client : String} {scope : Option (List String)} (hne : client ≠ "")
    (hc : cfg.cdb.get? client ≠ none) (h : ScopesInOrder cfg client scope) : checkUnknownScopes cfg client scope = .ok () := by
  by_cases hd : cfg.denyUnknown = true
  · exact (C36_deny_unknown cfg client scope hne hc hd).2 (h hd)
  · unfold checkUnknownScopes
    rw [if_pos (by simpa using hd)]

theorem postParse_inOrder {p : Prov} {client : String} {req : AuthzReq} (h : RequestInOrder p client req)
    (hwf : ∀ x, (p.U.split x).2.keys.Nodup) (r : AuthzReq) (h1 : r.clientId = some client) (h2 : r.responseType = req.responseType)
    (h3 : r.redirectUri = req.redirectUri) : postParseAuthz p client r = .ok (.req r) := by
  obtain ⟨reg, u, hreg, hrt, hu, uris, hg, hmem, hnd, hdec, hfrag⟩ := h.registered
  have hv : verifyUri p.U p.uris (some client) (some u) = .ok () := by
    refine C31_registered_usable_partial p.U p.uris client h.named uris hnd ?_ u hmem hdec hfrag hwf
    rw [uris_get, hreg, ← hg]
    rfl
  unfold postParseAuthz
  rw [hreg]
  simp only []
  rw [if_neg (by rw [h2, (C32_response_type_registered _ _).2 hrt]; decide), h1, h3, hu]
  simp only [getUri, hv]
  cases r
  simp only at h1 h3
  rw [h1, h3, hu]

theorem parse_inOrder {p : Prov} {client : String} {req : AuthzReq} (h : RequestInOrder p client req)
    (hwf : ∀ x, (p.U.split x).2.keys.Nodup) (s : PState) : parseAuthz p client req s = (.ok (.req (Taken p client req)), s) := by
  have hround : ∀ st, parseRound p client { req with clientId := some client } st = (.ok (.req { req with clientId := some client }), st) := by
    intro st
    have hd : doRequestUri p client { req with clientId := some client } st = (.ok { req with clientId := some client }, st) := by
      unfold doRequestUri
      rw [show ({ req with clientId := some client } : AuthzReq).requestUri = none from h.plain]
      rfl
    unfold parseRound
    rw [hd]
    simp only []
    rw [postParse_inOrder h hwf { req with clientId := some client } rfl rfl rfl]
  unfold parseAuthz
  rw [hround]
  simp only []
  have hagain : parseAgain p client { req with clientId := some client } s = (.ok (.req { req with clientId := some client }), s) := by
    unfold parseAgain
    split
    · exact hround s
    · rfl
  rw [hagain]
  simp only []
  unfold parsePkce Taken
  cases hp : p.pkce with
  | none => rfl
  | some x =>
    obtain ⟨H, P⟩ := x
    obtain ⟨hc, hch⟩ := h.pkce H P hp
    simp only []
    rw [(C28_authorization_request P client { req with clientId := some client } hc
      { req with clientId := some client, codeChallengeMethod := some (req.codeChallengeMethod.getD "plain") }).2 ⟨rfl, hch⟩]
    rfl

theorem process_inOrder {p : Prov} {client : String} {req : AuthzReq} (h : RequestInOrder p client req) {hint : List String} {m : AuthnMethod}
    (hm : MethodFor p.L.broker hint req m) (w : World) (ru : Option (Option String)) :
    processAuthz p.L p.E w (Taken p client req) hint [] ru =
      (.ok (if promptHas req "none" then .loginRequired else .loginPage m), w) := by
  obtain ⟨reg, u, -, -, hu, -⟩ := h.registered
  have hpick : pickMethod p.L.broker hint (Taken p client req) = .ok m := by
    have : pickMethod p.L.broker hint (Taken p client req) = pickMethod p.L.broker hint req := rfl
    rw [this]; exact pickMethod_for hm
  have hhas : p.L.scopes.cdb.has client = true := by
    cases hq : p.L.scopes.cdb.get? client with
    | none => exact absurd hq h.known
    | some x => unfold Dict.has; rw [hq]; rfl
  have hset : setupAuth p.E p.L.loads m w (Taken p client req) [] ru = (.ok (askLogin req), w) := by
    have hid : findIdentity p.E p.L.loads w (Taken p client req) [] = .ok none := rfl
    unfold setupAuth
    rw [hid]
    simp only []
    rw [if_neg (by simp [Taken, hu])]
    rfl
  unfold processAuthz
  simp only [show (Taken p client req).clientId = some client from rfl, show (Taken p client req).scope = req.scope from rfl, hhas,
    checkScopes_ok h.named h.known h.scopes, hpick, hset]
  unfold askLogin
  cases promptHas req "none" <;> rfl

theorem parse_pending (p : Prov) (client : String) (req : AuthzReq) (s : PState) :
    (parseAuthz p client req s).2.pending = s.pending :=
  parseAuthz_par (I := fun t => t.pending = s.pending) (fun _ _ h hs => by rw [(parStep_fields hs).2.1]; exact h) p req rfl

theorem prompts_iff {req : AuthzReq} {x : String} : promptHas req x = true ↔ Prompts req x := by
  unfold promptHas Prompts
  cases req.prompt <;> simp

/-- C124.  In every state of the provider: a request of a client that is in order, and comes without a cookie, is answered with the
login page of the method for it, and nothing else happens; with prompt "none" it is answered that a login is needed, and nothing
happens. -/
theorem C124_login_page (p : Prov) (client : String) (req : AuthzReq) (h : RequestInOrder p client req)
    (hwf : ∀ x, (p.U.split x).2.keys.Nodup) (hint : List String) (m : AuthnMethod) (hm : MethodFor p.L.broker hint req m)
    (ru : Option (Option String)) (s : PState) :
    (¬ Prompts req "none" → provStep p s (.request client req [] hint ru) = { s with pending := s.pending ++ [(Taken p client req, m)] }) ∧
    (Prompts req "none" → provStep p s (.request client req [] hint ru) = s ∧
      parseAuthz p client req s = (.ok (.req (Taken p client req)), s) ∧
      processAuthz p.L p.E s.w (Taken p client req) hint [] ru = (.ok .loginRequired, s.w)) := by
  have hparse := parse_inOrder h hwf s
  have hproc := process_inOrder h hm s.w ru
  have hstep : provStep p s (.request client req [] hint ru) =
      settle s (Taken p client req) (.ok (if promptHas req "none" then .loginRequired else .loginPage m), s.w) := by
    simp only [provStep, hparse, pickCookies, List.filterMap_nil, hproc]
  constructor
  · intro hno
    have : promptHas req "none" = false := by
      cases hq : promptHas req "none" with
      | false => rfl
      | true => exact absurd (prompts_iff.1 hq) hno
    rw [hstep, this]
    rfl
  · intro hyes
    have := prompts_iff.2 hyes
    refine ⟨?_, hparse, ?_⟩
    · rw [hstep, this]; rfl
    · rw [hproc, this]; rfl

/-- C124, for requests that were pushed.  After every history in which no pushed request has a request URI, the client that has pushed a
request that is in order gets the login page for it when it comes with its URN, the first time that anybody does; whatever else comes
with the URN, but the request that was pushed decides. -/
theorem C124_pushed (p : Prov) (hp : p.hasPar = true) (now : Int) (ops : List POp)
    (hops : ∀ client req, POp.push client req ∈ ops → req.requestUri = none) (y : Pushed)
    (hy : y ∈ (provHistory p now ops).pushed) (hun : ∀ x ∈ (provHistory p now ops).resolved, x.urn ≠ y.urn)
    (hu : "urn:uuid:".toList.isPrefixOf y.urn.toList = true) (req : AuthzReq) (hr : req.requestUri = some y.urn)
    (h : RequestInOrder p y.client y.req) (hwf : ∀ x, (p.U.split x).2.keys.Nodup) (hint : List String) (m : AuthnMethod)
    (hm : MethodFor p.L.broker hint y.req m) (hno : ¬ Prompts y.req "none") (ru : Option (Option String)) :
    (provStep p (provHistory p now ops) (.request y.client req [] hint ru)).pending =
      (provHistory p now ops).pending ++ [(Taken p y.client y.req, m)] := by
  have h1 := C34_as_if_sent p hp now ops hops y hy hun hu req hr
  rw [parse_inOrder h hwf] at h1
  have hpend := parse_pending p y.client req (provHistory p now ops)
  cases hq : parseAuthz p y.client req (provHistory p now ops) with
  | mk a s' =>
    rw [hq] at h1 hpend
    simp only at h1 hpend
    subst h1
    have : promptHas y.req "none" = false := by
      cases hq : promptHas y.req "none" with
      | false => rfl
      | true => exact absurd (prompts_iff.1 hq) hno
    simp only [provStep, hq, pickCookies, List.filterMap_nil, process_inOrder h hm s'.w ru, this, settle]
    simp [hpend]

/-- C124, with C123, for names as in C68.  After any history of the provider a client sends a request that is in order, and somebody
logs in on the page that it brings up.  Then the client has a response, with the state of the request and exactly what the request asks
for of a code, an access token and an ID token. -/
theorem C124_response (p : Prov) (U : String → Prop) (hn : Names p U) (now : Int) (ops : List POp) (hf : ∀ op ∈ ops, FairP p U op)
    (s0 s2 : PState) (h0 : s0 = provHistory p now ops) (client user : String) (hu : U user) (req : AuthzReq) (h : RequestInOrder p client req)
    (hwf : ∀ x, (p.U.split x).2.keys.Nodup) (hint : List String) (m : AuthnMethod) (hm : MethodFor p.L.broker hint req m)
    (ru : Option (Option String)) (hno : ¬ Prompts req "none")
    (h2 : s2 = provHistory p now (ops ++ [.request client req [] hint ru, .loggedIn s0.pending.length user]))
    (hne : req.responseType ≠ []) (hall : ∀ x ∈ req.responseType, x = "code" ∨ x = "token" ∨ x = "id_token")
    (asked : List String) (hasked : req.scope = some asked) (hdel : p.E.deliverable (Taken p client req) = true)
    (hcl : ClaimsWork p.E) (hh : HandlersDo p.E s2.w.now) (hexp : ∀ n, p.E.authz.expiresIn = some n → 0 ≤ n) :
    ∃ ref r, s2.w.log = s0.w.log ++ [.authz ref client r] ∧ r.state = truthyStr req.state ∧
      (r.code.isSome = true ↔ "code" ∈ req.responseType) ∧ (r.accessToken.isSome = true ↔ "token" ∈ req.responseType) ∧
      (r.idToken.isSome = true ↔ "id_token" ∈ req.responseType) := by
  have hs1 : provHistory p now (ops ++ [.request client req [] hint ru]) =
      { s0 with pending := s0.pending ++ [(Taken p client req, m)] } := by
    rw [codeHistory_snoc, ← h0]
    exact (C124_login_page p client req h hwf hint m hm ru s0).1 hno
  have e : ops ++ [.request client req [] hint ru, .loggedIn s0.pending.length user] =
      ops ++ [.request client req [] hint ru] ++ [.loggedIn s0.pending.length user] := by simp
  rw [e] at h2
  obtain ⟨ref, r, g1, g2, g3, g4, g5, -⟩ := C123_access_token p U hn now (ops ++ [.request client req [] hint ru]) [] s0.pending.length
    user client (by
      intro op hop
      simp only [List.mem_append, List.mem_singleton] at hop
      rcases hop with (hop | rfl) | rfl
      · exact hf op hop
      · trivial
      · exact hu) _ s2 s2 rfl h2 h2 (Taken p client req) m (by rw [hs1]; simp) rfl hne hall asked hasked hdel hcl hh hexp
  rw [hs1] at g1
  exact ⟨ref, r, g1, g2, g3, g4, g5⟩

namespace Ex

theorem split_wf : ∀ x, (prov.U.split x).2.keys.Nodup := by
  intro x
  have key : ∀ (fs : List Str) (d : Dict (List String)), d.keys.Nodup → (fs.foldl (fun d f =>
      match splitFirst '=' f with
      | some (k, v) =>
        if v.isEmpty then d
        else d.set (String.ofList k) ((d.get? (String.ofList k)).getD [] ++ [String.ofList v])
      | none => d) d).keys.Nodup := by
    intro fs
    induction fs with
    | nil => intro d h; exact h
    | cons f fs ih =>
      intro d h
      rw [List.foldl_cons]
      apply ih
      split
      · split
        · exact h
        · exact set_keys_nodup _ _ h
      · exact h
  show (simpleUri.split x).2.keys.Nodup
  unfold simpleUri
  simp only []
  split
  · exact List.nodup_nil
  · exact key _ _ List.nodup_nil

/-- A provider with two methods that demands PKCE of the client, refuses unknown scopes and has what the response types need. -/
def provStrict : Prov :=
  { provHybrid with
    L := { scopes := { cdb := [("c1", { allowedScopes := some ["openid", "email"] }), ("c2", {})], denyUnknown := true }
           broker := broker }
    pkce := some (hash, pkce) }

def strictReq : AuthzReq :=
  { redirectUri := some "https://rp/cb", responseType := ["id_token", "token", "code"], scope := some ["email", "openid"],
    state := some "s", acrValues := some ["bio", "mfa"], codeChallenge := some "abc" }

theorem strict_inOrder (c : Option String) : RequestInOrder provStrict "c1" { strictReq with clientId := c } where
  named := by decide
  plain := rfl
  known := by decide +kernel
  registered := by
    refine ⟨_, _, rfl, .inr ⟨"code id_token token", by simp, ["code", "id_token", "token"], ⟨by decide, by decide, by decide⟩, ?_⟩, rfl,
      ["https://rp/cb"], by decide +kernel, by simp, by simp, by decide +kernel, by decide +kernel⟩
    intro x
    simp only [strictReq, List.mem_cons, List.not_mem_nil, or_false]
    constructor
    · rintro (h | h | h) <;> simp [h]
    · rintro (h | h | h) <;> simp [h]
  scopes := by
    intro _
    refine ⟨_, rfl, ?_⟩
    intro x hx
    refine ⟨_, rfl, .inl ⟨_, rfl, ?_⟩⟩
    simp only [List.mem_cons, List.not_mem_nil, or_false] at hx ⊢
    rcases hx with h | h <;> simp [h]
  pkce := by
    intro H P h
    cases h
    exact ⟨by decide +kernel, fun _ => (by intro h; cases h), fun _ => ⟨"plain", rfl, by decide⟩⟩

theorem strict_method (c : Option String) :
    MethodFor provStrict.L.broker [] { strictReq with clientId := c } { id := "otp", acr := "mfa", expiresIn := some 600 } :=
  .asked (.acrValues rfl) ⟨⟨["bio"], [], rfl, by decide⟩, [{ id := "user", acr := "password" }], [], rfl, by decide⟩

/-- C124: a request for a code, an ID token and an access token, with a context of which there is a method, at such a provider. -/
example (s : PState) : provStep provStrict s (.request "c1" strictReq [] [] none) =
    { s with pending := s.pending ++ [({ strictReq with clientId := some "c1", codeChallengeMethod := some "plain" },
      { id := "otp", acr := "mfa", expiresIn := some 600 })] } :=
  (C124_login_page provStrict "c1" strictReq (strict_inOrder none) split_wf [] _ (strict_method none) none s).1 (by rintro ⟨l, h, -⟩; cases h)

/-- C124: the same request, pushed before. -/
example : (provStep provStrict (provHistory provStrict 1000 [.push "c1" strictReq, .tick 5])
      (.request "c1" { urnReq 0 with state := some "other" } [] [] none)).pending =
    [({ strictReq with clientId := some "c1", codeChallengeMethod := some "plain" },
      { id := "otp", acr := "mfa", expiresIn := some 600 })] := by
  have h := C124_pushed provStrict rfl 1000 [.push "c1" strictReq, .tick 5] (by
      intro client req h
      simp only [List.mem_cons, List.not_mem_nil, or_false, reduceCtorEq, POp.push.injEq] at h
      obtain ⟨-, rfl⟩ := h
      rfl) ⟨urnStr 0, "c1", { strictReq with clientId := some "c1" }, 1000⟩ (by decide +kernel) (by decide +kernel) (by decide +kernel)
    { urnReq 0 with state := some "other" } rfl
    (strict_inOrder _) split_wf [] _ (strict_method _) (by rintro ⟨l, h, -⟩; cases h) none
  rw [h, show (provHistory provStrict 1000 [.push "c1" strictReq, .tick 5]).pending = [] from by decide +kernel]
  rfl

/-- C124: and its response. -/
example : ∃ ref r, (provHistory provStrict 1000 [.request "c1" strictReq [] [] none, .loggedIn 0 "d"]).w.log = [.authz ref "c1" r] ∧
    r.code.isSome = true ∧ r.accessToken.isSome = true ∧ r.idToken.isSome = true := by
  obtain ⟨ref, r, h1, -, h2, h3, h4⟩ := C124_response provStrict isD (names_of provStrict rfl (fun _ h => twoClients h)) 1000 []
    (by simp) _ _ rfl "c1" "d" rfl strictReq (strict_inOrder none) split_wf [] _ (strict_method none) none (by rintro ⟨l, h, -⟩; cases h) rfl
    (by decide) (by decide) _ rfl rfl claimsWork (handlersDo _) (fun n h => by cases h)
  exact ⟨ref, r, h1, h2.2 (by decide), h3.2 (by decide), h4.2 (by decide)⟩

end Ex

end OidcOp
