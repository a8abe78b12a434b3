/-
C34, C35: pushed authorization requests.  C36: the scopes of tokens.  C68: what was checked before a grant was made.
-/
import Verif.Lemmas.Provider
import Verif.Props.PkceExamples

namespace OidcOp
open Spec

/-! ## C34 -/

/-- C34.  In every history every URN was given out for one pushed request only, it was resolved at most once, and to the
request that was pushed under it. -/
theorem C34_pushed_once (p : Prov) (now : Int) (ops : List POp) :
    ((provHistory p now ops).pushed.map (·.urn)).Nodup ∧ ((provHistory p now ops).resolved.map (·.urn)).Nodup ∧
    ∀ x ∈ (provHistory p now ops).resolved, ∃ y ∈ (provHistory p now ops).pushed, y.urn = x.urn ∧ y.req = x.req := by
  have h := parInv_history p now ops
  refine ⟨?_, h.once, h.origin⟩
  rw [h.numbered]
  exact (List.nodup_range).map _ (fun _ _ hne e => hne (p.urn_inj e))

theorem parInv_run {p : Prov} {s : PState} (h : ParInv p s) (ops : List POp) : ParInv p (provRun p s ops) := by
  unfold provRun
  induction ops generalizing s with
  | nil => exact h
  | cons op r ih => exact ih (parInv_provStep p h op)

theorem parStep_resolved {client : String} {s s' : PState} (h : ParStep client s s') : ∀ x ∈ s.resolved, x ∈ s'.resolved := by
  cases h with
  | none => exact fun x hx => hx
  | resolve _ => exact fun x hx => List.mem_append_left _ hx

theorem resolved_step {p : Prov} {s : PState} {x : Pushed} (h : x ∈ s.resolved) (op : POp) : x ∈ (provStep p s op).resolved := by
  have hI : ∀ client (s s' : PState), x ∈ s.resolved → ParStep client s s' → x ∈ s'.resolved :=
    fun _ _ _ hx hs => parStep_resolved hs x hx
  cases op with
  | push client req =>
    have h1 := parsePush_par (I := fun s => x ∈ s.resolved) (client := client) (hI client) p req h
    simp only [provStep]
    split
    · rename_i r s' he; rw [he] at h1; exact h1
    · rename_i y s' _ he; rw [he] at h1; exact h1
  | request client req cookies hint ru =>
    have h1 := parseAuthz_par (I := fun s => x ∈ s.resolved) (client := client) (hI client) p req h
    simp only [provStep]
    split
    · rename_i r s' he; rw [he] at h1; rw [(settle_par ..).resolved]; exact h1
    · rename_i y s' _ he; rw [he] at h1; exact h1
  | loggedIn i user =>
    simp only [provStep]
    split
    · exact h
    · rw [(finishLogin_par ..).resolved]; exact h
  | _ => exact h

theorem resolved_run {p : Prov} {s : PState} {x : Pushed} (h : x ∈ s.resolved) (ops : List POp) :
    x ∈ (provRun p s ops).resolved := by
  unfold provRun
  induction ops generalizing s with
  | nil => exact h
  | cons op r ih => exact ih (resolved_step h op)

theorem truthy_urn {urn : String} (hu : "urn:uuid:".toList.isPrefixOf urn.toList = true) : truthyStr (some urn) = some urn := by
  unfold truthyStr
  have : urn ≠ "" := by rintro rfl; revert hu; decide
  simp [this]

/-- Parsing a request with the URN of a pushed one begins with taking that one out of the store. -/
theorem parse_urn {p : Prov} (hp : p.hasPar = true) {urn : String} (hu : "urn:uuid:".toList.isPrefixOf urn.toList = true)
    (client : String) (req : AuthzReq) (hr : req.requestUri = some urn) (s : PState) :
    doRequestUri p client req s = (match s.par.get? urn with
      | none => (.error .valueError, s)
      | some r => (.ok r, { s with par := s.par.erase urn, resolved := s.resolved ++ [⟨urn, client, r, s.w.now⟩] })) := by
  unfold doRequestUri
  rw [hr, truthy_urn hu]
  simp only [hp, hu, Bool.and_self, if_true]
  cases s.par.get? urn <;> rfl

/-- C34, at the authorization endpoint.  A request with the URN of a pushed request is refused, or the request that was
pushed under the URN is used: everything else that came with the URN is ignored, and from then on, whatever happens, every
request with this URN is refused, whoever sends it. -/
theorem C34_request_uri (p : Prov) (hp : p.hasPar = true) (now : Int) (ops : List POp) (client : String) (req : AuthzReq)
    (urn : String) (hu : "urn:uuid:".toList.isPrefixOf urn.toList = true) (hr : req.requestUri = some urn) (s' : PState)
    (res : Except Exc AParse) (h : parseAuthz p client req (provHistory p now ops) = (res, s')) :
    res = .error .valueError ∨
    ∃ y ∈ (provHistory p now ops).pushed, y.urn = urn ∧
      (∀ x ∈ (provHistory p now ops).resolved, x.urn ≠ urn) ∧
      (∀ r, res = .ok (.req r) → y.req.requestUri = none → r = { y.req with
        redirectUri := r.redirectUri, codeChallengeMethod := r.codeChallengeMethod }) ∧
      ∀ ops' client' req', req'.requestUri = some urn →
        (parseAuthz p client' req' (provRun p s' ops')).1 = .error .valueError := by
  have hinv := parInv_history p now ops
  generalize provHistory p now ops = s at h hinv
  have hround : ∀ cl rq st, rq.requestUri = some urn → st.par.get? urn = none →
      (parseAuthz p cl rq st).1 = .error .valueError := by
    intro cl rq st hrq hst
    have hd := parse_urn hp hu cl { rq with clientId := some cl } hrq st
    unfold parseAuthz parseRound
    rw [hd, hst]
  cases hg : s.par.get? urn with
  | none =>
    left
    have := hround client req s hr hg
    rw [h] at this
    exact this
  | some r0 =>
    right
    obtain ⟨y, hy1, hy2, hy3⟩ := hinv.stored _ _ hg
    have hd := parse_urn hp hu client { req with clientId := some client } hr s
    rw [hg] at hd
    simp only [] at hd
    let s1 : PState := { s with par := s.par.erase urn, resolved := s.resolved ++ [⟨urn, client, r0, s.w.now⟩] }
    have hs1 : (⟨urn, client, r0, s.w.now⟩ : Pushed) ∈ s1.resolved := by simp [s1]
    refine ⟨y, hy1, hy2, ?_, ?_, ?_⟩
    · intro x hx he
      have := hinv.spent x hx
      rw [he, hg] at this
      cases this
    · intro r hres hnone
      subst hres
      have hr0 : r0.requestUri = none := by rw [← hy3]; exact hnone
      have hno : ∀ (q : AuthzReq) (st : PState), q.requestUri = none → doRequestUri p client q st = (.ok q, st) := by
        intro q st hq
        unfold doRequestUri
        rw [hq]; rfl
      unfold parseAuthz at h
      have hround1 : parseRound p client { req with clientId := some client } s = (postParseAuthz p client r0, s1) := by
        unfold parseRound
        rw [hd]
      rw [hround1] at h
      cases hpp : postParseAuthz p client r0 with
      | error e => rw [hpp] at h; cases h
      | ok a =>
        rw [hpp] at h
        cases a with
        | err e d => simp only [Prod.mk.injEq] at h; cases h.1
        | req r1 =>
          simp only [] at h
          obtain ⟨_, c1, u1, _, _, _, he1⟩ := postParse_spec hpp
          have hr1 : r1.requestUri = none := by rw [he1]; exact hr0
          have h2 : ∀ r2 s2, parseAgain p client r1 s1 = (.ok (.req r2), s2) → ∃ u, r2 = { r0 with redirectUri := u } := by
            intro r2 s2 ha
            unfold parseAgain at ha
            split at ha
            · unfold parseRound at ha
              rw [hno r1 s1 hr1] at ha
              simp only [Prod.mk.injEq] at ha
              obtain ⟨_, _, u2, _, _, _, he2⟩ := postParse_spec ha.1
              exact ⟨some u2, by rw [he2, he1]⟩
            · simp only [Prod.mk.injEq, Except.ok.injEq, AParse.req.injEq] at ha
              exact ⟨some u1, by rw [← ha.1, he1]⟩
          cases hpa : parseAgain p client r1 s1 with
          | mk x s2 =>
            rw [hpa] at h
            cases x with
            | error e => simp only [Prod.mk.injEq] at h; cases h.1
            | ok x =>
              cases x with
              | err e d => simp only [Prod.mk.injEq] at h; cases h.1
              | req r2 =>
                obtain ⟨u, he2⟩ := h2 r2 s2 hpa
                simp only [Prod.mk.injEq] at h
                have h3 := h.1
                unfold parsePkce at h3
                split at h3
                · simp only [Except.ok.injEq, AParse.req.injEq] at h3
                  rw [← h3, he2, hy3]
                · rename_i H P _
                  have hc : P.cdb.get? client ≠ none := by
                    intro hn
                    unfold pkceAuthnParse at h3
                    rw [hn] at h3
                    cases h3
                  obtain ⟨h4, _⟩ := (C28_authorization_request P client r2 hc r).1 h3
                  rw [h4, he2, hy3]
    · intro ops' client' req' hreq'
      have hmem : (⟨urn, client, r0, s.w.now⟩ : Pushed) ∈ s'.resolved := by
        have hround1 : parseRound p client { req with clientId := some client } s = (postParseAuthz p client r0, s1) := by
          unfold parseRound
          rw [hd]
        unfold parseAuthz at h
        rw [hround1] at h
        cases hpp : postParseAuthz p client r0 with
        | error e => rw [hpp] at h; simp only [Prod.mk.injEq] at h; rw [← h.2]; exact hs1
        | ok a =>
          rw [hpp] at h
          cases a with
          | err e d => simp only [Prod.mk.injEq] at h; rw [← h.2]; exact hs1
          | req r1 =>
            simp only [] at h
            have h2 := parStep_resolved (parseAgain_par p client r1 s1) _ hs1
            cases hpa : parseAgain p client r1 s1 with
            | mk x s2 =>
              rw [hpa] at h h2
              cases x with
              | error e => simp only [Prod.mk.injEq] at h; rw [← h.2]; exact h2
              | ok x =>
                cases x with
                | err e d => simp only [Prod.mk.injEq] at h; rw [← h.2]; exact h2
                | req r2 => simp only [Prod.mk.injEq] at h; rw [← h.2]; exact h2
      have hinv' : ParInv p s' := by
        have := parseAuthz_par (I := ParInv p) (client := client) parInv_step p req hinv
        rw [h] at this
        exact this
      exact hround client' req' _ hreq' ((parInv_run hinv' ops').spent _ (resolved_run hmem ops'))

/-! ## C35 -/

/-- The pushed requests name the clients that pushed them, and have no request_uri. -/
def OwnPushes (s : PState) : Prop := ∀ y ∈ s.pushed, y.req.clientId = some y.client ∧ y.req.requestUri = none

theorem parStep_pushed {client : String} {s s' : PState} (h : ParStep client s s') : s'.pushed = s.pushed := by
  cases h <;> rfl

theorem ownPushes_step {p : Prov} {s : PState} (h : OwnPushes s) (op : POp)
    (hop : ∀ client req, op = .push client req → req.requestUri = none) : OwnPushes (provStep p s op) := by
  have hI : ∀ client (s s' : PState), OwnPushes s → ParStep client s s' → OwnPushes s' :=
    fun _ _ _ hx hs => by unfold OwnPushes; rw [parStep_pushed hs]; exact hx
  cases op with
  | push client req =>
    have h1 := parsePush_par (I := OwnPushes) (client := client) (hI client) p req h
    simp only [provStep]
    split
    · rename_i r s' he
      rw [he] at h1
      intro y hy
      simp only [processPush, List.mem_append, List.mem_singleton] at hy
      rcases hy with hy | rfl
      · exact h1 y hy
      · unfold parsePush parseRound doRequestUri at he
        simp only [hop client req rfl, truthyStr] at he
        split at he
        · rename_i r1 s1 h2
          simp only [Prod.mk.injEq] at he h2
          obtain ⟨_, c, u, _, _, _, e1⟩ := postParse_spec h2.1
          obtain ⟨_, c', u', _, _, _, e2⟩ := postParse_spec he.1
          rw [e2, e1]
          exact ⟨rfl, rfl⟩
        · rename_i hx he'
          simp only [Prod.mk.injEq] at he
          obtain ⟨rfl, rfl⟩ := he
          exact absurd rfl (hx _)
    · rename_i y s' _ he; rw [he] at h1; exact h1
  | request client req cookies hint ru =>
    have h1 := parseAuthz_par (I := OwnPushes) (client := client) (hI client) p req h
    simp only [provStep]
    split
    · rename_i r s' he; rw [he] at h1; unfold OwnPushes; rw [(settle_par ..).pushed]; exact h1
    · rename_i y s' _ he; rw [he] at h1; exact h1
  | loggedIn i user =>
    simp only [provStep]
    split
    · exact h
    · unfold OwnPushes; rw [(finishLogin_par ..).pushed]; exact h
  | _ => exact h

theorem ownPushes_history (p : Prov) (now : Int) (ops : List POp)
    (hops : ∀ client req, POp.push client req ∈ ops → req.requestUri = none) : OwnPushes (provHistory p now ops) := by
  have h0 : OwnPushes { w := { now := now } } := by simp [OwnPushes]
  unfold provHistory provRun
  generalize ({ w := { now := now } } : PState) = s at h0
  induction ops generalizing s with
  | nil => exact h0
  | cons op r ih =>
    refine ih (fun c q hq => hops c q (by simp [hq])) _ (ownPushes_step h0 op ?_)
    rintro c q rfl
    exact hops c q (by simp)

/-- C35 (partial).  What does hold if pushed requests have no request_uri of their own: whoever presents the URN of a pushed
request, the request that is used names the client that pushed it, and that client's redirect URI.  (Missing: that the URN
works only for this client and only for the lifetime that was announced; see the refutations.) -/
theorem C35_client_partial (p : Prov) (hp : p.hasPar = true) (now : Int) (ops : List POp)
    (hops : ∀ client req, POp.push client req ∈ ops → req.requestUri = none)
    (client : String) (req : AuthzReq)
    (urn : String) (hu : "urn:uuid:".toList.isPrefixOf urn.toList = true) (hr : req.requestUri = some urn) (s' : PState)
    (r : AuthzReq) (h : parseAuthz p client req (provHistory p now ops) = (.ok (.req r), s')) :
    ∃ y ∈ (provHistory p now ops).pushed, y.urn = urn ∧ r.clientId = some y.client ∧
      ∃ uri, r.redirectUri = some uri ∧ OwnRedirect p y.client uri := by
  rcases C34_request_uri p hp now ops client req urn hu hr s' _ h with h1 | ⟨y, hy, hyu, _, hreq, _⟩
  · cases h1
  · have hown := ownPushes_history p now ops hops y hy
    have he := hreq r rfl hown.2
    have hc : r.clientId = some y.client := by rw [he]; exact hown.1
    obtain ⟨_, c, uri, k1, k2, k3⟩ := parseAuthz_spec h
    rw [hc] at k1; cases k1
    exact ⟨y, hy, hyu, hc, uri, k2, k3⟩

/-! ## C68 -/

/-- The requests that passed all checks. -/
theorem passing_vetted (p : Prov) (hne : ∀ c, p.clients.has c = true → c ≠ "") :
    Passing p (fun c req => Vetted p c req ∧ ∃ presenter, Presented p presenter req) := by
  intro client req s r s' c h hc hhas hsc
  obtain ⟨h1, c', uri, k1, k2, k3⟩ := parseAuthz_spec h
  rw [hc] at k1; cases k1
  refine ⟨⟨hc, ⟨uri, k2, k3⟩, fun hd => ?_⟩, client, h1⟩
  have hget : p.L.scopes.cdb.get? c ≠ none := by
    intro hn
    unfold Dict.has at hhas
    rw [hn] at hhas
    cases hhas
  exact (C36_deny_unknown p.L.scopes c r.scope (hne c (clean_has k3)) hget hd).1 hsc

theorem passing_direct (p : Prov) (hne : ∀ c, p.clients.has c = true → c ≠ "") (hd : NoDetour p) :
    Passing p (fun c req => Vetted p c req ∧ Presented p c req) := by
  intro client req s r s' c h hc hhas hsc
  obtain ⟨h1, _⟩ := passing_vetted p hne client req s r s' c h hc hhas hsc
  have hcl := parseAuthz_client hd h
  rw [hc] at hcl; cases hcl
  exact ⟨h1, (parseAuthz_spec h).1⟩

theorem names_ne {p : Prov} {U : String → Prop} (hn : Names p U) : ∀ c, p.clients.has c = true → c ≠ "" :=
  fun c hc => (hn.clients c hc).1.1

/-- C68 (partial).  After every history of requests, logins, token requests and revocations every grant in the session
database was made for an authorization request that was vetted against the registration of the client it names, and for a
user who authenticated on the provider's login page for a request of the same client; the subject of the grant is that
user's.  The response type and PKCE were checked too, for the client that sent the request.  (Missing: that this is the same
client.  With pushed requests it need not be; see the refutation.) -/
theorem C68_grant_vetted_partial (p : Prov) (U : String → Prop) (hn : Names p U) (now : Int) (ops : List POp)
    (hf : ∀ op ∈ ops, FairP p U op) (r : Nat) (g : Grant) (hg : GrantAt (provHistory p now ops).w r g) :
    ∃ u c req ev, g.authzReq = some req ∧ Vetted p c req ∧ (∃ presenter, Presented p presenter req) ∧
      g.authnEvent = some ev ∧ ev.uid = u ∧ g.sub = p.E.subOf u req ∧
      ∃ x ∈ (provHistory p now ops).logins, x.user = u ∧ x.req.clientId = some c := by
  obtain ⟨u, c, hgg⟩ := (pinv_history hn (passing_vetted p (names_ne hn)) now ops hf).world.all r g (grantAt_spec.1 hg)
  obtain ⟨req, h1, _, ⟨h3, h4⟩, h5, _⟩ := hgg.req
  obtain ⟨ev, h6, h7, ⟨x, l1, l2, l3, _⟩, _⟩ := hgg.event
  exact ⟨u, c, req, ev, h1, h3, h4, h6, h7, h5, x, l1, l2, l3⟩

/-- C68 (partial).  If requests come from the clients they name, everything was checked against the registration of the
one client. -/
theorem C68_grant_vetted_direct_partial (p : Prov) (U : String → Prop) (hn : Names p U) (hd : NoDetour p) (now : Int)
    (ops : List POp) (hf : ∀ op ∈ ops, FairP p U op) (r : Nat) (g : Grant)
    (hg : GrantAt (provHistory p now ops).w r g) :
    ∃ u c req ev, g.authzReq = some req ∧ Vetted p c req ∧ Presented p c req ∧
      g.authnEvent = some ev ∧ ev.uid = u ∧ g.sub = p.E.subOf u req ∧
      ∃ x ∈ (provHistory p now ops).logins, x.user = u ∧ x.req.clientId = some c := by
  obtain ⟨u, c, hgg⟩ := (pinv_history hn (passing_direct p (names_ne hn) hd) now ops hf).world.all r g (grantAt_spec.1 hg)
  obtain ⟨req, h1, _, ⟨h3, h4⟩, h5, _⟩ := hgg.req
  obtain ⟨ev, h6, h7, ⟨x, l1, l2, l3, _⟩, _⟩ := hgg.event
  exact ⟨u, c, req, ev, h1, h3, h4, h6, h7, h5, x, l1, l2, l3⟩

/-! ## C36, tokens -/

/-- C36 (partial), tokens.  With deny_unknown_scopes, after every history, every authorization code, access token and refresh
token carries only scopes that its client may use.  (Missing: the same without deny_unknown_scopes; see the refutation.) -/
theorem C36_token_scopes_partial (p : Prov) (U : String → Prop) (hn : Names p U) (hd : p.L.scopes.denyUnknown = true)
    (now : Int) (ops : List POp) (hf : ∀ op ∈ ops, FairP p U op) (r : Nat) (g : Grant)
    (hg : GrantAt (provHistory p now ops).w r g) (t : Token) (ht : t ∈ g.issuedToken)
    (hc : t.cls = .authorizationCode ∨ t.cls = .accessToken ∨ t.cls = .refreshToken) :
    ∃ c req, g.authzReq = some req ∧ req.clientId = some c ∧ ∀ x ∈ t.scope, AllowedScope p.L.scopes c x := by
  have hinv := (pinv_history hn (passing_vetted p (names_ne hn)) now ops hf).world
  obtain ⟨u, c, hgg⟩ := hinv.all r g (grantAt_spec.1 hg)
  obtain ⟨req, h1, h2, ⟨h3, _⟩, _, h5⟩ := hgg.req
  refine ⟨c, req, h1, h2, fun x hx => ?_⟩
  have hx' := C19_scope_bounded p.E _ hinv.reach r g hg t ht hc x hx
  obtain ⟨sc, hs1, hs2⟩ := h3.scopes hd
  rcases h5 with h5 | h5
  · rw [h5] at hx'; cases hx'
  · rw [h5, hs1] at hx'
    exact hs2 x hx'

end OidcOp
