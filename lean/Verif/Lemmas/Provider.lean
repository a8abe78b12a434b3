/-
The provider's histories as histories of the world: what passes the authorization endpoint, and the invariants of the
store of pushed requests.
-/
import Verif.Lemmas.Gates
import Verif.Props.Login
import Verif.Props.Pkce
import Verif.Props.Scopes
import Verif.Props.Uri
import Verif.Spec.Provider

namespace OidcOp
open Spec

/-! ### Pushed requests -/

/-- A change of the store of pushed requests by parsing. -/
inductive ParStep (client : String) (s : PState) : PState → Prop where
  | none : ParStep client s s
  | resolve {uri : String} {r : AuthzReq} : s.par.get? uri = some r →
      ParStep client s { s with par := s.par.erase uri, resolved := s.resolved ++ [⟨uri, client, r, s.w.now⟩] }

theorem doRequestUri_par (p : Prov) (client : String) (req : AuthzReq) (s : PState) :
    ParStep client s (doRequestUri p client req s).2 := by
  unfold doRequestUri
  split
  · exact .none
  · split
    · split
      · exact .none
      · rename_i r hr; exact .resolve hr
    · split
      · exact .none
      · split
        · exact .none
        · split
          · exact .none
          · split <;> exact .none

theorem parseRound_par (p : Prov) (client : String) (req : AuthzReq) (s : PState) :
    ParStep client s (parseRound p client req s).2 := by
  have h := doRequestUri_par p client req s
  unfold parseRound
  split
  · rename_i e s' he; rw [he] at h; exact h
  · rename_i r s' he; rw [he] at h; exact h

theorem parseAgain_par (p : Prov) (client : String) (req : AuthzReq) (s : PState) :
    ParStep client s (parseAgain p client req s).2 := by
  unfold parseAgain
  split
  · exact parseRound_par ..
  · exact .none

/-- A property that resolving keeps is kept by parsing. -/
theorem parseAuthz_par {I : PState → Prop} {client : String} (hI : ∀ s s', I s → ParStep client s s' → I s') (p : Prov)
    (req : AuthzReq) {s : PState} (h : I s) : I (parseAuthz p client req s).2 := by
  have h1 := hI _ _ h (parseRound_par p client { req with clientId := some client } s)
  unfold parseAuthz
  split
  · rename_i r1 s1 he
    rw [he] at h1
    have h2 := hI _ _ h1 (parseAgain_par p client r1 s1)
    split
    · rename_i r2 s2 he2; rw [he2] at h2; exact h2
    · rename_i x s2 _ he2; rw [he2] at h2; exact h2
  · rename_i x s1 _ he; rw [he] at h1; exact h1

theorem parsePush_par {I : PState → Prop} {client : String} (hI : ∀ s s', I s → ParStep client s s' → I s') (p : Prov)
    (req : AuthzReq) {s : PState} (h : I s) : I (parsePush p client req s).2 := by
  have h1 := hI _ _ h (parseRound_par p client { req with clientId := some client } s)
  unfold parsePush
  split
  · rename_i r1 s1 he; rw [he] at h1; exact h1
  · rename_i x s1 _ he; rw [he] at h1; exact h1

/-- The invariant of the store of pushed requests. -/
structure ParInv (p : Prov) (s : PState) : Prop where
  numbered : s.pushed.map (·.urn) = (List.range s.pushes).map p.urn
  stored : ∀ k r, s.par.get? k = some r → ∃ y ∈ s.pushed, y.urn = k ∧ y.req = r
  spent : ∀ x ∈ s.resolved, s.par.get? x.urn = none
  origin : ∀ x ∈ s.resolved, ∃ y ∈ s.pushed, y.urn = x.urn ∧ y.req = x.req
  once : (s.resolved.map (·.urn)).Nodup

theorem parInv_step {p : Prov} {client : String} (s s' : PState) (h : ParInv p s) (hs : ParStep client s s') : ParInv p s' := by
  cases hs with
  | none => exact h
  | resolve hr =>
    rename_i uri r
    obtain ⟨y, hy1, hy2, hy3⟩ := h.stored _ _ hr
    refine ⟨h.numbered, ?_, ?_, ?_, ?_⟩
    · intro k r' hk
      simp only [Dict.get?_erase] at hk
      split at hk
      · cases hk
      · exact h.stored _ _ hk
    · intro x hx
      simp only [List.mem_append, List.mem_singleton] at hx
      simp only [Dict.get?_erase]
      split
      · rfl
      · rcases hx with hx | rfl
        · exact h.spent x hx
        · rename_i hne; exact absurd rfl hne
    · intro x hx
      simp only [List.mem_append, List.mem_singleton] at hx
      rcases hx with hx | rfl
      · exact h.origin x hx
      · exact ⟨y, hy1, hy2, hy3⟩
    · simp only [List.map_append, List.map_cons, List.map_nil]
      rw [List.nodup_append]
      refine ⟨h.once, by simp, ?_⟩
      intro a ha b hb e
      simp only [List.mem_singleton] at hb
      subst hb
      subst e
      obtain ⟨x, hx, hxe⟩ := List.mem_map.1 ha
      have := h.spent x hx
      rw [hxe, hr] at this
      cases this

theorem urn_fresh {p : Prov} {s : PState} (h : ParInv p s) : ∀ y ∈ s.pushed, y.urn ≠ p.urn s.pushes := by
  intro y hy he
  have : y.urn ∈ s.pushed.map (·.urn) := List.mem_map.2 ⟨y, hy, rfl⟩
  rw [h.numbered] at this
  obtain ⟨n, hn, hne⟩ := List.mem_map.1 this
  rw [he] at hne
  have := p.urn_inj hne
  subst this
  simp at hn

theorem parInv_push {p : Prov} {client : String} {req : AuthzReq} {s : PState} (h : ParInv p s) :
    ParInv p (processPush p client req s) := by
  have hf := urn_fresh h
  refine ⟨?_, ?_, ?_, ?_, h.once⟩
  · simp only [processPush, List.map_append, List.map_cons, List.map_nil, List.range_succ, h.numbered]
  · intro k r hk
    simp only [processPush, Dict.get?_set] at hk
    split at hk
    · rename_i he
      cases hk
      exact ⟨_, List.mem_append_right _ (List.mem_singleton.2 rfl), he, rfl⟩
    · obtain ⟨y, h1, h2⟩ := h.stored _ _ hk
      exact ⟨y, List.mem_append_left _ h1, h2⟩
  · intro x hx
    simp only [processPush, Dict.get?_set]
    split
    · rename_i he
      obtain ⟨y, h1, h2, _⟩ := h.origin x hx
      exact absurd (h2.trans he.symm) (hf y h1)
    · exact h.spent x hx
  · intro x hx
    obtain ⟨y, h1, h2⟩ := h.origin x hx
    exact ⟨y, List.mem_append_left _ h1, h2⟩

/-- The same store of pushed requests. -/
structure SamePar (s s' : PState) : Prop where
  par : s'.par = s.par
  pushes : s'.pushes = s.pushes
  pushed : s'.pushed = s.pushed
  resolved : s'.resolved = s.resolved

theorem ParInv.same {p : Prov} {s s' : PState} (h : ParInv p s) (e : SamePar s s') : ParInv p s' :=
  ⟨by rw [e.pushed, e.pushes]; exact h.numbered, by rw [e.par, e.pushed]; exact h.stored,
   by rw [e.resolved, e.par]; exact h.spent, by rw [e.resolved, e.pushed]; exact h.origin, by rw [e.resolved]; exact h.once⟩

theorem settle_par (s : PState) (req : AuthzReq) (x : Except Exc ProcRes × World) : SamePar s (settle s req x) := by
  unfold settle
  split <;> exact ⟨rfl, rfl, rfl, rfl⟩

theorem finishLogin_par (p : Prov) (s : PState) (req : AuthzReq) (m : AuthnMethod) (user : String) :
    SamePar s (finishLogin p s req m user) := by
  unfold finishLogin
  split
  · exact ⟨rfl, rfl, rfl, rfl⟩
  · exact settle_par ..

theorem parInv_provStep (p : Prov) {s : PState} (h : ParInv p s) (op : POp) : ParInv p (provStep p s op) := by
  cases op with
  | push client req =>
    have h1 := parsePush_par (I := ParInv p) (client := client) parInv_step p req h
    simp only [provStep]
    split
    · rename_i r s' he; rw [he] at h1; exact parInv_push h1
    · rename_i x s' _ he; rw [he] at h1; exact h1
  | request client req cookies hint ru =>
    have h1 := parseAuthz_par (I := ParInv p) (client := client) parInv_step p req h
    simp only [provStep]
    split
    · rename_i r s' he; rw [he] at h1; exact h1.same (settle_par ..)
    · rename_i x s' _ he; rw [he] at h1; exact h1
  | loggedIn i user =>
    simp only [provStep]
    split
    · exact h
    · rename_i req m _
      exact (h.same (s' := { s with logins := s.logins ++ [⟨user, req, m, s.w.now⟩] }) ⟨rfl, rfl, rfl, rfl⟩).same (finishLogin_par ..)
  | _ => exact h.same ⟨rfl, rfl, rfl, rfl⟩

theorem parInv_history (p : Prov) (now : Int) (ops : List POp) : ParInv p (provHistory p now ops) := by
  have h0 : ParInv p { w := { now := now } } := ⟨rfl, by simp, by simp, by simp, by simp⟩
  unfold provHistory provRun
  generalize ({ w := { now := now } } : PState) = s at h0
  induction ops generalizing s with
  | nil => exact h0
  | cons op r ih => exact ih _ (parInv_provStep p h0 op)

/-! ### What passes the authorization endpoint -/

theorem uris_get (p : Prov) (c : String) : p.uris.get? c = (p.clients.get? c).map (·.redirectUris) := by
  unfold Prov.uris
  induction p.clients with
  | nil => rfl
  | cons x l ih =>
    obtain ⟨k, v⟩ := x
    simp only [List.map_cons, Dict.get?_cons]
    split
    · rfl
    · exact ih

theorem getUri_own {p : Prov} {cid uri : Option String} {used : String} (h : getUri p.U p.uris cid uri = .ok used) :
    ∃ c, cid = some c ∧ OwnRedirect p c used := by
  rcases C30_used_uri _ _ _ _ _ h with ⟨_, c, regs, r, h1, h2, h3, h4⟩ | ⟨_, c, b, q, h1, h2, h3⟩
  · rw [uris_get] at h2
    cases hc : p.clients.get? c with
    | none => rw [hc] at h2; cases h2
    | some cl =>
      rw [hc] at h2
      simp only [Option.map_some, Option.some.injEq] at h2
      exact ⟨c, h1, cl, regs, hc, h2, .inl ⟨r, h3, h4⟩⟩
  · rw [uris_get] at h2
    cases hc : p.clients.get? c with
    | none => rw [hc] at h2; cases h2
    | some cl =>
      rw [hc] at h2
      simp only [Option.map_some, Option.some.injEq] at h2
      exact ⟨c, h1, cl, _, hc, h2, .inr ⟨b, q, rfl, h3⟩⟩

theorem postParse_spec {p : Prov} {client : String} {req r : AuthzReq} (h : postParseAuthz p client req = .ok (.req r)) :
    OwnResponseType p client r.responseType ∧ ∃ c uri, r.clientId = some c ∧ r.redirectUri = some uri ∧
      OwnRedirect p c uri ∧ r = { req with redirectUri := some uri } := by
  unfold postParseAuthz at h
  split at h
  · cases h
  · rename_i cl hcl
    split at h
    · cases h
    · rename_i hv
      split at h
      · rename_i u hu
        cases h
        obtain ⟨c, h1, h2⟩ := getUri_own hu
        exact ⟨⟨cl, hcl, (C32_response_type_registered ..).1 (by simpa using hv)⟩, c, u, h1, rfl, h2, rfl⟩
      · split at h <;> cases h

theorem parseRound_spec {p : Prov} {client : String} {req r : AuthzReq} {s s' : PState}
    (h : parseRound p client req s = (.ok (.req r), s')) :
    OwnResponseType p client r.responseType ∧ ∃ c uri, r.clientId = some c ∧ r.redirectUri = some uri ∧
      OwnRedirect p c uri := by
  unfold parseRound at h
  split at h
  · cases h
  · simp only [Prod.mk.injEq] at h
    obtain ⟨h1, c, uri, h2, h3, h4, _⟩ := postParse_spec h.1
    exact ⟨h1, c, uri, h2, h3, h4⟩

theorem pkceAuthnParse_spec {P : PkceCfg} {client : String} {req r : AuthzReq} (h : pkceAuthnParse P client req = .ok (.req r)) :
    ChallengeInOrder P client r ∧ r.responseType = req.responseType ∧ r.clientId = req.clientId ∧
      r.redirectUri = req.redirectUri ∧ r.scope = req.scope := by
  have hc : P.cdb.get? client ≠ none := by
    intro hn
    unfold pkceAuthnParse at h
    rw [hn] at h
    cases h
  obtain ⟨h1, h2⟩ := (C28_authorization_request P client req hc r).1 h
  subst h1
  exact ⟨h2, rfl, rfl, rfl, rfl⟩

/-- Whatever passes the parsing of authorization requests has its client's redirect URI, and the response type and PKCE are
in order for the client that sends it. -/
theorem parseAuthz_spec {p : Prov} {client : String} {req r : AuthzReq} {s s' : PState}
    (h : parseAuthz p client req s = (.ok (.req r), s')) :
    Presented p client r ∧ ∃ c uri, r.clientId = some c ∧ r.redirectUri = some uri ∧ OwnRedirect p c uri := by
  unfold parseAuthz at h
  split at h
  · rename_i r1 s1 h1
    have hr1 := parseRound_spec h1
    split at h
    · rename_i r2 s2 h2
      have hr2 : OwnResponseType p client r2.responseType ∧ ∃ c uri, r2.clientId = some c ∧ r2.redirectUri = some uri ∧
          OwnRedirect p c uri := by
        unfold parseAgain at h2
        split at h2
        · exact parseRound_spec h2
        · cases h2; exact hr1
      simp only [Prod.mk.injEq] at h
      obtain ⟨h3, _⟩ := h
      unfold parsePkce at h3
      split at h3
      · rename_i hp
        cases h3
        exact ⟨⟨hr2.1, by intro H P e; rw [hp] at e; cases e⟩, hr2.2⟩
      · rename_i H P hp
        obtain ⟨k1, k2, k3, k4, k5⟩ := pkceAuthnParse_spec h3
        refine ⟨⟨by rw [k2]; exact hr2.1, ?_⟩, ?_⟩
        · intro H' P' e
          rw [hp] at e; cases e
          exact k1
        · rw [k3, k4]; exact hr2.2
    · rename_i hx he
      simp only [Prod.mk.injEq] at h
      obtain ⟨rfl, rfl⟩ := h
      exact absurd rfl (hx _)
  · rename_i hx he
    simp only [Prod.mk.injEq] at h
    obtain ⟨rfl, rfl⟩ := h
    exact absurd rfl (hx _)

/-- Without detours the request is that of the client that sends it. -/
theorem parseAuthz_client {p : Prov} (hd : NoDetour p) {client : String} {req r : AuthzReq} {s s' : PState}
    (h : parseAuthz p client req s = (.ok (.req r), s')) : r.clientId = some client := by
  have hreq : ∀ {q r' : AuthzReq} {a b : PState}, doRequestUri p client q a = (.ok r', b) → r'.clientId = q.clientId := by
    intro q r' a b h
    unfold doRequestUri at h
    split at h
    · cases h; rfl
    · rw [hd.1] at h
      simp only [Bool.false_and, Bool.false_eq_true, if_false] at h
      split at h
      · cases h
      · split at h
        · cases h
        · split at h
          · simp only [Prod.mk.injEq] at h; exact hd.2 _ _ _ _ h.1
          · split at h
            · cases h
            · simp only [Prod.mk.injEq] at h; exact hd.2 _ _ _ _ h.1
  have hround : ∀ {q r' : AuthzReq} {a b : PState}, parseRound p client q a = (.ok (.req r'), b) → r'.clientId = q.clientId := by
    intro q r' a b h
    unfold parseRound at h
    split at h
    · cases h
    · rename_i r2 s2 h2
      simp only [Prod.mk.injEq] at h
      obtain ⟨_, c, uri, _, _, _, he⟩ := postParse_spec h.1
      rw [he]
      exact hreq (r' := r2) h2
  unfold parseAuthz at h
  split at h
  · rename_i r1 s1 h1
    have k1 := hround h1
    split at h
    · rename_i r2 s2 h2
      have k2 : r2.clientId = r1.clientId := by
        unfold parseAgain at h2
        split at h2
        · exact hround h2
        · cases h2; rfl
      simp only [Prod.mk.injEq] at h
      obtain ⟨h3, _⟩ := h
      unfold parsePkce at h3
      split at h3
      · cases h3; rw [k2, k1]
      · obtain ⟨_, _, k3, _⟩ := pkceAuthnParse_spec h3
        rw [k3, k2, k1]
    · rename_i hx he
      simp only [Prod.mk.injEq] at h
      obtain ⟨rfl, rfl⟩ := h
      exact absurd rfl (hx _)
  · rename_i hx he
    simp only [Prod.mk.injEq] at h
    obtain ⟨rfl, rfl⟩ := h
    exact absurd rfl (hx _)

/-! ### The world -/

/-- Who has authenticated for which client, and with which event. -/
def LoggedIn (l : List LoginRec) (u c : String) (ev : AuthnEvent) : Prop :=
  ∃ x ∈ l, x.user = u ∧ x.req.clientId = some c ∧ ev = loginEvent x.method x.time x.user

/-- `Q` follows from the checks at the authorization endpoint. -/
def Passing (p : Prov) (Q : String → AuthzReq → Prop) : Prop :=
  ∀ client req s r s' c, parseAuthz p client req s = (.ok (.req r), s') → r.clientId = some c →
    p.L.scopes.cdb.has c = true → checkUnknownScopes p.L.scopes c r.scope = .ok () → Q c r

/-- The invariant of the provider. -/
structure ProvInv (p : Prov) (U : String → Prop) (Q : String → AuthzReq → Prop) (s : PState) : Prop where
  world : GInv p.E U Q (LoggedIn s.logins) s.w
  pending : ∀ x ∈ s.pending, ∃ c, x.1.clientId = some c ∧ p.clients.has c = true ∧ Q c x.1
  cookies : ∀ k ∈ s.cookies, SidFor p.E U k.sid

theorem clean_has {p : Prov} {c uri : String} (h : OwnRedirect p c uri) : p.clients.has c = true := by
  obtain ⟨cl, _, h1, _⟩ := h
  unfold Dict.has
  rw [h1]; rfl

theorem plainCookies_of {E : Env} {U : String → Prop} (hu : ∀ u, U u → PlainName u) {cookies : List SessionCookie}
    (h : ∀ k ∈ cookies, SidFor E U k.sid) : PlainCookies E cookies := by
  intro k hk u rest hd
  obtain ⟨n, u', c, g, hg, he⟩ := h k hk
  rw [he, E.decrypt_enc n u' c g hg.2.1 hg.2.2.1 hg.2.2.2] at hd
  cases hd
  exact hu _ hg.1

theorem setup_world {E : Env} {U : String → Prop} {Q : String → AuthzReq → Prop} {LG : String → String → AuthnEvent → Prop} {w w' : World}
    (hU : ∀ n u c g, (SKey.gra u c g).Good U → ¬ U (E.encSid n [u, c, g])) (hplain : ∀ u, U u → PlainName u)
    (h : GInv E U Q LG w) {loads : List Nat → Except Exc Identity} {m : AuthnMethod} {req : AuthzReq}
    {cookies : List SessionCookie} {ru : Option (Option String)} {res : Except Exc SetupRes} {c : String}
    (hc : req.clientId = some c) (hq : Q c req) (hk : ∀ k ∈ cookies, SidFor E U k.sid)
    (ht : ∀ u c ev, LG u c ev → ev.authnTime ≤ w.now)
    (hs : setupAuth E loads m w req cookies ru = (res, w')) :
    GInv E U Q LG w' ∧ ∀ sid user, res = .ok (.session sid user) → SidFor E U sid ∧
      ∀ s, sessionOf E w'.st sid = .ok s → s.grant.authzReq = some req := by
  unfold setupAuth at hs
  have triv : ∀ {r : Except Exc SetupRes}, (r, w) = (res, w') → (∀ sid user, r ≠ .ok (.session sid user)) →
      GInv E U Q LG w' ∧ ∀ sid user, res = .ok (.session sid user) → SidFor E U sid ∧
      ∀ s, sessionOf E w'.st sid = .ok s → s.grant.authzReq = some req := by
    intro r he hne
    simp only [Prod.mk.injEq] at he
    obtain ⟨rfl, rfl⟩ := he
    exact ⟨h, fun sid user e => absurd e (hne sid user)⟩
  have hask : ∀ sid user, Except.ok (ε := Exc) (askLogin req) ≠ .ok (.session sid user) := by
    intro sid user e
    unfold askLogin at e
    split at e <;> cases e
  split at hs
  · exact triv hs (by simp)
  · split at hs
    · exact triv hs (by simp)
    · exact triv hs hask
  · rename_i i hi
    obtain ⟨k, hkm, u, c', g, rest, hd, hcl, rfl, _, _⟩ := findIdentity_spec (plainCookies_of hplain hk) hi
    rw [hc] at hcl; cases hcl
    obtain ⟨n, u', c'', g', hgood, hke⟩ := hk k hkm
    rw [hke, E.decrypt_enc n u' c'' g' hgood.2.1 hgood.2.2.1 hgood.2.2.2] at hd
    cases hd
    split at hs
    · exact triv hs (by simp)
    · split at hs
      · exact triv hs (by simp)
      · simp only [] at hs
        split at hs
        · exact triv hs hask
        · -- the session of the cookie
          have hgate : ∀ s ev, sessionOf E w.st k.sid = .ok s → s.grant.authnEvent = some ev → ev.isValid w.now = true →
              Gate E U Q LG w (.again u c req ev) := by
            intro s ev hss hev hval
            rw [hke] at hss
            have hg := session_good h hgood hss
            obtain ⟨ev', he1, he2, he3, _⟩ := hg.event
            rw [hev] at he1; cases he1
            exact ⟨⟨hgood.1, hgood.2.1, hgood.2.2.1⟩, hc, hq, he2, he3, ht _ _ _ he3, by
              unfold AuthnEvent.isValid at hval; simpa using hval⟩
          have hworld : w' = w ∨ ∃ ev s, sessionOf E w.st k.sid = .ok s ∧ s.grant.authnEvent = some ev ∧
              ev.isValid w.now = true ∧ w' = step E w (.again u c req ev) := by
            unfold reuseSession at hs
            have hfin : ∀ {x : World} {a b : String}, finishSetup E x a b = (res, w') → w' = x := by
              intro x a b hx
              unfold finishSetup at hx
              split at hx
              · simp only [Prod.mk.injEq] at hx; exact hx.2.symm
              · split at hx <;> (simp only [Prod.mk.injEq] at hx; exact hx.2.symm)
            rw [hke, E.decrypt_enc n u c g hgood.2.1 hgood.2.2.1 hgood.2.2.2] at hs
            simp only [] at hs
            split at hs
            · simp only [Prod.mk.injEq] at hs; exact .inl hs.2.symm
            · split at hs
              · simp only [Prod.mk.injEq] at hs; exact .inl hs.2.symm
              · rename_i s hss
                split at hs
                · simp only [Prod.mk.injEq] at hs; exact .inl hs.2.symm
                · split at hs
                  · split at hs
                    · simp only [Prod.mk.injEq] at hs; exact .inl hs.2.symm
                    · rename_i ev hev
                      split at hs
                      · simp only [Prod.mk.injEq] at hs; exact .inl hs.2.symm
                      · rename_i hval
                        have hval' : ev.isValid w.now = true := by simpa using hval
                        split at hs
                        · simp only [Prod.mk.injEq] at hs
                          exact .inr ⟨ev, s, by rw [hke]; exact hss, hev, hval', hs.2.symm⟩
                        · exact .inr ⟨ev, s, by rw [hke]; exact hss, hev, hval', hfin hs⟩
                  · exact .inl (hfin hs)
          refine ⟨?_, ?_⟩
          · rcases hworld with rfl | ⟨ev, s, hss, hev, hval, rfl⟩
            · exact h
            · exact gate_step hU h (hgate s ev hss hev hval)
          · intro sid user he
            subst he
            obtain ⟨u1, c1, g1, s, ev, q1, q2, q3, q4, rfl, q6⟩ := reuseSession_session hs
            rw [hc] at q2; cases q2
            rcases q6 with ⟨a1, a2, a3, rfl, rfl⟩ | ⟨a1, a2, a3, rfl, rfl, x, a6⟩
            · refine ⟨⟨n, _, _, _, hgood, hke⟩, fun s' hs' => ?_⟩
              rw [q3] at hs'; cases hs'
              exact a1
            · refine ⟨⟨_, _, _, _, ⟨hgood.1, hgood.2.1, hgood.2.2.1, E.uuid_clean _⟩, rfl⟩, fun s' hs' => ?_⟩
              obtain ⟨b1, _⟩ := authzCreateGrant_session hgood.2.1 hgood.2.2.1 a6 hs'
              rw [b1, set_clientId hc]
              rfl

theorem start_world {E : Env} {U : String → Prop} {Q : String → AuthzReq → Prop} {LG : String → String → AuthnEvent → Prop} {w w' : World}
    (hU : ∀ n u c g, (SKey.gra u c g).Good U → ¬ U (E.encSid n [u, c, g]))
    (h : GInv E U Q LG w) {m : AuthnMethod} {req : AuthzReq} {user : String} {res : Except Exc String} {c : String}
    (hc : req.clientId = some c) (hq : Q c req) (hgood : (SKey.cli user c).Good U)
    (hlg : LG user c (loginEvent m w.now user))
    (hs : startSession E w m req user = (res, w')) :
    GInv E U Q LG w' ∧ ∀ sid, res = .ok sid → SidFor E U sid ∧
      ∀ s, sessionOf E w'.st sid = .ok s → s.grant.authzReq = some req := by
  unfold startSession at hs
  rw [hc] at hs
  simp only [] at hs
  have hg := gate_step hU h (op := .login user c req (loginEvent m w.now user)) ⟨hgood, hc, hq, rfl, hlg, rfl⟩
  split at hs
  · simp only [Prod.mk.injEq] at hs
    obtain ⟨rfl, rfl⟩ := hs
    exact ⟨hg, by simp⟩
  · rename_i x hx
    simp only [Prod.mk.injEq] at hs
    obtain ⟨rfl, rfl⟩ := hs
    refine ⟨hg, ?_⟩
    rintro sid ⟨rfl⟩
    refine ⟨⟨_, _, _, _, ⟨hgood.1, hgood.2.1, hgood.2.2, E.uuid_clean _⟩, rfl⟩, fun s hs' => ?_⟩
    obtain ⟨b1, _⟩ := authzCreateSession_session hgood.2.1 hgood.2.2 hx hs'
    rw [b1, set_clientId hc]
    rfl

theorem cookieOf_sid {E : Env} {w : World} {sid : String} {req : AuthzReq} {k : SessionCookie} (h : cookieOf E w sid req = some k) :
    k.sid = sid := by
  unfold cookieOf at h
  split at h
  · split at h
    · cases h; rfl
    · cases h
  · cases h

theorem settle_logins (s : PState) (req : AuthzReq) (x : Except Exc ProcRes × World) : (settle s req x).logins = s.logins := by
  unfold settle; split <;> rfl

theorem settle_inv {p : Prov} {U : String → Prop} {Q : String → AuthzReq → Prop} {s : PState} (h : ProvInv p U Q s)
    {req : AuthzReq} {x : Except Exc ProcRes × World} (hw : GInv p.E U Q (LoggedIn s.logins) x.2) {c : String}
    (hreq : req.clientId = some c) (hcl : p.clients.has c = true)
    (hq : ∀ m, x.1 = .ok (.loginPage m) → Q c req)
    (hk : ∀ sid user k, x.1 = .ok (.part2 sid user (some k)) → SidFor p.E U k.sid) : ProvInv p U Q (settle s req x) := by
  unfold settle
  split
  · rename_i m w
    refine ⟨hw, ?_, h.cookies⟩
    intro y hy
    simp only [List.mem_append, List.mem_singleton] at hy
    rcases hy with hy | rfl
    · exact h.pending y hy
    · exact ⟨c, hreq, hcl, hq _ rfl⟩
  · rename_i k w
    refine ⟨hw, h.pending, ?_⟩
    intro y hy
    simp only [List.mem_append, List.mem_singleton] at hy
    rcases hy with hy | rfl
    · exact h.cookies y hy
    · exact hk _ _ _ rfl
  · exact ⟨hw, h.pending, h.cookies⟩

theorem loggedIn_time {l : List LoginRec} {now : Int} (h : ∀ x ∈ l, x.time ≤ now) (u c : String) (ev : AuthnEvent)
    (hl : LoggedIn l u c ev) : ev.authnTime ≤ now := by
  obtain ⟨x, hx, -, -, rfl⟩ := hl
  exact h x hx

theorem process_world {p : Prov} {U : String → Prop} {Q : String → AuthzReq → Prop} {s : PState} (hn : Names p U)
    (h : ProvInv p U Q s) {req : AuthzReq} {hint : List String} {cookies : List SessionCookie}
    {ru : Option (Option String)} {c : String} (hreq : req.clientId = some c) (hcl : p.clients.has c = true)
    (hq : p.L.scopes.cdb.has c = true → checkUnknownScopes p.L.scopes c req.scope = .ok () → Q c req)
    (hk : ∀ k ∈ cookies, SidFor p.E U k.sid) (ht : ∀ x ∈ s.logins, x.time ≤ s.w.now) :
    ProvInv p U Q (settle s req (processAuthz p.L p.E s.w req hint cookies ru)) := by
  have hstay : ∀ e : Exc, ProvInv p U Q (settle s req (.error e, s.w)) := fun e =>
    settle_inv h h.world hreq hcl (by simp) (by simp)
  unfold processAuthz
  rw [hreq]
  simp only []
  split
  · exact hstay _
  · rename_i hhas
    split
    · exact hstay _
    · rename_i hsc
      have hQ : Q c req := hq (by simpa using hhas) (by rw [hsc])
      split
      · exact hstay _
      · rename_i m hm
        split
        · rename_i e w' he
          obtain ⟨g1, _⟩ := setup_world hn.sids (fun u hu => (hn.users u hu).2) h.world hreq hQ hk (loggedIn_time ht) he
          exact settle_inv h g1 hreq hcl (by simp) (by simp)
        · rename_i w' he
          obtain ⟨g1, _⟩ := setup_world hn.sids (fun u hu => (hn.users u hu).2) h.world hreq hQ hk (loggedIn_time ht) he
          exact settle_inv h g1 hreq hcl (fun _ _ => hQ) (by simp)
        · rename_i w' he
          obtain ⟨g1, _⟩ := setup_world hn.sids (fun u hu => (hn.users u hu).2) h.world hreq hQ hk (loggedIn_time ht) he
          exact settle_inv h g1 hreq hcl (by simp) (by simp)
        · rename_i sid user w' he
          obtain ⟨g1, g2⟩ := setup_world hn.sids (fun u hu => (hn.users u hu).2) h.world hreq hQ hk (loggedIn_time ht) he
          obtain ⟨g3, g4⟩ := g2 sid user rfl
          refine settle_inv h (gate_step hn.sids g1 (op := .authorize sid req) ⟨g3, g4⟩) hreq hcl (by simp) ?_
          intro sid' user' k hk'
          simp only [Except.ok.injEq, ProcRes.part2.injEq] at hk'
          obtain ⟨_, _, hk3⟩ := hk'
          rw [cookieOf_sid hk3]
          exact g3

theorem parStep_fields {client : String} {s s' : PState} (h : ParStep client s s') :
    s'.w = s.w ∧ s'.pending = s.pending ∧ s'.cookies = s.cookies ∧ s'.logins = s.logins := by
  cases h <;> exact ⟨rfl, rfl, rfl, rfl⟩

theorem pinv_par {p : Prov} {U : String → Prop} {Q : String → AuthzReq → Prop} {client : String} (s s' : PState)
    (h : ProvInv p U Q s) (hs : ParStep client s s') : ProvInv p U Q s' := by
  obtain ⟨h1, h2, h3, h4⟩ := parStep_fields hs
  exact ⟨by rw [h1, h4]; exact h.world, by rw [h2]; exact h.pending, by rw [h3]; exact h.cookies⟩

theorem token_world {p : Prov} {U : String → Prop} {Q : String → AuthzReq → Prop} {LG : String → String → AuthnEvent → Prop} {w : World}
    (hU : ∀ n u c g, (SKey.gra u c g).Good U → ¬ U (p.E.encSid n [u, c, g])) (h : GInv p.E U Q LG w) (client : String)
    (req : TokenReq) : GInv p.E U Q LG (tokenEndpointParse p w client req) := by
  have hstep := gate_step hU h (op := .parse client req) trivial
  unfold tokenEndpointParse
  split
  · exact hstep
  · rename_i H P hp
    have hst : step p.E w (.parse client req) = (match tokenParse p.E w client { req with clientId := some client } with
      | (.ok (.req r), w') => { w' with pool := w'.pool ++ [r] }
      | (_, w') => w') := rfl
    rw [hst] at hstep
    simp only [pstep, tokenParseP]
    cases hx : tokenParse p.E w client { req with clientId := some client } with
    | mk res w' =>
      rw [hx] at hstep
      cases res with
      | error e => exact hstep
      | ok pr =>
        cases pr with
        | err e => exact hstep
        | req r =>
          have hww := tokenParse_accepted hx
          subst hww
          simp only [] at hstep ⊢
          split
          · rename_i r' w' he
            simp only [Prod.mk.injEq] at he
            obtain ⟨he1, rfl⟩ := he
            have : r' = r := by
              unfold pkceTokenParse at he1
              repeat' split at he1
              all_goals first
                | (cases he1; done)
                | (cases he1; rfl)
            subst this
            exact hstep
          · rename_i x w' _ he
            simp only [Prod.mk.injEq] at he
            obtain ⟨_, rfl⟩ := he
            exact h

theorem pinv_provStep {p : Prov} {U : String → Prop} {Q : String → AuthzReq → Prop} (hn : Names p U) (hQ : Passing p Q)
    {s : PState} (h : ProvInv p U Q s) (ht : ∀ x ∈ s.logins, x.time ≤ s.w.now) {op : POp} (hf : FairP p U op) :
    ProvInv p U Q (provStep p s op) := by
  have plain : ∀ wop : WOp, Gate p.E U Q (LoggedIn s.logins) s.w wop → ProvInv p U Q { s with w := step p.E s.w wop } :=
    fun wop hg => ⟨gate_step hn.sids h.world hg, h.pending, h.cookies⟩
  cases op with
  | tick d => exact plain (.tick d) trivial
  | push client req =>
    have h1 := parsePush_par (I := ProvInv p U Q) (client := client) pinv_par p req h
    simp only [provStep]
    split
    · rename_i r s' he
      rw [he] at h1
      exact ⟨h1.world, h1.pending, h1.cookies⟩
    · rename_i x s' _ he; rw [he] at h1; exact h1
  | request client req cookies hint ru =>
    have h1 := parseAuthz_par (I := ProvInv p U Q) (client := client) pinv_par p req h
    simp only [provStep]
    split
    · rename_i r s' he
      have h2 := parseAuthz_par (I := fun s' => ∀ x ∈ s'.logins, x.time ≤ s'.w.now) (client := client)
        (fun a b ha hab => by obtain ⟨e1, _, _, e4⟩ := parStep_fields hab; rw [e1, e4]; exact ha) p req ht
      rw [he] at h1 h2
      obtain ⟨_, c, uri, k1, k2, k3⟩ := parseAuthz_spec he
      refine process_world hn h1 k1 (clean_has k3) (fun a b => hQ _ _ _ _ _ _ he k1 a b) ?_ h2
      intro k hk
      unfold pickCookies at hk
      rw [List.mem_filterMap] at hk
      obtain ⟨i, _, hi⟩ := hk
      exact h.cookies k (List.mem_of_getElem? hi)
    · rename_i x s' _ he; rw [he] at h1; exact h1
  | loggedIn i user =>
    simp only [provStep]
    split
    · exact h
    · rename_i req m hi
      obtain ⟨c, k1, k2, k3⟩ := h.pending _ (List.mem_of_getElem? hi)
      have h0 : ProvInv p U Q { s with logins := s.logins ++ [⟨user, req, m, s.w.now⟩] } :=
        ⟨h.world.mono (by rintro u c ev ⟨r, hr, he⟩; exact ⟨r, List.mem_append_left _ hr, he⟩), h.pending, h.cookies⟩
      have hlg : LoggedIn (s.logins ++ [⟨user, req, m, s.w.now⟩]) user c (loginEvent m s.w.now user) :=
        ⟨_, List.mem_append_right _ (List.mem_singleton.2 rfl), rfl, k1, rfl⟩
      have hgood : (SKey.cli user c).Good U := ⟨hf, (hn.users user hf).1, (hn.clients c k2).1⟩
      unfold finishLogin
      split
      · rename_i e w' he
        obtain ⟨g1, _⟩ := start_world hn.sids h0.world k1 k3 hgood hlg he
        exact ⟨g1, h.pending, h.cookies⟩
      · rename_i sid w' he
        obtain ⟨g1, g2⟩ := start_world hn.sids h0.world k1 k3 hgood hlg he
        obtain ⟨g3, g4⟩ := g2 sid rfl
        refine settle_inv h0 (gate_step hn.sids g1 (op := .authorize sid req) ⟨g3, g4⟩) k1 k2 (by simp) ?_
        intro sid' user' k hk'
        simp only [Except.ok.injEq, ProcRes.part2.injEq] at hk'
        rw [cookieOf_sid hk'.2.2]
        exact g3
  | token client req => exact ⟨token_world hn.sids h.world client req, h.pending, h.cookies⟩
  | redeem i kw => exact plain (.process i kw) trivial
  | revokeToken sid v rec => exact plain (.revokeToken sid v rec) hf
  | revokeGrant sid => exact plain (.revokeGrant sid) hf
  | revokeClientSession sid => exact plain (.revokeClientSession sid) hf
  | removeSession sid => exact plain (.removeSession sid) ⟨rfl, hf⟩

/-! ### Time -/

theorem step_now (E : Env) {w : World} (hw : Reachable E w) (op : WOp) : w.now ≤ (step E w op).now :=
  (mono_chain (step_spec (winv_reachable hw) (sidClosed_true E) op (fun _ _ _ => trivial)).1).2

theorem setupAuth_now (E : Env) (loads : List Nat → Except Exc Identity) (m : AuthnMethod) (w : World) (req : AuthzReq)
    (cookies : List SessionCookie) (ru : Option (Option String)) : (setupAuth E loads m w req cookies ru).2.now = w.now := by
  have hst : ∀ u, (startSession E w m req u).2.now = w.now := by
    intro u
    unfold startSession
    split
    · rfl
    · simp only []
      split <;> rfl
  have hfin : ∀ (x : World) a b, (finishSetup E x a b).2.now = x.now := by
    intro x a b
    unfold finishSetup
    split
    · rfl
    · split <;> rfl
  unfold setupAuth
  split
  · rfl
  · split <;> rfl
  · split
    · rfl
    · split
      · rfl
      · split
        · rfl
        · split
          · rfl
          · split
            · unfold reuseSession
              repeat' split
              all_goals first
                | rfl
                | exact hfin ..
            · rename_i u _ _ _ _
              have := hst u
              split <;> (rename_i he; rw [he] at this; exact this)

theorem settle_now (s : PState) (req : AuthzReq) (x : Except Exc ProcRes × World) : (settle s req x).w = x.2 := by
  unfold settle; split <;> rfl

theorem commit_now (w : World) (s : Sess) (gs : GS) : (w.commit s gs).now = w.now := rfl

theorem postAuthentication_now (E : Env) (w : World) (sid : String) (req : AuthzReq) :
    (postAuthentication E w sid req).2.now = w.now := by
  unfold postAuthentication
  repeat' split
  all_goals rfl

theorem authzPart2_now (E : Env) (w : World) (sid : String) (req : AuthzReq) : (authzPart2 E w sid req).now = w.now := by
  have h := postAuthentication_now E w sid req
  unfold authzPart2
  split
  · rename_i he
    rw [he] at h
    split <;> exact h
  · rename_i he
    rw [he] at h
    exact h

theorem processAuthz_now (L : LoginCfg) (E : Env) (w : World) (req : AuthzReq) (hint : List String)
    (cookies : List SessionCookie) (ru : Option (Option String)) : (processAuthz L E w req hint cookies ru).2.now = w.now := by
  unfold processAuthz
  split
  · rfl
  · split
    · rfl
    · split
      · rfl
      · split
        · rfl
        · rename_i m _
          have h := setupAuth_now E L.loads m w req cookies ru
          split
          all_goals
            rename_i he
            rw [he] at h
            first
              | exact h
              | (simp only []; rw [authzPart2_now]; exact h)

theorem tokenEndpointParse_now (p : Prov) (w : World) (client : String) (req : TokenReq) :
    w.now ≤ (tokenEndpointParse p w client req).now := by
  have h := (mono_chain (tokenParse_spec p.E (fun _ => True) w client { req with clientId := some client }).1).2
  unfold tokenEndpointParse
  split
  · simp only [step]
    split
    · rename_i he; rw [he] at h; exact h
    · rename_i he; rw [he] at h; exact h
  · simp only [pstep, tokenParseP]
    split
    · rename_i he
      split at he
      · rename_i he2; rw [he2] at h; simp only [Prod.mk.injEq] at he; rw [← he.2]; exact h
      · rename_i he2; rw [he2] at h; simp only [Prod.mk.injEq] at he; rw [← he.2]; exact h
    · rename_i he
      split at he
      · rename_i he2; rw [he2] at h; simp only [Prod.mk.injEq] at he; rw [← he.2]; exact h
      · rename_i he2; rw [he2] at h; simp only [Prod.mk.injEq] at he; rw [← he.2]; exact h

theorem finishLogin_now (p : Prov) (s : PState) (req : AuthzReq) (m : AuthnMethod) (user : String) :
    (finishLogin p s req m user).w.now = s.w.now ∧ (finishLogin p s req m user).logins = s.logins := by
  have hst : (startSession p.E s.w m req user).2.now = s.w.now := by
    unfold startSession
    split
    · rfl
    · simp only []
      split <;> rfl
  unfold finishLogin
  split
  · rename_i he; rw [he] at hst; exact ⟨hst, rfl⟩
  · rename_i he
    rw [he] at hst
    rw [settle_now, settle_logins]
    exact ⟨by simp only []; rw [authzPart2_now]; exact hst, rfl⟩

/-- Logins are not in the future. -/
theorem times_provStep {p : Prov} {s : PState} (hr : Reachable p.E s.w) (h : ∀ x ∈ s.logins, x.time ≤ s.w.now) (op : POp) :
    ∀ x ∈ (provStep p s op).logins, x.time ≤ (provStep p s op).w.now := by
  have hpar : ∀ (client : String) (a b : PState), (∀ x ∈ a.logins, x.time ≤ a.w.now) → ParStep client a b →
      ∀ x ∈ b.logins, x.time ≤ b.w.now := by
    intro client a b ha hab
    obtain ⟨e1, _, _, e4⟩ := parStep_fields hab
    rw [e1, e4]; exact ha
  have plain : ∀ wop : WOp, ∀ x ∈ s.logins, x.time ≤ (step p.E s.w wop).now :=
    fun wop x hx => Int.le_trans (h x hx) (step_now p.E hr wop)
  cases op with
  | push client req =>
    have h1 := parsePush_par (I := fun s' => ∀ x ∈ s'.logins, x.time ≤ s'.w.now) (hpar client) p req h
    simp only [provStep]
    split
    · rename_i r s' he; rw [he] at h1; exact h1
    · rename_i x s' _ he; rw [he] at h1; exact h1
  | request client req cookies hint ru =>
    have h1 := parseAuthz_par (I := fun s' => ∀ x ∈ s'.logins, x.time ≤ s'.w.now) (hpar client) p req h
    simp only [provStep]
    split
    · rename_i r s' he
      rw [he] at h1
      rw [settle_now, settle_logins, processAuthz_now]
      exact h1
    · rename_i x s' _ he; rw [he] at h1; exact h1
  | loggedIn i user =>
    simp only [provStep]
    split
    · exact h
    · rename_i req m hi
      obtain ⟨e1, e2⟩ := finishLogin_now p { s with logins := s.logins ++ [⟨user, req, m, s.w.now⟩] } req m user
      rw [e1, e2]
      intro x hx
      simp only [List.mem_append, List.mem_singleton] at hx
      rcases hx with hx | rfl
      · exact h x hx
      · exact Int.le_refl _
  | token client req => exact fun x hx => Int.le_trans (h x hx) (tokenEndpointParse_now p s.w client req)
  | tick d => exact plain (.tick d)
  | redeem i kw => exact plain (.process i kw)
  | revokeToken sid v rec => exact plain (.revokeToken sid v rec)
  | revokeGrant sid => exact plain (.revokeGrant sid)
  | revokeClientSession sid => exact plain (.revokeClientSession sid)
  | removeSession sid => exact plain (.removeSession sid)

theorem pinv_times {p : Prov} {U : String → Prop} {Q : String → AuthzReq → Prop} (hn : Names p U) (hQ : Passing p Q)
    (now : Int) (ops : List POp) (hf : ∀ op ∈ ops, FairP p U op) :
    ProvInv p U Q (provHistory p now ops) ∧
      ∀ x ∈ (provHistory p now ops).logins, x.time ≤ (provHistory p now ops).w.now := by
  have h0 : ProvInv p U Q { w := { now := now } } := ⟨ginv_init _ _ _ _ _, by simp, by simp⟩
  have t0 : ∀ x ∈ ({ w := { now := now } } : PState).logins, x.time ≤ ({ w := { now := now } } : PState).w.now := by simp
  unfold provHistory provRun
  generalize ({ w := { now := now } } : PState) = s at h0 t0
  induction ops generalizing s with
  | nil => exact ⟨h0, t0⟩
  | cons op r ih =>
    exact ih (fun o ho => hf o (by simp [ho])) _ (pinv_provStep hn hQ h0 t0 (hf op (by simp)))
      (times_provStep h0.world.reach t0 op)

theorem pinv_history {p : Prov} {U : String → Prop} {Q : String → AuthzReq → Prop} (hn : Names p U) (hQ : Passing p Q)
    (now : Int) (ops : List POp) (hf : ∀ op ∈ ops, FairP p U op) : ProvInv p U Q (provHistory p now ops) :=
  (pinv_times hn hQ now ops hf).1

end OidcOp
