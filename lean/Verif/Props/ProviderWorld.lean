/-
What a provider does to its sessions is a history of the operations in Model/World.lean: every theorem about all such histories is one
about the provider.
-/
import Verif.Lemmas.Provider
import Verif.Props.Pkce
import Verif.Props.ProviderExamples

namespace OidcOp
open Spec

/-- The world is reached by operations that are not token requests. -/
def Plainly (E : Env) (w w' : World) : Prop :=
  ∃ wops : List WOp, (∀ op ∈ wops, ∀ c r, op ≠ .parse c r) ∧ w' = run E w wops

theorem Plainly.refl (E : Env) (w : World) : Plainly E w w := ⟨[], by simp, rfl⟩

theorem Plainly.step {E : Env} {w w' : World} (h : Plainly E w w') (op : WOp) (hop : ∀ c r, op ≠ .parse c r) :
    Plainly E w (step E w' op) := by
  obtain ⟨l, h1, rfl⟩ := h
  refine ⟨l ++ [op], ?_, ?_⟩
  · intro o ho
    rcases List.mem_append.1 ho with ho | ho
    · exact h1 o ho
    · rw [List.mem_singleton] at ho; subst ho; exact hop
  · unfold run; rw [List.foldl_append]; rfl

theorem startSession_plainly (E : Env) (w : World) (m : AuthnMethod) (req : AuthzReq) (user : String) :
    Plainly E w (startSession E w m req user).2 := by
  unfold startSession
  split
  · exact .refl E w
  · rename_i c _
    have : Plainly E w (step E w (.login user c req (loginEvent m w.now user))) := (Plainly.refl E w).step _ (by simp)
    simp only []
    split <;> exact this

theorem setupAuth_plainly (E : Env) (loads : List Nat → Except Exc Identity) (m : AuthnMethod) (w : World) (req : AuthzReq)
    (cookies : List SessionCookie) (ru : Option (Option String)) : Plainly E w (setupAuth E loads m w req cookies ru).2 := by
  have hfin : ∀ (x : World) a b, (finishSetup E x a b).2 = x := by
    intro x a b
    unfold finishSetup
    split
    · rfl
    · split <;> rfl
  have hr := Plainly.refl E w
  unfold setupAuth
  split
  · exact hr
  · split <;> exact hr
  · split
    · exact hr
    · split
      · exact hr
      · split
        · exact hr
        · rename_i user _
          split
          · exact hr
          · split
            · rename_i sid _
              unfold reuseSession
              split
              · exact hr
              · rename_i c _ _
                split
                · exact hr
                · split
                  · exact hr
                  · split
                    · exact hr
                    · split
                      · split
                        · exact hr
                        · rename_i ev _
                          have hs : Plainly E w (step E w (.again user c req ev)) := hr.step _ (by simp)
                          split
                          · exact hr
                          · split
                            · exact hs
                            · rw [hfin]; exact hs
                      · rw [hfin]; exact hr
              · exact hr
            · have hs := startSession_plainly E w m req user
              split
              · rename_i he; rw [he] at hs; exact hs
              · rename_i he; rw [he] at hs; exact hs

theorem Plainly.trans {E : Env} {a b c : World} (h1 : Plainly E a b) (h2 : Plainly E b c) : Plainly E a c := by
  obtain ⟨l, h3, rfl⟩ := h1
  obtain ⟨l', h4, rfl⟩ := h2
  refine ⟨l ++ l', ?_, by unfold run; rw [List.foldl_append]⟩
  intro o ho
  rcases List.mem_append.1 ho with ho | ho
  · exact h3 o ho
  · exact h4 o ho

theorem processAuthz_plainly (L : LoginCfg) (E : Env) (w : World) (req : AuthzReq) (hint : List String)
    (cookies : List SessionCookie) (ru : Option (Option String)) : Plainly E w (processAuthz L E w req hint cookies ru).2 := by
  have hr := Plainly.refl E w
  unfold processAuthz
  split
  · exact hr
  · split
    · exact hr
    · split
      · exact hr
      · split
        · exact hr
        · rename_i m _
          have h := setupAuth_plainly E L.loads m w req cookies ru
          split
          · rename_i he; rw [he] at h; exact h
          · rename_i he; rw [he] at h; exact h
          · rename_i he; rw [he] at h; exact h
          · rename_i sid user w' he
            rw [he] at h
            exact h.step (.authorize sid req) (by simp)

/-- What one thing that happens to the provider does to its sessions. -/
theorem provStep_world (p : Prov) (s : PState) (op : POp) :
    (∃ client req, op = .token client req ∧ (provStep p s op).w = tokenEndpointParse p s.w client req) ∨
      Plainly p.E s.w (provStep p s op).w := by
  have hpar : ∀ (client : String) (a b : PState), a.w = s.w → ParStep client a b → b.w = s.w := by
    intro client a b ha hab
    rw [(parStep_fields hab).1]; exact ha
  have hr := Plainly.refl p.E s.w
  cases op with
  | push client req =>
    have h1 := parsePush_par (I := fun s' => s'.w = s.w) (hpar client) p req (s := s) rfl
    right
    simp only [provStep]
    split
    · rename_i r s' he
      rw [he] at h1
      show Plainly p.E s.w s'.w
      rw [h1]; exact hr
    · rename_i x s' _ he
      rw [he] at h1
      rw [h1]; exact hr
  | request client req cookies hint ru =>
    have h1 := parseAuthz_par (I := fun s' => s'.w = s.w) (hpar client) p req (s := s) rfl
    right
    simp only [provStep]
    split
    · rename_i r s' he
      rw [he] at h1
      simp only [] at h1
      rw [settle_now, h1]
      exact processAuthz_plainly ..
    · rename_i x s' _ he
      rw [he] at h1
      rw [h1]; exact hr
  | loggedIn i user =>
    right
    simp only [provStep]
    split
    · exact hr
    · rename_i req m hi
      have hst := startSession_plainly p.E s.w m req user
      unfold finishLogin
      split
      · rename_i he; simp only [] at he; rw [he] at hst; exact hst
      · rename_i sid w' he
        simp only [] at he
        rw [he] at hst
        rw [settle_now]
        exact hst.step (.authorize sid req) (by simp)
  | token client req => exact .inl ⟨client, req, rfl, rfl⟩
  | tick d => exact .inr (hr.step (.tick d) (by simp))
  | redeem i kw => exact .inr (hr.step (.process i kw) (by simp))
  | revokeToken sid v rec => exact .inr (hr.step (.revokeToken sid v rec) (by simp))
  | revokeGrant sid => exact .inr (hr.step (.revokeGrant sid) (by simp))
  | revokeClientSession sid => exact .inr (hr.step (.revokeClientSession sid) (by simp))
  | removeSession sid => exact .inr (hr.step (.removeSession sid) (by simp))

/-- With PKCE too, a token request is parsed as without, or changes nothing. -/
theorem tokenEndpointParse_step (p : Prov) (w : World) (client : String) (req : TokenReq) :
    tokenEndpointParse p w client req = step p.E w (.parse client req) ∨ tokenEndpointParse p w client req = w := by
  unfold tokenEndpointParse
  split
  · exact .inl rfl
  · rename_i H P hp
    have hst : step p.E w (.parse client req) = (match tokenParse p.E w client { req with clientId := some client } with
      | (.ok (.req r), w') => { w' with pool := w'.pool ++ [r] }
      | (_, w') => w') := rfl
    rw [hst]
    simp only [pstep, tokenParseP]
    cases hx : tokenParse p.E w client { req with clientId := some client } with
    | mk res w' =>
      cases res with
      | error e => exact .inl rfl
      | ok pr =>
        cases pr with
        | err e => exact .inl rfl
        | req r =>
          have hww := tokenParse_accepted hx
          subst hww
          simp only []
          split
          · rename_i r' w' he
            simp only [Prod.mk.injEq] at he
            obtain ⟨he1, rfl⟩ := he
            have : r' = r := by
              unfold pkceTokenParse at he1
              repeat' split at he1
              all_goals first
                | (cases he1; done)
                | (cases he1; rfl)
            subst this
            exact .inl rfl
          · rename_i x w' _ he
            simp only [Prod.mk.injEq] at he
            obtain ⟨_, rfl⟩ := he
            exact .inr rfl

/-- The sessions of a provider, after whatever history, are in a state that the operations of Model/World.lean lead to. -/
theorem provider_world (p : Prov) (now : Int) (ops : List POp) :
    ∃ wops, (provHistory p now ops).w = run p.E { now := now } wops := by
  have key : ∀ (ops : List POp) (s : PState), (∃ wops, s.w = run p.E { now := now } wops) →
      ∃ wops, (provRun p s ops).w = run p.E { now := now } wops := by
    intro ops
    induction ops with
    | nil => exact fun s h => h
    | cons op r ih =>
      intro s ⟨l, hl⟩
      refine ih (provStep p s op) ?_
      rcases provStep_world p s op with ⟨client, req, -, h⟩ | ⟨l', -, h⟩
      · rcases tokenEndpointParse_step p s.w client req with h' | h'
        · refine ⟨l ++ [.parse client req], ?_⟩
          rw [h, h', hl]; unfold run; rw [List.foldl_append]; rfl
        · exact ⟨l, by rw [h, h', hl]⟩
      · refine ⟨l ++ l', ?_⟩
        rw [h, hl]; unfold run; rw [List.foldl_append]
  exact key ops _ ⟨[], rfl⟩

theorem provider_reachable (p : Prov) (now : Int) (ops : List POp) : Reachable p.E (provHistory p now ops).w := by
  obtain ⟨wops, h⟩ := provider_world p now ops
  exact ⟨now, wops, h⟩

theorem pinv_plainly {E : Env} {H : CCHash} {w w' : World} (h : PInv E H w) (hp : Plainly E w w') : PInv E H w' := by
  obtain ⟨l, h1, rfl⟩ := hp
  induction l generalizing w with
  | nil => exact h
  | cons op r ih =>
    refine ih ?_ (fun o ho => h1 o (by simp [ho]))
    have hne := h1 op (by simp)
    obtain ⟨hc, hws, hl⟩ := step_spec h.winv (sidClosed_true E) op (fun _ _ _ => trivial)
    refine pinv_step h op _ rfl rfl hws ?_
    intro req hr
    rcases pool_step h.winv op req hr with h2 | ⟨c, r0, rfl, _⟩
    · exact .inl h2
    · exact absurd rfl (hne c r0)

/-- C28, for the whole provider.  With PKCE switched on, whatever happens: a token response for a code was given only to a request that
proves possession of the verifier for the authorization request of the grant that the code belongs to. -/
theorem C28_provider (p : Prov) (H : CCHash) (P : PkceCfg) (hp : p.pkce = some (H, P)) (now : Int) (ops : List POp)
    (ref : Nat) (client v : String) (req : TokenReq) (resp : TokenResp)
    (h : Event.token ref client false v req resp ∈ (provHistory p now ops).w.log) :
    ∃ g t ar, GrantAt (provHistory p now ops).w ref g ∧ t ∈ g.issuedToken ∧ t.value = v ∧ g.authzReq = some ar ∧ Proven H ar req := by
  have key : ∀ (ops : List POp) (s : PState), PInv p.E H s.w → PInv p.E H (provRun p s ops).w := by
    intro ops
    induction ops with
    | nil => exact fun s h => h
    | cons op r ih =>
      intro s hs
      refine ih (provStep p s op) ?_
      rcases provStep_world p s op with ⟨client, req, -, h⟩ | h
      · rw [h]
        unfold tokenEndpointParse
        rw [hp]
        exact pinv_pstep hs _
      · exact pinv_plainly hs h
  obtain ⟨r, g, i, t, ar, h1, h2, h3, h4, h5, h6⟩ :=
    (key ops { w := { now := now } } (pinv_init p.E H now)).log _ h _ _ _ _ _ rfl
  have := h6 ref rfl
  subst this
  exact ⟨g, t, ar, grantAt_spec.2 h1, List.mem_of_getElem? h2, h3, h4, h5⟩

end OidcOp

namespace OidcOp.Ex
open OidcOp Spec

/-- The whole flow at a provider with PKCE. -/
def pkceSession (verifier : Option String) : List POp :=
  [.request "c1" pkceReq [] [] none, .loggedIn 0 "d", .tick 5,
   .token "c1" { codeReq (E.mkVal 1 .authorizationCode (sid "c1" 0)) with codeVerifier := verifier }, .redeem 0 none]

/-- C28: the right verifier gets a token response; a wrong one and none do not. -/
example : (provHistory provPkce 1000 (pkceSession (some "abc"))).w.log.countP
      (isCodeResponse (E.mkVal 1 .authorizationCode (sid "c1" 0))) = 1 ∧
    (provHistory provPkce 1000 (pkceSession (some "abd"))).w.log.length = 1 ∧
    (provHistory provPkce 1000 (pkceSession none)).w.log.length = 1 ∧
    provPkce.pkce = some (hash, pkce) := by
  refine ⟨by decide +kernel, by decide +kernel, by decide +kernel, rfl⟩

end OidcOp.Ex
