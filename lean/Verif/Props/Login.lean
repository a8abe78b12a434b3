/-
C37-C40: when the authorization endpoint asks for authentication.
-/
import Verif.Lemmas.Login
import Verif.Props.WorldExamples

namespace OidcOp
open Spec

theorem reuseSession_session {E : Env} {w w' : World} {req : AuthzReq} {user sid0 sid user' : String}
    (h : reuseSession E w req user sid0 = (.ok (.session sid user'), w')) :
    ∃ u c g s ev, E.decrypt sid0 = .ok [u, c, g] ∧ req.clientId = some c ∧ sessionOf E w.st sid0 = .ok s ∧
      s.grant.isActive w.now = true ∧ user' = user ∧
      ((s.grant.authzReq = some req ∧ s.grant.authnEvent = some ev ∧ w.now < ev.validUntil ∧ sid = sid0 ∧ w' = w) ∨
       (s.grant.authzReq ≠ some req ∧ s.grant.authnEvent = some ev ∧ w.now < ev.validUntil ∧
         sid = E.encSid w.n [user, c, E.uuid w.n] ∧ w' = authzCreateGrant E w user c req ev ∧
         ∃ x, (createGrant user c (newGrant E w user { req with clientId := some c } ev []) w.st).1 = .ok x)) := by
  have fin : ∀ {w1 w2 : World} {a b : String}, finishSetup E w1 a b = (.ok (.session sid user'), w2) →
      w2 = w1 ∧ sid = a ∧ user' = b ∧ ∃ s ev, sessionOf E w1.st a = .ok s ∧ s.grant.authnEvent = some ev ∧
        w1.now < ev.validUntil := by
    intro w1 w2 a b hf
    unfold finishSetup eventOf at hf
    cases hs : sessionOf E w1.st a with
    | error e => rw [hs] at hf; cases hf
    | ok s =>
      rw [hs] at hf
      simp only [] at hf
      cases he : s.grant.authnEvent with
      | none => rw [he] at hf; cases hf
      | some ev =>
        rw [he] at hf
        simp only [] at hf
        split at hf
        · rename_i hv
          simp only [Prod.mk.injEq, Except.ok.injEq, SetupRes.session.injEq] at hf
          exact ⟨hf.2.symm, hf.1.1.symm, hf.1.2.symm, s, ev, rfl, he, by simpa [AuthnEvent.isValid] using hv⟩
        · cases hf
  unfold reuseSession at h
  split at h
  · cases h
  · rename_i u c g hd
    split at h
    · cases h
    · rename_i hcl
      split at h
      · cases h
      · rename_i s hs
        split at h
        · cases h
        · rename_i hact
          have hact' : s.grant.isActive w.now = true := by simpa using hact
          split at h
          · rename_i hreq
            split at h
            · cases h
            · rename_i ev hev
              split at h
              · cases h
              · rename_i hval
                split at h
                · cases h
                · rename_i x hx
                  obtain ⟨h1, h2, h3, _⟩ := fin h
                  exact ⟨u, c, g, s, ev, hd, Decidable.not_not.1 hcl, hs, hact', h3, .inr ⟨fun e => hreq e.symm, hev,
                    by simpa [AuthnEvent.isValid] using hval, h2, h1, x, hx⟩⟩
          · rename_i hreq
            obtain ⟨h1, h2, h3, s1, ev, h4, h5, h6⟩ := fin h
            rw [hs] at h4
            cases h4
            exact ⟨u, c, g, s, ev, hd, Decidable.not_not.1 hcl, hs, hact', h3,
              .inl ⟨(Decidable.not_not.1 hreq).symm, h5, h6, h2, h1⟩⟩
  · cases h

/-- C38, for user names that do not look like base64url (see the refutation below).  A request is let through without
authentication only with a cookie for the same client and the user it is let through as, made for a session whose grant
is active and whose authentication event is valid, if no other user was asked for and prompt=login was not.  The session
that is used is the one of the cookie if it was for the same request, or else a new one of the same user and client with
the same authentication event. -/
theorem C38_reuse_partial (E : Env) (loads : List Nat → Except Exc Identity) (m : AuthnMethod) (w w' : World)
    (req : AuthzReq) (cookies : List SessionCookie) (reqUser : Option (Option String)) (sid user : String)
    (hp : PlainCookies E cookies)
    (h : setupAuth E loads m w req cookies reqUser = (.ok (.session sid user), w')) :
    ∃ k ∈ cookies, ∃ c s ev, CookieFor E k user c ∧ req.clientId = some c ∧ sessionOf E w.st k.sid = .ok s ∧
      ItemActive s.grant.item w.now ∧ s.grant.authnEvent = some ev ∧ w.now < ev.validUntil ∧
      (∀ u, reqUser = some u → u = some user) ∧ ¬ Prompts req "login" ∧
      (sid = k.sid ∧ w' = w ∧ s.grant.authzReq = some req ∨
        sid = E.encSid w.n [user, c, E.uuid w.n] ∧ w' = step E w (.again user c req ev)) := by
  unfold setupAuth at h
  split at h
  · cases h
  · split at h
    · cases h
    · unfold askLogin at h
      split at h <;> cases h
  · rename_i i hi
    obtain ⟨k, hk, u, c, g, rest, hd, hcl, rfl, _, _⟩ := findIdentity_spec hp hi
    split at h
    · cases h
    · split at h
      · cases h
      · rename_i hpl
        simp only [] at h
        split at h
        · unfold askLogin at h
          split at h <;> cases h
        · rename_i hru
          obtain ⟨u', c', g', s, ev, h1, h2, h3, h4, h5, h6⟩ := reuseSession_session h
          rw [hd] at h1
          cases h1
          subst h5
          have hact := (isActive_clock_iff ..).1 h4
          refine ⟨k, hk, c, s, ev, ⟨g, hd⟩, h2, h3, hact, ?_, ?_, ?_, ?_, ?_⟩
          · rcases h6 with ⟨_, h, _⟩ | ⟨_, h, _⟩ <;> exact h
          · rcases h6 with ⟨_, _, h, _⟩ | ⟨_, _, h, _⟩ <;> exact h
          · intro u hu
            subst hu
            simp at hru
            exact hru
          · rw [← promptHas_iff]
            exact hpl
          · rcases h6 with ⟨h7, _, _, h8, h9⟩ | ⟨_, _, _, h8, h9, _⟩
            · exact .inl ⟨h8, h9, h7⟩
            · exact .inr ⟨h8, h9⟩

/-! ### C37 -/

/-- C37, for user names as in C38.  If the answer to a request with prompt=none is an authentication function then the
request has prompt=login as well, or the authentication event of a session in a cookie has expired. -/
theorem C37_prompt_none_partial (E : Env) (loads : List Nat → Except Exc Identity) (m : AuthnMethod) (w w' : World)
    (req : AuthzReq) (cookies : List SessionCookie) (reqUser : Option (Option String))
    (hp : PlainCookies E cookies) (hcl : CleanCookies E cookies) (hn : Prompts req "none")
    (h : setupAuth E loads m w req cookies reqUser = (.ok .login, w')) :
    Prompts req "login" ∨ ∃ k ∈ cookies, ∃ s ev, sessionOf E w.st k.sid = .ok s ∧ s.grant.authnEvent = some ev ∧
      ev.validUntil ≤ w.now := by
  have hask : askLogin req = .loginRequired := by
    unfold askLogin; rw [if_pos ((promptHas_iff ..).2 hn)]
  unfold setupAuth at h
  rw [hask] at h
  split at h
  · cases h
  · split at h <;> cases h
  · rename_i i hi
    obtain ⟨k, hk, u, c, g, rest, hd, hc, rfl, _, hs⟩ := findIdentity_spec hp hi
    obtain ⟨s, hs, hact⟩ := hs (hcl k hk).1
    split at h
    · cases h
    · split at h
      · rename_i hpl
        exact .inl ((promptHas_iff ..).1 hpl)
      · right
        simp only [] at h
        split at h
        · cases h
        · unfold reuseSession at h
          rw [hd] at h
          cases rest with
          | cons a as => cases h
          | nil =>
            obtain ⟨hu, hcc⟩ := (hcl k hk).2 u c g hd
            simp only [hc, ne_eq, not_true, if_false, hs, hact, Bool.true_eq_false] at h
            have fin : ∀ {w1 : World} {a b : String}, finishSetup E w1 a b = (.ok .login, w') →
                ∃ s ev, sessionOf E w1.st a = .ok s ∧ s.grant.authnEvent = some ev ∧ ev.validUntil ≤ w1.now := by
              intro w1 a b hf
              unfold finishSetup eventOf at hf
              cases hs1 : sessionOf E w1.st a with
              | error e => rw [hs1] at hf; cases hf
              | ok s1 =>
                rw [hs1] at hf
                simp only [] at hf
                cases he : s1.grant.authnEvent with
                | none => rw [he] at hf; cases hf
                | some ev =>
                  rw [he] at hf
                  simp only [] at hf
                  split at hf
                  · cases hf
                  · rename_i hv
                    exact ⟨s1, ev, rfl, he, by simpa [AuthnEvent.isValid] using hv⟩
            split at h
            · split at h
              · cases h
              · rename_i ev hev
                split at h
                · rename_i hv
                  exact ⟨k, hk, s, ev, hs, hev, by simpa [AuthnEvent.isValid] using hv⟩
                · rename_i hv
                  split at h
                  · cases h
                  · rename_i x hx
                    obtain ⟨s1, ev1, h1, h2, h3⟩ := fin h
                    obtain ⟨h4, _⟩ := authzCreateGrant_session hu hcc hx h1
                    rw [h4] at h2
                    cases h2
                    exfalso
                    simp [AuthnEvent.isValid] at hv
                    have : (authzCreateGrant E w u c req ev).now = w.now := rfl
                    omega
            · obtain ⟨s1, ev1, h1, h2, h3⟩ := fin h
              exact ⟨k, hk, s1, ev1, h1, h2, h3⟩

/-! ### C39 -/

/-- C39, for a max_age other than 0, user names as in C38 and requests without upm_answer=true: the cookie that lets a request through is not older than
max_age seconds. -/
theorem C39_max_age_partial (E : Env) (loads : List Nat → Except Exc Identity) (m : AuthnMethod) (w w' : World)
    (req : AuthzReq) (cookies : List SessionCookie) (reqUser : Option (Option String)) (sid user : String) (a : Int)
    (hp : PlainCookies E cookies) (ha : req.maxAge = some a) (hne : a ≠ 0) (hu : req.upmAnswer = false)
    (h : setupAuth E loads m w req cookies reqUser = (.ok (.session sid user), w')) :
    ∃ k ∈ cookies, ∃ c, CookieFor E k user c ∧ req.clientId = some c ∧ w.now ≤ k.timestamp + a := by
  unfold setupAuth at h
  split at h
  · cases h
  · split at h
    · cases h
    · unfold askLogin at h
      split at h <;> cases h
  · rename_i i hi
    obtain ⟨k, hk, u, c, g, rest, hd, hcl, rfl, hage, _⟩ := findIdentity_spec hp hi
    split at h
    · cases h
    · split at h
      · cases h
      · simp only [] at h
        split at h
        · unfold askLogin at h
          split at h <;> cases h
        · obtain ⟨u', c', g', s, ev, h1, h2, h3, h4, h5, h6⟩ := reuseSession_session h
          rw [hd] at h1
          cases h1
          subst h5
          exact ⟨k, hk, c, ⟨g, hd⟩, hcl, hage hu a ha hne⟩

/-! ### C40 -/

theorem findSome_pref {α β : Type} (f : α → Option β) (l : List α) (b : β) (h : l.findSome? f = some b) :
    ∃ pre x post, l = pre ++ x :: post ∧ f x = some b ∧ ∀ y ∈ pre, f y = none := by
  induction l with
  | nil => cases h
  | cons a l ih =>
    rw [List.findSome?_cons] at h
    cases hf : f a with
    | some b' => rw [hf] at h; cases h; exact ⟨[], a, l, rfl, hf, by simp⟩
    | none =>
      rw [hf] at h
      obtain ⟨pre, x, post, rfl, h1, h2⟩ := ih h
      refine ⟨a :: pre, x, post, rfl, h1, ?_⟩
      intro y hy
      rcases List.mem_cons.1 hy with rfl | hy
      · exact hf
      · exact h2 y hy

theorem wantedAcrs_of {req : AuthzReq} {acrs : List String} {hint : List String} (h : AsksAcr req acrs) (hne : acrs ≠ []) :
    wantedAcrs hint req = .ok (acrs.map .str) := by
  cases h with
  | acrValues h => simp [wantedAcrs, h]
  | claimValue h1 h2 h3 h4 =>
    rename_i idt acr v
    have : idt.isEmpty = false := by
      cases idt with
      | nil => simp [Dict.get?] at h3
      | cons a l => rfl
    simp [wantedAcrs, acrClaim, h1, h2, h3, h4, this]
  | claimValues h1 h2 h3 h4 h5 =>
    rename_i idt acr
    have : idt.isEmpty = false := by
      cases idt with
      | nil => simp [Dict.get?] at h3
      | cons a l => rfl
    cases acrs with
    | nil => exact absurd rfl hne
    | cons a as => simp [wantedAcrs, acrClaim, h1, h2, h3, h4, h5, this]

/-- C40, for a broker that does not have exactly one method (see the refutation below): for a request that asks for
authentication contexts the method is one of the broker's, its acr is the first in the order of the request that any
method has, and it is the first such method; there is no method exactly if none has a requested acr. -/
theorem C40_acr_honoured_partial (broker : List AuthnMethod) (hint : List String) (req : AuthzReq) (acrs : List String)
    (hb : broker.length ≠ 1) (hr : AsksAcr req acrs) (hne : acrs ≠ []) :
    (∀ m, pickAuth broker hint req = .ok (some m) →
      ∃ pre post, acrs = pre ++ m.acr :: post ∧ (∀ a ∈ pre, ∀ m' ∈ broker, m'.acr ≠ a) ∧
        ∃ before after, broker = before ++ m :: after ∧ ∀ m' ∈ before, m'.acr ≠ m.acr) ∧
    (pickAuth broker hint req = .ok none ↔ ∀ m ∈ broker, m.acr ∉ acrs) ∧
    (∀ e, pickAuth broker hint req ≠ .error e) := by
  have hval : pickAuth broker hint req = .ok ((acrs.map Json.str).findSome? (fun x =>
      broker.find? (fun m => decide (.str m.acr = x)))) := by
    unfold pickAuth
    rw [wantedAcrs_of hr hne]
    split
    · exact absurd rfl hb
    · cases acrs with
      | nil => exact absurd rfl hne
      | cons a as => rfl
  rw [hval]
  refine ⟨?_, ?_, by simp⟩
  · intro m hm
    simp only [Except.ok.injEq] at hm
    obtain ⟨pre, x, post, h1, h2, h3⟩ := findSome_pref _ _ _ hm
    obtain ⟨pre', rest', rfl, rfl, hrest⟩ := List.map_eq_append_iff.1 h1
    obtain ⟨x', post', rfl, rfl, rfl⟩ := List.map_eq_cons_iff.1 hrest
    obtain ⟨h4, before, after, h5, h6⟩ := List.find?_eq_some_iff_append.1 h2
    have hx : m.acr = x' := by simpa using h4
    subst hx
    refine ⟨pre', post', rfl, ?_, before, after, h5, ?_⟩
    · intro a ha m' hm' e
      have := h3 (.str a) (List.mem_map.2 ⟨a, ha, rfl⟩)
      rw [List.find?_eq_none] at this
      exact this m' hm' (by simp [e])
    · intro m' hm'
      simpa using h6 m' hm'
  · simp only [Except.ok.injEq, List.findSome?_eq_none_iff, List.mem_map, List.find?_eq_none, decide_eq_true_eq]
    constructor
    · intro h m hm ha
      exact h (.str m.acr) ⟨m.acr, ha, rfl⟩ m hm rfl
    · rintro h x ⟨a, ha, rfl⟩ m hm e
      simp at e
      subst e
      exact h m hm ha

/-- C40 is false of the code: with one method that method is used whatever the request asks for. -/
theorem C40_single_method_refuted :
    ¬ (∀ (broker : List AuthnMethod) (hint : List String) (req : AuthzReq) (acrs : List String) (m : AuthnMethod),
      AsksAcr req acrs → acrs ≠ [] → pickAuth broker hint req = .ok (some m) → m.acr ∈ acrs) := by
  intro h
  have := h [{ acr := "password" }] [] { acrValues := some ["mfa"] } ["mfa"] { acr := "password" } (.acrValues rfl)
    (by decide) rfl
  exact absurd this (by decide)

namespace Ex

/-- Two methods. -/
def broker : List AuthnMethod := [{ id := "user", acr := "password" }, { id := "otp", acr := "mfa", expiresIn := some 600 }]

example : pickAuth broker [] { acrValues := some ["hw", "mfa", "password"] } =
    .ok (some { id := "otp", acr := "mfa", expiresIn := some 600 }) := by decide +kernel

example : pickAuth broker [] { acrValues := some ["hw"] } = .ok none := by decide +kernel

example : AsksAcr { claims := [("id_token", [("acr", .obj [("values", .arr [.str "hw", .str "mfa"])])])] } ["hw", "mfa"] :=
  .claimValues (l := ["hw", "mfa"]) rfl rfl rfl rfl rfl

/-- A claims request for the ID token that says nothing about acr makes the choice fail. -/
example : pickAuth broker [] { claims := [("id_token", [("email", .null)])] } = .error .typeError := by decide +kernel

def noJson : List Nat → Except Exc Identity := fun _ => .error .valueError

/-- The user has logged in at client c1 at 1000, with a login that is valid until 5000. -/
def signedIn (d : Nat) : World :=
  run E init [.login "d" "c1" (authzReq "c1") event, .authorize (sid "c1" 0) (authzReq "c1"), .tick d]

def cookie : SessionCookie := { sid := sid "c1" 0, timestamp := 1000 }

/-- C38: the same request goes through with the session of the cookie, and another request of the client with a new
grant. -/
example : setupAuth E noJson {} (signedIn 10) (authzReq "c1") [cookie] none =
    (.ok (.session (sid "c1" 0) "d"), signedIn 10) := by decide +kernel

example : (setupAuth E noJson {} (signedIn 10) { authzReq "c1" with state := some "t" } [cookie] (some "d")).1 =
    .ok (.session (E.encSid 2 ["d", "c1", E.uuid 2]) "d") := by decide +kernel

example : PlainCookies E [cookie] ∧ CleanCookies E [cookie] := by
  have hd : E.decrypt cookie.sid = .ok ["d", "c1", E.uuid 0] := by decide +kernel
  constructor
  · intro k hk u rest h
    simp at hk; subst hk
    rw [hd] at h; cases h
    exact .inr ⟨by decide, by decide⟩
  · intro k hk
    simp at hk; subst hk
    refine ⟨by decide +kernel, fun u c g h => ?_⟩
    rw [hd] at h; cases h
    exact ⟨by constructor <;> decide, by constructor <;> decide⟩

/-- Another client, another user, prompt=login, no cookie: authentication. -/
example : (setupAuth E noJson {} (signedIn 10) (authzReq "c2") [cookie] none).1 = .ok .login ∧
    (setupAuth E noJson {} (signedIn 10) (authzReq "c1") [cookie] (some "e")).1 = .ok .login ∧
    (setupAuth E noJson {} (signedIn 10) { authzReq "c1" with prompt := some ["login"] } [cookie] none).1 = .ok .login ∧
    (setupAuth E noJson {} (signedIn 10) { authzReq "c1" with prompt := some ["none"] } [] none).1 =
      .ok .loginRequired ∧
    (setupAuth E noJson {} (signedIn 10) { authzReq "c1" with maxAge := some 5 } [cookie] none).1 = .ok .login ∧
    (setupAuth E noJson {} (signedIn 10) { authzReq "c1" with maxAge := some 15 } [cookie] none).1 =
      .ok (.session (E.encSid 2 ["d", "c1", E.uuid 2]) "d") := by
  decide +kernel

/-- C37 is false of the code: after the login has run out the answer to prompt=none is an authentication function. -/
theorem C37_expired_login_refuted :
    ¬ (∀ (E : Env) (loads : List Nat → Except Exc Identity) (m : AuthnMethod) (w : World), Reachable E w →
      ∀ (req : AuthzReq) (cookies : List SessionCookie) (reqUser : Option (Option String)),
        Prompts req "none" → (setupAuth E loads m w req cookies reqUser).1 ≠ .ok .login) := by
  intro h
  exact h E noJson {} (signedIn 6000) ⟨1000, _, rfl⟩ { authzReq "c1" with prompt := some ["none"] } [cookie] none
    ⟨["none"], rfl, by decide⟩ (by decide +kernel)

/-- C39 is false of the code for max_age=0: a login that is 500 seconds old is accepted. -/
theorem C39_zero_refuted :
    ¬ (∀ (E : Env) (loads : List Nat → Except Exc Identity) (m : AuthnMethod) (w : World), Reachable E w →
      ∀ (req : AuthzReq) (cookies : List SessionCookie) (sid user : String) (a : Int), req.maxAge = some a →
        (setupAuth E loads m w req cookies none).1 = .ok (.session sid user) →
        ∃ k ∈ cookies, w.now ≤ k.timestamp + a) := by
  intro h
  obtain ⟨k, hk, hle⟩ := h E noJson {} (signedIn 500) ⟨1000, _, rfl⟩ { authzReq "c1" with maxAge := some 0 } [cookie]
    (E.encSid 2 ["d", "c1", E.uuid 2]) "d" 0 rfl (by decide +kernel)
  simp at hk
  subst hk
  exact absurd hle (by decide +kernel)

/-- C39 is false of the code for a request with the parameter upm_answer=true, whoever adds it: a login that is 500 seconds
old is accepted although max_age is 5. -/
theorem C39_upm_answer_refuted :
    ¬ (∀ (E : Env) (loads : List Nat → Except Exc Identity) (m : AuthnMethod) (w : World), Reachable E w →
      ∀ (req : AuthzReq) (cookies : List SessionCookie) (sid user : String) (a : Int), req.maxAge = some a → a ≠ 0 →
        (setupAuth E loads m w req cookies none).1 = .ok (.session sid user) →
        ∃ k ∈ cookies, w.now ≤ k.timestamp + a) := by
  intro h
  obtain ⟨k, hk, hle⟩ := h E noJson {} (signedIn 500) ⟨1000, _, rfl⟩
    { authzReq "c1" with maxAge := some 5, upmAnswer := true } [cookie]
    (E.encSid 2 ["d", "c1", E.uuid 2]) "d" 5 rfl (by decide) (by decide +kernel)
  simp at hk
  subst hk
  exact absurd hle (by decide +kernel)

/-- The base64url form of {"uid":"admin"}. -/
def trickName : String := "eyJ1aWQiOiJhZG1pbiJ9"

/-- What `json.loads` does with that text. -/
def adminJson : List Nat → Except Exc Identity := fun bs =>
  if bs = "{\"uid\":\"admin\"}".toList.map Char.toNat then .ok { uid := some "admin" } else .error .valueError

def trickSid : String := E.encSid 0 [trickName, "c1", E.uuid 0]

/-- A user with that name has logged in. -/
def trickWorld : World :=
  run E init [.login trickName "c1" (authzReq "c1") event, .authorize trickSid (authzReq "c1"), .tick 10]

/-- C38 is false of the code: the user whose name is the base64url form of {"uid":"admin"} is let through as admin, who
has never logged in (oauth2/authorization.py:518-527). -/
theorem C38_other_user_refuted :
    ¬ (∀ (E : Env) (loads : List Nat → Except Exc Identity) (m : AuthnMethod) (w : World), Reachable E w →
      ∀ (req : AuthzReq) (cookies : List SessionCookie) (reqUser : Option (Option String)) (sid user : String),
        (setupAuth E loads m w req cookies reqUser).1 = .ok (.session sid user) →
        ∃ k ∈ cookies, ∃ c, CookieFor E k user c) := by
  intro h
  obtain ⟨k, hk, c, g, hd⟩ := h E adminJson {} trickWorld ⟨1000, _, rfl⟩ (authzReq "c1") [⟨trickSid, 1000⟩] none
    (E.encSid 2 ["admin", "c1", E.uuid 2]) "admin" (by decide +kernel)
  simp at hk
  subst hk
  have hd' : E.decrypt trickSid = .ok [trickName, "c1", E.uuid 0] := by decide +kernel
  simp only [hd', Except.ok.injEq, List.cons.injEq] at hd
  exact absurd hd.1 (by decide)

/-- The other half of the same defect: for a user called "anna" the endpoint raises ValueError. -/
example : (setupAuth E noJson {}
    (run E init [.login "anna" "c1" (authzReq "c1") event]) (authzReq "c1")
    [⟨E.encSid 0 ["anna", "c1", E.uuid 0], 1000⟩] none).1 = .error .valueError := by decide +kernel

end Ex
end OidcOp
