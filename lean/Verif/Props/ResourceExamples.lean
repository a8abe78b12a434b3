/-
Concrete cases for Props/Resource.lean, and the refutations of C25, C45 and C46.
-/
import Verif.Props.Resource
import Verif.Props.WorldExamples
import Verif.Props.ProviderExamples

namespace OidcOp.Ex
open OidcOp Spec

/-- As `E`, with grants that allow the email at user information and a "sub" of the user database at introspection. -/
def EC : Env :=
  { E with claims := fun _ _ _ => .ok [("userinfo", [("email", .null)]), ("introspection", [("sub", .null)])] }

def people : UserDb := [("d", [("email", .str "d@x"), ("phone", .str "1"), ("sub", .str "someone else")])]

/-- The access token of the history `start`. -/
def atok : String := EC.mkVal 2 .accessToken (sid "c1" 0)

def wc : World := run EC init (start "c1")

/-- The hypothesis of C45: a live access token gets the email, not the phone number. -/
example : userinfoProcess EC (some people) wc atok =
    .ok (.claims [("email", .str "d@x"), ("sub", .str "d"), ("acr", .str "")] "c1") := by decide +kernel

/-- The hypotheses of `C45_live_token_answered`. -/
example : ∃ s t, sessionByToken EC wc atok = .ok s ∧ t ∈ s.grant.issuedToken ∧ t.value = atok ∧ t.cls = .accessToken ∧
    t.isActive wc.now = true ∧ s.grant.claims.get? "userinfo" = some [("email", .null)] ∧ s.grant.authnEvent = some event := by
  refine ⟨{ sid := sid "c1" 0, user := "d", client := "c1", gid := E.uuid 0, ref := 2, grant := (wc.st.grantAt 2).getD {} },
    (((wc.st.grantAt 2).getD {}).issuedToken[1]?).getD default, ?_, ?_, ?_, ?_, ?_, ?_, ?_⟩ <;> decide +kernel

/-- The hypotheses of `C45_whose_claims_partial`. -/
example : Names { prov with E := EC } isD ∧
    userinfoProcess EC (some people) (provHistory { prov with E := EC } 1000 session).w atok =
      .ok (.claims [("email", .str "d@x"), ("sub", .str "d"), ("acr", .str "password")] "c1") := by
  refine ⟨⟨names_prov.1, names_prov.2, ?_⟩, by decide +kernel⟩
  intro n u c g _
  exact encSid_notD n _ (by simp)

/-- Other tokens of the grant, and the access token after its lifetime, get none. -/
example : userinfoProcess EC (some people) wc (EC.mkVal 3 .refreshToken (sid "c1" 0)) = .ok (.err "invalid_token") ∧
    userinfoProcess EC (some people) (run EC wc [.tick 601]) atok = .ok (.err "invalid_token") := by decide +kernel

/-- C45 is false of the code in this point: the authentication context is told although the grant does not allow the claim
"acr": `add_acr_value` matches with no specification (session/grant.py:187-193). -/
theorem C45_acr_refuted :
    ¬ (∀ (E : Env) (db : UserDb) (now : Int) (ops : List WOp) (v : String) (info : Dict Json) (client : String) (x : Json),
      userinfoProcess E (some db) (run E { now := now } ops) v = .ok (.claims info client) → info.get? "acr" = some x →
      ∃ g t user, LiveToken (run E { now := now } ops) v g t ∧ MayRelease db g user "userinfo" "acr" x) := by
  intro h
  obtain ⟨g, t, user, ⟨_, _⟩, ⟨m, h1, h2⟩, _⟩ := h EC people 1000 (start "c1") atok
    [("email", .str "d@x"), ("sub", .str "d"), ("acr", .str "")] "c1" (.str "") (by decide +kernel) (by decide)
  unfold people at h1
  rw [Dict.get?_cons] at h1
  split at h1
  · cases h1
    exact absurd h2 (by decide)
  · cases h1

/-- The hypotheses of the C46 theorems: the access token is active, the code is not. -/
example : (introspectProcess E none "https://op" (fun _ => []) false (run E init (start "c1")) atok).map
      (fun d => (d.get? "active", d.get? "sub", d.get? "client_id", d.get? "scope")) =
      .ok (some (.bool true), some (.str "d"), some (.str "c1"), some (.str "openid email offline_access")) ∧
    introspectProcess E none "https://op" (fun _ => []) false (run E init (start "c1"))
      (E.mkVal 1 .authorizationCode (sid "c1" 0)) = .ok [("active", .bool false)] := by decide +kernel

/-- C46 is false of the code: after the session was removed a well-formed token makes introspection raise an exception instead
of answering that it is not active. -/
theorem C46_removed_session_refuted :
    ¬ (∀ (E : Env) (now : Int) (ops : List WOp) (v : String),
      ∃ resp, introspectProcess E none "https://op" (fun _ => []) false (run E { now := now } ops) v = .ok resp) := by
  intro h
  obtain ⟨resp, hr⟩ := h E 1000 (start "c1" ++ [.removeSession (sid "c1" 0)]) atok
  have : introspectProcess E none "https://op" (fun _ => []) false
      (run E { now := 1000 } (start "c1" ++ [.removeSession (sid "c1" 0)])) atok = .error .keyError := by decide +kernel
  rw [this] at hr
  cases hr

/-- As `E`, with handlers that raise ToOld after the instant 1605, as those of JWT tokens do after "exp". -/
def EOld : Env :=
  { E with
    info := fun v t => if t ≤ 1605 then E.info v t else .error .toOld
    info_seal := by
      intro n c s t s' hf h
      by_cases ht : t ≤ 1605
      · simp only [if_pos ht] at h; exact E.info_seal hf h
      · simp only [if_neg ht] at h; cases h }

/-- C46 is false of the code: an expired JWT token makes introspection raise ToOld (token/jwt_token.py:117-118), which is
not caught. -/
theorem C46_expired_token_refuted :
    ¬ (∀ (E : Env) (now : Int) (ops : List WOp) (v : String) (g : Grant) (t : Token),
      (∃ r, GrantAt (run E { now := now } ops) r g) → t ∈ g.issuedToken → t.value = v →
      ∃ resp, introspectProcess E none "https://op" (fun _ => []) false (run E { now := now } ops) v = .ok resp) := by
  intro h
  obtain ⟨resp, hr⟩ := h EOld 1000 (start "c1" ++ [.tick 601]) atok
    (((run EOld init (start "c1" ++ [.tick 601])).st.grantAt 2).getD {})
    (((((run EOld init (start "c1" ++ [.tick 601])).st.grantAt 2).getD {}).issuedToken[1]?).getD default)
    ⟨2, by decide +kernel⟩ (by decide +kernel) (by decide +kernel)
  have : introspectProcess EOld none "https://op" (fun _ => []) false
      (run EOld { now := 1000 } (start "c1" ++ [.tick 601])) atok = .error .toOld := by decide +kernel
  rw [this] at hr
  cases hr

/-- C46 is false of the code in this point: the subject that introspection tells need not be the grant's, for user claims are
put over the members of the response (oauth2/introspection.py:117-123). -/
theorem C46_subject_refuted :
    ¬ (∀ (E : Env) (db : UserDb) (now : Int) (ops : List WOp) (v : String) (resp : Dict Json),
      introspectProcess E (some db) "https://op" (fun _ => []) false (run E { now := now } ops) v = .ok resp →
      resp.get? "active" = some (.bool true) →
      ∃ r g, GrantAt (run E { now := now } ops) r g ∧ resp.get? "sub" = some (.str g.sub)) := by
  intro h
  obtain ⟨r, g, h1, h2⟩ := h EC people 1000 (start "c1") atok
    ((introspectProcess EC (some people) "https://op" (fun _ => []) false wc atok).toOption.getD [])
    (by decide +kernel) (by decide +kernel)
  have hs : ∀ i < wc.st.heap.length, (wc.st.grantAt i).all (fun g => g.sub = "d") = true := by decide +kernel
  have h1' : wc.st.grantAt r = some g := grantAt_spec.1 h1
  have hr : r < wc.st.heap.length := by
    rcases Nat.lt_or_ge r wc.st.heap.length with h | h
    · exact h
    · unfold Store.grantAt at h1'
      rw [List.getElem?_eq_none h] at h1'
      cases h1'
  have hd := hs r hr
  rw [h1'] at hd
  have hd' : g.sub = "d" := by simpa using hd
  rw [hd'] at h2
  exact absurd h2 (by decide +kernel)

/-- C25 is false of the code: the grant is revoked, and its access token still gets the user's claims and is reported active;
the same with the client session (session/manager.py:356-392; neither endpoint looks at the grant's state). -/
theorem C25_revoked_grant_refuted :
    ¬ (∀ (E : Env) (db : UserDb) (now : Int) (ops : List WOp) (r : Nat) (g : Grant) (t : Token),
      GrantAt (run E { now := now } ops) r g → g.revoked = true → t ∈ g.issuedToken →
      (∀ info client, userinfoProcess E (some db) (run E { now := now } ops) t.value ≠ .ok (.claims info client)) ∧
      (∀ resp, introspectProcess E (some db) "https://op" (fun _ => []) false (run E { now := now } ops) t.value = .ok resp →
        resp = [("active", .bool false)])) := by
  intro h
  have := h EC people 1000 (start "c1" ++ [.revokeGrant (sid "c1" 0)]) 2
    (((run EC init (start "c1" ++ [.revokeGrant (sid "c1" 0)])).st.grantAt 2).getD {})
    (((((run EC init (start "c1" ++ [.revokeGrant (sid "c1" 0)])).st.grantAt 2).getD {}).issuedToken[1]?).getD default)
    (by decide +kernel) (by decide +kernel) (by decide +kernel)
  exact this.1 [("email", .str "d@x"), ("sub", .str "d"), ("acr", .str "")] "c1" (by decide +kernel)

/-- After logging the client session out the access token still gets claims and is still reported active. -/
example : userinfoProcess EC (some people) (run EC wc [.revokeClientSession (sid "c1" 0)]) atok =
      .ok (.claims [("email", .str "d@x"), ("sub", .str "d"), ("acr", .str "")] "c1") ∧
    ((introspectProcess E none "https://op" (fun _ => []) false
      (run E init (start "c1" ++ [.revokeClientSession (sid "c1" 0)])) atok).map (·.get? "active") = .ok (some (.bool true))) := by
  decide +kernel

/-- C25: a revoked access token is refused. -/
example : userinfoProcess EC (some people) (run EC wc [.revokeToken (sid "c1" 0) atok false]) atok =
    .ok (.err "invalid_token") := by decide +kernel

end OidcOp.Ex
