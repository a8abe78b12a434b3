/-
The end session endpoint over HTTP: C105.
-/
import Verif.Model.LogoutHttp
import Verif.Props.ResourceHttp
import Verif.Props.LogoutExamples

namespace OidcOp
open Spec

/-- What an answer tells about how the request was read. -/
theorem endHttp_ok {K : LogoutCtx} {P : EndPoint} {w : World} {seen seen' : List String} {h : EndHttp} {cookie : LogoutCookie} {tok : Str}
    (ho : endHttp K P w seen h cookie = (.ok tok, seen')) :
    ∃ ai c hint, clientAuthentication (P.auth.at w.now) P.auth.methods none h.creds h.header seen = (.ok ai, seen') ∧
      endClient h.creds ai = .ok c ∧ endHint P w.now h.hint = .ok hint ∧
      endSession K { clientId := c, postUri := h.postUri, hint := hint, state := h.state } cookie w = .ok tok := by
  unfold endHttp endParse at ho
  cases ha : clientAuthentication (P.auth.at w.now) P.auth.methods none h.creds h.header seen with
  | mk r s1 =>
    rw [ha] at ho
    cases r with
    | error e => cases ho
    | ok ai =>
      simp only [] at ho
      cases hc : endClient h.creds ai with
      | error e => rw [hc] at ho; cases ho
      | ok c =>
        rw [hc] at ho
        simp only [] at ho
        cases hh : endHint P w.now h.hint with
        | error e => rw [hh] at ho; cases ho
        | ok hint =>
          rw [hh] at ho
          simp only [Prod.mk.injEq] at ho
          obtain ⟨h1, rfl⟩ := ho
          exact ⟨ai, c, hint, rfl, hc, rfl, h1⟩

theorem endHint_some {P : EndPoint} {now : Int} {t : String} {hint : Option Hint} (h : endHint P now (some t) = .ok hint) :
    ∃ v, P.verifyHint now t = .ok v ∧ v.alg ∈ P.algs ∧ hint = some v.hint := by
  unfold endHint at h
  simp only [] at h
  cases hv : P.verifyHint now t with
  | error e => rw [hv] at h; cases h
  | ok v =>
    rw [hv] at h
    simp only [] at h
    by_cases ha : v.alg ∈ P.algs
    · rw [if_pos ha] at h; cases h; exact ⟨v, rfl, ha, rfl⟩
    · rw [if_neg ha] at h; cases h

/-- C105, the hint.  A confirmation that is made for a request with an ID token hint is made for the session of the cookie, and the
hint verified then, was signed with an algorithm that the provider publishes for ID tokens, was made for the client of that
session and about its subject. -/
theorem C105_hint (K : LogoutCtx) (P : EndPoint) (w : World) (seen seen' : List String) (h : EndHttp) (cookie : LogoutCookie) (tok : Str)
    (ho : endHttp K P w seen h cookie = (.ok tok, seen')) :
    ∃ sid s, cookie = .value (some sid) ∧ sessionOf K.E w.st sid = .ok s ∧ (h.postUri ≠ none → h.hint ≠ none) ∧
      ∀ t, h.hint = some t → ∃ v, P.verifyHint w.now t = .ok v ∧ v.alg ∈ P.algs ∧ s.client ∈ v.hint.aud ∧ v.hint.sub = s.grant.sub := by
  obtain ⟨ai, c, hint, _, _, hh, he⟩ := endHttp_ok ho
  obtain ⟨sid, s, h1, h2, h3, h4⟩ := C62_redirect_partial K _ cookie w tok he
  refine ⟨sid, s, h1, h2, ?_, ?_⟩
  · intro hp hn
    cases hu : h.postUri with
    | none => exact hp hu
    | some u =>
      rw [hn] at hh
      cases hh
      exact (h4 u hu).1 rfl
  · intro t ht
    rw [ht] at hh
    obtain ⟨v, hv, ha, rfl⟩ := endHint_some hh
    exact ⟨v, hv, ha, h3 _ rfl⟩

/-- C105 where the endpoint has no methods of client authentication: whatever credentials come along, the request is read as it is,
with its hint, if it has one, verified. -/
theorem C105_open (K : LogoutCtx) (P : EndPoint) (hm : P.auth.methods = []) (w : World) (seen : List String) (h : EndHttp)
    (cookie : LogoutCookie) (hint : Option Hint)
    (hh : (h.hint = none ∧ hint = none) ∨
      ∃ t v, h.hint = some t ∧ P.verifyHint w.now t = .ok v ∧ v.alg ∈ P.algs ∧ hint = some v.hint) :
    endHttp K P w seen h cookie =
      (endSession K { clientId := h.creds.clientId, postUri := h.postUri, hint := hint, state := h.state } cookie w, seen) := by
  have h1 : clientAuthentication (P.auth.at w.now) P.auth.methods none h.creds h.header seen = (.ok none, seen) := by
    rw [hm]; rfl
  unfold endHttp endParse
  rw [h1]
  rcases hh with ⟨h2, rfl⟩ | ⟨t, v, ht, hv, ha, rfl⟩
  · simp only [endClient, endHint, h2]
  · simp only [endClient, endHint, ht, hv, if_pos ha]

/-- Only a token in the body gives both a token and a client. -/
theorem found_token {C : AuthnCtx} {req : AuthnReq} {header : Option String} {m : CAuthn} {ai : AuthInfo} {t c : String}
    (h : Found C req header m ai) (ht : ai.token = some t) (hc : ai.clientId = some c) :
    m = .bearerBody ∧ req.accessToken = some t ∧ req.clientId = some c := by
  cases h with
  | bearerBody h1 =>
    cases ht
    refine ⟨rfl, h1, ?_⟩
    simp only [truthyStr] at hc
    split at hc
    · split at hc
      · cases hc
      · cases hc; assumption
    · cases hc
  | bearerHeader _ => cases hc
  | _ => cases ht

theorem truthyStr_ne_empty (o : Option String) : truthyStr o ≠ some "" := by
  unfold truthyStr
  split
  · split
    · simp
    · rename_i h; simpa using h
  · simp

/-- C105 fails wherever the endpoint has methods of client authentication: no request gets through but one with an access token in
its body and the id of a client that is in force, at an endpoint that takes tokens there.  Clients that prove to be who they are
with a secret or a signature are all turned away.  Missing: that they are served. -/
theorem C105_credentials_partial (K : LogoutCtx) (P : EndPoint) (hm : P.auth.methods ≠ []) (w : World) (seen seen' : List String)
    (h : EndHttp) (cookie : LogoutCookie) (tok : Str) (ho : endHttp K P w seen h cookie = (.ok tok, seen')) :
    some .bearerBody ∈ P.auth.methods ∧ h.creds.accessToken ≠ none ∧
      ∃ c, h.creds.clientId = some c ∧ c ≠ "" ∧ InForce P.auth.cdb w.now c := by
  obtain ⟨ai, c, hint, hca, hc, _, _⟩ := endHttp_ok ho
  cases ai with
  | none =>
    unfold clientAuthentication at hca
    split at hca
    · rw [if_neg (by simpa using hm)] at hca; cases hca
    · rename_i hne
      exact absurd hca (hne _)
  | some r =>
    obtain ⟨ai, hai, hf⟩ := verifyClient_spec (clientAuthentication_some hca)
    unfold endClient at hc
    simp only [] at hc
    cases hid : r.clientId with
    | none => rw [hid] at hc; cases hc
    | some c' =>
      cases htk : r.token with
      | none => rw [hid, htk] at hc; cases hc
      | some tk =>
        rcases finish_spec hf with ⟨c0, h1, h2, h3, rfl⟩ | ⟨hno, ⟨_, rfl⟩ | ⟨f, _, _, hfn, _⟩⟩
        · rcases hai with ⟨m, hmem, hfd⟩ | ⟨_, rfl⟩
          · obtain ⟨rfl, ha, hcl⟩ := found_token hfd htk h1
            exact ⟨hmem, by rw [ha]; simp, c0, hcl, h2, h3⟩
          · cases htk
        · rcases hai with ⟨m, hmem, hfd⟩ | ⟨_, rfl⟩
          · obtain ⟨rfl, ha, hcl⟩ := found_token hfd htk hid
            cases hfd
            rename_i t0 ht0
            rcases hno with hno | hno
            · rw [hno] at hid; cases hid
            · exact absurd hno (truthyStr_ne_empty _)
          · cases htk
        · cases hfn

/-- C105: the access token is not looked at, whoever made it and whomever it is for. -/
theorem C105_any_token (K : LogoutCtx) (P : EndPoint) (hm : P.auth.methods = [some .bearerBody]) (w : World) (seen : List String)
    (h : EndHttp) (cookie : LogoutCookie) (t t' : String) :
    endHttp K P w seen { h with creds := { h.creds with accessToken := some t } } cookie =
      endHttp K P w seen { h with creds := { h.creds with accessToken := some t' } } cookie := by
  unfold endHttp endParse clientAuthentication verifyClient
  rw [hm]
  simp only [tryMethods, CAuthn.usable, CAuthn.verify, Option.isSome_some, if_true, finishClient, clientOfToken]
  cases truthyStr h.creds.clientId with
  | none => rfl
  | some c =>
    cases truthyStr (some c) with
    | none => rfl
    | some c' =>
      cases hq : checkClient (P.auth.at w.now) c' with
      | error e => simp only [hq]; rfl
      | ok _ => simp only [hq]; rfl

end OidcOp

namespace OidcOp.Ex
open OidcOp Spec

/-- An endpoint with methods of client authentication and two clients with secrets. -/
def endPoint (ms : List (Option CAuthn)) : EndPoint where
  auth := { cdb := [("c1", .info { secret := some "s1" }), ("c2", .info { secret := some "s2" })], methods := ms }
  verifyHint := fun _ t => if t = "idt" then .ok { alg := "RS256", hint := { aud := ["c1"], sub := (grant1 "c1").sub } }
    else .error .valueError
  algs := ["RS256"]

/-- c1 asks for the end of a session, with its secret. -/
def endReq : EndHttp := { creds := { clientId := some "c1", clientSecret := some "s1" }, hint := some "idt" }

theorem endReq_open : ∃ tok, endHttp (lctx [("c1", c1Reg), ("c2", c2Reg)]) (endPoint []) (run E init both) [] endReq
    (.value (some (sid "c1" 0))) = (.ok tok, []) := by
  rw [C105_open _ _ rfl _ _ _ _ (some { aud := ["c1"], sub := (grant1 "c1").sub })
    (.inr ⟨"idt", { alg := "RS256", hint := { aud := ["c1"], sub := (grant1 "c1").sub } }, rfl, rfl, by decide +kernel, rfl⟩)]
  exact ⟨_, congrArg (·, ([] : List String)) (endSession_of rfl both_session (by decide +kernel)
    (uri := "https://op/post_logout") (by decide +kernel) rfl)⟩

/-- C105 is false of the code: c1 sends its own secret to an endpoint that takes it and is turned away with a KeyError, while an
endpoint without methods of client authentication answers the same request (oidc/session.py:375 reads a token that only bearer
methods give). -/
theorem C105_secret_refuted :
    ¬ (∀ (K : LogoutCtx) (P Q : EndPoint) (w : World) (h : EndHttp) (cookie : LogoutCookie) (c s : String) (tok : Str),
      P.auth.methods = [some .post] → PostCredentials h.creds c s → HasSecret P.auth.cdb c s → InForce P.auth.cdb w.now c →
      Q = { P with auth := { P.auth with methods := [] } } → endHttp K Q w [] h cookie = (.ok tok, []) →
      ∃ tok', (endHttp K P w [] h cookie).1 = .ok tok') := by
  intro hall
  obtain ⟨tok, ht⟩ := endReq_open
  obtain ⟨tok', h'⟩ := hall (lctx [("c1", c1Reg), ("c2", c2Reg)]) (endPoint [some .post]) (endPoint []) (run E init both) endReq
    (.value (some (sid "c1" 0))) "c1" "s1" tok rfl ⟨rfl, rfl⟩ ⟨_, rfl, rfl⟩ ⟨_, rfl, .inl rfl⟩ rfl ht
  have := C105_credentials_partial (lctx [("c1", c1Reg), ("c2", c2Reg)]) (endPoint [some .post]) (by decide) (run E init both) []
    _ endReq (.value (some (sid "c1" 0))) tok' (Prod.ext h' rfl)
  exact absurd this.2.1 (by decide)

/-- c2 in the request, and a text that is no token. -/
def strayReq : EndHttp := { creds := { clientId := some "c2", accessToken := some "no token" }, hint := some "idt" }

theorem stray_ok : ∃ tok, endHttp (lctx [("c1", c1Reg), ("c2", c2Reg)]) (endPoint [some .bearerBody]) (run E init both) [] strayReq
    (.value (some (sid "c1" 0))) = (.ok tok, []) := by
  have h2 : endParse (endPoint [some .bearerBody]) (run E init both).now [] strayReq =
      (.ok { clientId := some "c2", hint := some { aud := ["c1"], sub := (grant1 "c1").sub } }, []) := by decide +kernel
  unfold endHttp
  rw [h2]
  exact ⟨_, Prod.ext (endSession_of (K := lctx [("c1", c1Reg), ("c2", c2Reg)])
    (req := { clientId := some "c2", hint := some { aud := ["c1"], sub := (grant1 "c1").sub } }) rfl both_session (by decide +kernel)
    (uri := "https://op/post_logout") (by decide +kernel) rfl) rfl⟩

/-- C105 is false of the code: anyone gets through in the name of c2 with any text for an access token, at an endpoint that takes
tokens in the body (client_authn.py:170-180 does not verify it and the endpoint does not either). -/
theorem C105_token_refuted :
    ¬ (∀ (K : LogoutCtx) (P : EndPoint) (w : World) (h : EndHttp) (cookie : LogoutCookie) (tok : Str),
      P.auth.methods = [some .bearerBody] → (endHttp K P w [] h cookie).1 = .ok tok →
      ∃ t n cls sid, h.creds.accessToken = some t ∧ K.E.Made n cls sid t) := by
  intro hall
  let K := lctx [("c1", c1Reg), ("c2", c2Reg)]
  obtain ⟨tok, h1⟩ := stray_ok
  obtain ⟨t, n, cls, s, ht, hmade⟩ := hall K (endPoint [some .bearerBody]) (run E init both) strayReq _ tok rfl (congrArg Prod.fst h1)
  cases ht
  exact absurd hmade.plus (by decide)

/-- A request that meets the hypotheses of `C105_hint` and `C105_credentials_partial`. -/
example : (endPoint [some .bearerBody]).auth.methods ≠ [] ∧
    ∃ tok, endHttp (lctx [("c1", c1Reg), ("c2", c2Reg)]) (endPoint [some .bearerBody]) (run E init both) [] strayReq
      (.value (some (sid "c1" 0))) = (.ok tok, []) :=
  ⟨by decide, stray_ok⟩

end OidcOp.Ex
