/-
C92: what the authorization endpoint decides is told to the client.
-/
import Verif.Spec.Delivery
import Verif.Props.Response
import Verif.Props.ProviderExamples
import Verif.Props.ResourceExamples

namespace OidcOp
open Spec

/-! ### Parameters -/

theorem get?_optParam (name k : String) (o : Option String) :
    Dict.get? (optParam name o) k = if name = k then o.map .str else none := by
  cases o with
  | none => simp [optParam]
  | some v => simp only [optParam, Dict.get?_cons, Option.map_some]; rfl

theorem get?_optList (name k : String) (o : Option (List String)) :
    Dict.get? (optList name o) k = if name = k then o.map listJson else none := by
  cases o with
  | none => simp [optList]
  | some v => simp only [optList, Dict.get?_cons, Option.map_some]; rfl

theorem get?_optNum (name k : String) (o : Option Int) :
    Dict.get? (optNum name o) k = if name = k then o.map .num else none := by
  cases o with
  | none => simp [optNum]
  | some v => simp only [optNum, Dict.get?_cons, Option.map_some]; rfl

theorem get?_append (a b : Dict Json) (k : String) : Dict.get? (a ++ b) k = (Dict.get? a k).or (Dict.get? b k) := by
  induction a with
  | nil => rfl
  | cons x a ih =>
    obtain ⟨k', v⟩ := x
    rw [List.cons_append, Dict.get?_cons, Dict.get?_cons]
    split
    · rfl
    · exact ih

/-- What is in a response. -/
theorem respParams_get (r : AuthzResp) (k : String) :
    Dict.get? (respParams r) k =
      if k = "state" then r.state.map .str
      else if k = "scope" then r.scope.map listJson
      else if k = "code" then r.code.map .str
      else if k = "access_token" then r.accessToken.map .str
      else if k = "token_type" then (if r.accessToken.isSome then some (.str "Bearer") else none)
      else if k = "expires_in" then r.expiresIn.map .num
      else if k = "id_token" then r.idToken.map .str
      else none := by
  unfold respParams
  simp only [get?_append, get?_optParam, get?_optList, get?_optNum]
  have htt : Dict.get? (if r.accessToken.isSome = true then [("token_type", Json.str "Bearer")] else []) k =
      if "token_type" = k then (if r.accessToken.isSome then some (.str "Bearer") else none) else none := by
    cases r.accessToken <;> simp [Dict.get?_cons, Dict.get?]
  rw [htt]
  by_cases h1 : k = "state"
  · subst h1; simp
  by_cases h2 : k = "scope"
  · subst h2; simp
  by_cases h3 : k = "code"
  · subst h3; simp
  by_cases h4 : k = "access_token"
  · subst h4; simp
  by_cases h5 : k = "token_type"
  · subst h5; simp
  by_cases h6 : k = "expires_in"
  · subst h6; simp
  by_cases h7 : k = "id_token"
  · subst h7; simp
  rw [if_neg (Ne.symm h1), if_neg (Ne.symm h2), if_neg (Ne.symm h3), if_neg (Ne.symm h4), if_neg (Ne.symm h5), if_neg (Ne.symm h6),
    if_neg (Ne.symm h7), if_neg h1, if_neg h2, if_neg h3, if_neg h4, if_neg h5, if_neg h6, if_neg h7]
  rfl

theorem errorParams_get (req : AuthzReq) (c d k : String) :
    Dict.get? (errorParams req c d) k =
      if k = "error" then some (.str c) else if k = "error_description" then some (.str d)
      else if k = "state" then (truthyStr req.state).map .str else none := by
  show Dict.get? (("error", .str c) :: ("error_description", .str d) :: optParam "state" (truthyStr req.state)) k = _
  rw [Dict.get?_cons, Dict.get?_cons, get?_optParam]
  by_cases h1 : k = "error"
  · subst h1; simp
  by_cases h2 : k = "error_description"
  · subst h2; simp
  by_cases h3 : k = "state"
  · subst h3; simp
  simp only [h1, h2, h3, if_false, Ne.symm h1, Ne.symm h2, Ne.symm h3]

theorem stateReturned_of {req : AuthzReq} {ps : Dict Json} (h : ps.get? "state" = (truthyStr req.state).map .str) :
    StateReturned req ps := by
  refine ⟨fun st h1 h2 => ?_, fun h1 => ?_⟩
  · rw [h, h1]; simp [truthyStr, h2]
  · rcases h1 with h1 | h1 <;> (rw [h, h1]; rfl)

/-- What holds of the parameters of every answer. -/
structure GoodParams (req : AuthzReq) (ps : Dict Json) : Prop where
  state : ps.get? "state" = (truthyStr req.state).map .str
  error : ps.get? "error" ≠ none → NoCredentials ps

theorem errorParams_good (req : AuthzReq) (c d : String) : GoodParams req (errorParams req c d) :=
  ⟨by rw [errorParams_get]; rfl, fun _ => ⟨by rw [errorParams_get]; rfl, by rw [errorParams_get]; rfl, by rw [errorParams_get]; rfl⟩⟩

theorem respParams_good {req : AuthzReq} {r : AuthzResp} (h : r.state = truthyStr req.state) : GoodParams req (respParams r) :=
  ⟨by rw [respParams_get, h]; rfl, fun he => absurd (by rw [respParams_get]; rfl) he⟩

theorem GoodParams.set {req : AuthzReq} {ps : Dict Json} (h : GoodParams req ps) {k : String} {v : Json}
    (hk : k = "iss" ∨ k = "client_id" ∨ k = "session_state") : GoodParams req (ps.set k v) := by
  have hne : ∀ k', k' = "state" ∨ k' = "error" ∨ k' = "code" ∨ k' = "access_token" ∨ k' = "id_token" →
      (ps.set k v).get? k' = ps.get? k' := by
    intro k' hk'
    refine Dict.get?_set_ne _ _ ?_
    rintro rfl
    rcases hk with rfl | rfl | rfl <;> revert hk' <;> decide
  refine ⟨by rw [hne _ (by simp)]; exact h.state, fun he => ?_⟩
  rw [hne _ (by simp)] at he
  obtain ⟨h1, h2, h3⟩ := h.error he
  exact ⟨by rw [hne _ (by simp)]; exact h1, by rw [hne _ (by simp)]; exact h2, by rw [hne _ (by simp)]; exact h3⟩

/-! ### From the outcome to the answer -/

structure GoodInfo (req : AuthzReq) (u : String) (i : RespInfo) : Prop where
  err : i.error = none
  uri : ∀ x, i.returnUri = some x → x = u
  form : ∀ a ps, i.form = some (a, ps) → a = u ∧ GoodParams req ps
  args : ∀ a, i.args = some a → GoodParams req a
  has : i.form = none → i.args ≠ none

theorem goodInfo_args {req : AuthzReq} {u : String} {i : RespInfo} (he : i.error = none) (hf : i.form = none) {a : Dict Json}
    (ha : i.args = some a) (hg : GoodParams req a) (hu : ∀ x, i.returnUri = some x → x = u) : GoodInfo req u i :=
  ⟨he, hu, fun b ps h => (by rw [hf] at h; cases h), fun b h => (by rw [ha] at h; cases h; exact hg), fun _ => by rw [ha]; simp⟩

theorem respMode_good {req : AuthzReq} {args : Dict Json} {u : String} {f : Option Bool} {i : RespInfo}
    (hg : GoodParams req args) (h : respMode req args u f = .ok i) : GoodInfo req u i := by
  unfold respMode at h
  split at h
  · cases h
  · split at h
    · cases h
      exact ⟨rfl, fun x h => (by cases h), fun a ps h => (by cases h; exact ⟨rfl, hg⟩), fun a h => (by cases h), fun h => (by cases h)⟩
    · split at h
      · split at h
        · cases h
        · cases h
          exact goodInfo_args rfl rfl rfl hg (fun x h => (by cases h; rfl))
      · split at h
        · split at h
          · cases h
          · cases h
            exact goodInfo_args rfl rfl rfl hg (fun x h => (by cases h; rfl))
        · cases h

theorem errorByMode_good {req : AuthzReq} {u c d : String} {i : RespInfo} (hu : req.redirectUri = some u)
    (h : errorByMode req c d = .ok i) : GoodInfo req u i := by
  unfold errorByMode at h
  rw [hu] at h
  exact respMode_good (errorParams_good req c d) h

theorem finishPost_good {req : AuthzReq} {uri : Except Exc String} {u : String} (hu : ∀ x, uri = .ok x → x = u)
    {args : Dict Json} (hg : GoodParams req args) {f : Bool} {i : RespInfo} (h : finishPost req uri args f = .ok i) :
    GoodInfo req u i := by
  unfold finishPost at h
  split at h
  · split at h
    · cases h
      exact goodInfo_args rfl rfl rfl (errorParams_good ..) (fun x h => (by cases h))
    · cases h
  · rename_i x
    have := hu x rfl
    subst this
    split at h
    · cases h
      exact goodInfo_args rfl rfl rfl hg (fun x h => (by cases h; rfl))
    · split at h
      · cases h
        exact goodInfo_args rfl rfl rfl (errorParams_good ..) (fun x h => (by cases h; rfl))
      · rename_i j hj
        cases h
        exact respMode_good hg hj

theorem postInfo_good {req : AuthzReq} {uri : Except Exc String} {u : String} (hu : ∀ x, uri = .ok x → x = u)
    {post : Except Exc (Option (Sess × ARes))} (hs : ∀ s r f, post = .ok (some (s, .resp r f)) → r.state = truthyStr req.state)
    {i : RespInfo} (h : postInfo req uri post = .ok i) : GoodInfo req u i := by
  unfold postInfo at h
  split at h
  · cases h
  · cases h
    exact goodInfo_args rfl rfl rfl (errorParams_good ..) (fun x h => (by cases h))
  · exact finishPost_good hu (respParams_good (hs _ _ _ rfl)) h
  · exact finishPost_good hu (errorParams_good ..) h

theorem addSessionState_good {D : Delivery} {now : Int} {req : AuthzReq} {ev : Except Exc AuthnEvent} {u : String} {i j : RespInfo}
    (hr : req.redirectUri = some u) (hi : GoodInfo req u i) (h : addSessionState D now req ev i = .ok j) : GoodInfo req u j := by
  unfold addSessionState at h
  split at h
  · split at h
    · split at h
      · exact errorByMode_good hr h
      · cases h
    · split at h
      · exact errorByMode_good hr h
      · split at h
        · cases h
          refine ⟨hi.err, hi.uri, hi.form, ?_, ?_⟩
          · intro a ha
            simp only [Option.map_eq_some_iff] at ha
            obtain ⟨b, hb, rfl⟩ := ha
            exact (hi.args b hb).set (by simp)
          · intro hf
            simp only [ne_eq, Option.map_eq_none_iff]
            exact hi.has hf
        · cases h
  · cases h; exact hi

theorem addIssuer_good {D : Delivery} {req : AuthzReq} {u : String} {i j : RespInfo} (hi : GoodInfo req u i)
    (h : addIssuer D req i = .ok j) : GoodInfo req u j := by
  unfold addIssuer at h
  split at h
  · cases h; exact hi
  · rename_i a ha
    split at h
    · cases h
    · cases h
      refine ⟨hi.err, hi.uri, hi.form, ?_, fun _ => by simp⟩
      intro b hb
      cases hb
      exact ((hi.args a ha).set (by simp)).set (by simp)

theorem partTwo_good {D : Delivery} {now : Int} {req : AuthzReq} {uri : Except Exc String} {ev : Except Exc AuthnEvent}
    {post : Except Exc (Option (Sess × ARes))} {u : String} {j : RespInfo} (hr : req.redirectUri = some u)
    (hu : ∀ x, uri = .ok x → x = u) (hs : ∀ s r f, post = .ok (some (s, .resp r f)) → r.state = truthyStr req.state)
    (h : partTwo D now req uri ev post = .ok j) : GoodInfo req u j := by
  unfold partTwo at h
  split at h
  · exact errorByMode_good hr h
  · rename_i i hi
    split at h
    · cases h
    · rename_i i' hi'
      have h1 := addSessionState_good hr (postInfo_good hu hs hi) hi'
      split at h
      · cases h; exact h1
      · exact addIssuer_good h1 h

theorem doAuthzResponse_good {req : AuthzReq} {u : String} {i : RespInfo} {o : HttpOut} (hi : GoodInfo req u i)
    (h : doAuthzResponse i = .ok o) : Target o = u ∧ GoodParams req (Params o) := by
  unfold doAuthzResponse at h
  rw [hi.err] at h
  simp only [truthyStr] at h
  cases hf : i.form with
  | some x =>
    obtain ⟨a, ps⟩ := x
    rw [hf] at h
    cases h
    exact hi.form a ps hf
  | none =>
    rw [hf] at h
    simp only [] at h
    split at h
    · cases h
    · rename_i x hx
      cases h
      cases ha : i.args with
      | none => exact absurd ha (hi.has hf)
      | some a => exact ⟨hi.uri x hx, hi.args a ha⟩

/-- A response has the state of the request. -/
theorem createAuthnResponse_state {mk : Minter} {clock : Int} {filter : List String → List String} {req : AuthzReq}
    {s s' : GS} {x : AuthzResp} {f : Bool} (h : createAuthnResponse mk clock filter req s = (.ok (.resp x f), s')) :
    x.state = truthyStr req.state ∧
    (req.responseType ≠ ["none"] → x.scope = (match req.scope with
      | some sc => if sc.isEmpty then none else some (filter sc)
      | none => none)) := by
  unfold createAuthnResponse at h
  simp only [] at h
  split at h
  · rename_i hn
    cases h
    exact ⟨rfl, fun hx => absurd hn hx⟩
  · split at h
    · cases h
    · simp only [SE.bind_apply] at h
      cases h1 : mintIfAsked mk clock .authorizationCode (req.responseType.contains "code") s with
      | mk a1 s1 =>
        rw [h1] at h
        cases a1 with
        | error e => cases h
        | ok code =>
          simp only [] at h
          cases h2 : mintIfAsked mk clock .accessToken (req.responseType.contains "token") s1 with
          | mk a2 s2 =>
            rw [h2] at h
            cases a2 with
            | error e => cases h
            | ok at' =>
              simp only [] at h
              cases h3 : mintIdTokenAuthz mk clock req.scope (req.responseType.contains "id_token") s2 with
              | mk a3 s3 =>
                rw [h3] at h
                cases a3 with
                | error e => cases h
                | ok idt =>
                  cases idt with
                  | none => cases h
                  | some idt =>
                    simp only [] at h
                    split at h
                    · cases h; exact ⟨rfl, fun _ => rfl⟩
                    · cases h

/-- C33.  The response has the state of the request, if that is not empty, and those of the scopes asked for that the client may
have. -/
theorem C33_state_and_scope (mk : Minter) (clock : Int) (filter : List String → List String) (req : AuthzReq)
    (s s' : GS) (x : AuthzResp) (f : Bool) (h : createAuthnResponse mk clock filter req s = (.ok (.resp x f), s')) :
    (∀ st, x.state = some st ↔ req.state = some st ∧ st ≠ "") ∧
    (req.responseType ≠ ["none"] → ∀ sc, x.scope = some sc ↔ ∃ asked, req.scope = some asked ∧ asked ≠ [] ∧ sc = filter asked) := by
  obtain ⟨h1, h2⟩ := createAuthnResponse_state h
  refine ⟨fun st => ?_, fun hn sc => ?_⟩
  · rw [h1]
    unfold truthyStr
    cases req.state with
    | none => simp
    | some v =>
      simp only [Option.some.injEq]
      by_cases hv : v = ""
      · rw [if_pos hv]
        constructor
        · intro h; cases h
        · rintro ⟨rfl, h⟩; exact absurd hv h
      · rw [if_neg hv]
        constructor
        · intro h; cases h; exact ⟨rfl, hv⟩
        · rintro ⟨rfl, -⟩; rfl
  · rw [h2 hn]
    cases hs : req.scope with
    | none => simp
    | some l =>
      cases l with
      | nil => simp
      | cons a l => simp [eq_comm]

theorem post_state {E : Env} {w : World} {sid : String} {req : AuthzReq} {s : Sess} {r : AuthzResp} {f : Bool}
    (h : (postAuthentication E w sid req).1 = .ok (some (s, .resp r f))) : r.state = truthyStr req.state := by
  unfold postAuthentication at h
  split at h
  · cases h
  · split at h
    · cases h
    · split at h
      · cases h
      · split at h
        · cases h
        · rename_i hc
          cases h
          exact (createAuthnResponse_state hc).1

theorem getUri_same {L : UriLib} {cdb : Dict (Option (List RegUri))} {cid : Option String} {u x : String}
    (h : getUri L cdb cid (some u) = .ok x) : x = u := by
  unfold getUri at h
  simp only [] at h
  split at h <;> cases h
  rfl

theorem part2Http_good {p : Prov} {D : Delivery} {w : World} {sid : String} {req : AuthzReq} {u : String} {o : HttpOut}
    (hr : req.redirectUri = some u) (h : part2Http p D w sid req = .ok o) : Target o = u ∧ GoodParams req (Params o) := by
  unfold part2Http at h
  simp only [] at h
  split at h
  · cases h
  · rename_i i hi
    exact doAuthzResponse_good
      (partTwo_good hr (fun x hx => getUri_same (by rw [hr] at hx; exact hx)) (fun s r f hs => post_state hs) hi) h

/-- The answer that tells that a login is required. -/
theorem loginRequired_good {p : Prov} {D : Delivery} {w : World} {m : AuthnMethod} {req : AuthzReq} {u : String} {o : HttpOut}
    (hr : req.redirectUri = some u) (hm : req.responseMode = none ∨ req.responseMode = some "form_post")
    (h : setupHttp p D w m req .loginRequired = .ok (.out o)) :
    Target o = u ∧ GoodParams req (Params o) ∧ (Params o).get? "error" = some (.str "login_required") ∧
      (req.responseMode = some "form_post" → o = .form u (Params o)) := by
  have hg : ∀ st : Option String, st = truthyStr req.state →
      GoodParams req ([("error", Json.str "login_required")] ++ optParam "state" st) := by
    intro st hst
    refine ⟨?_, fun _ => ⟨?_, ?_, ?_⟩⟩ <;>
      simp only [List.cons_append, List.nil_append, Dict.get?_cons, get?_optParam] <;> simp [hst]
  unfold setupHttp loginRequiredInfo at h
  simp only [] at h
  split at h
  · cases h
  · rename_i i hi
    split at hi
    · cases hi
    · cases hi
      rcases hm with hm | hm
      · simp only [setupErrorInfo, hm, doAuthzResponse, hr, truthyStr] at h
        rw [if_neg (by decide)] at h
        simp only [Except.map] at h
        cases h
        exact ⟨rfl, hg _ rfl, rfl, fun hx => by rw [hm] at hx; cases hx⟩
      · simp only [setupErrorInfo, hm, if_true, hr, doAuthzResponse, Except.map] at h
        cases h
        exact ⟨rfl, hg _ rfl, rfl, fun _ => rfl⟩

theorem finishSetup_not_required {E : Env} {w w' : World} {sid user : String} :
    finishSetup E w sid user ≠ (.ok .loginRequired, w') := by
  intro h
  unfold finishSetup at h
  split at h
  · cases h
  · split at h <;> cases h

theorem setupAuth_loginRequired {E : Env} {loads : List Nat → Except Exc Identity} {m : AuthnMethod} {w w' : World}
    {req : AuthzReq} {cookies : List SessionCookie} {reqUser : Option (Option String)}
    (h : setupAuth E loads m w req cookies reqUser = (.ok .loginRequired, w')) : promptHas req "none" = true := by
  have hask : askLogin req = .loginRequired → promptHas req "none" = true := by
    intro ha
    unfold askLogin at ha
    split at ha
    · assumption
    · cases ha
  unfold setupAuth at h
  split at h
  · cases h
  · split at h
    · cases h
    · exact hask (by injection h with h1; injection h1)
  · split at h
    · cases h
    · split at h
      · cases h
      · split at h
        · cases h
        · split at h
          · exact hask (by injection h with h1; injection h1)
          · split at h
            · exfalso
              unfold reuseSession at h
              split at h
              · cases h
              · split at h
                · cases h
                · split at h
                  · cases h
                  · split at h
                    · cases h
                    · split at h
                      · split at h
                        · cases h
                        · split at h
                          · cases h
                          · split at h
                            · cases h
                            · exact finishSetup_not_required h
                      · exact finishSetup_not_required h
              · cases h
            · split at h <;> cases h

/-- C92 (partial), the whole endpoint.  Whatever a request that has passed vetting is answered with, other than a login page: the
answer goes to a redirect URI registered for the client the request names, it brings the state of the request back, and if it
tells an error it has no code and no token.  (Missing: an error before authentication, for a request with prompt "none" and the
response mode "query" or "fragment".) -/
theorem C92_where_partial (p : Prov) (D : Delivery) (client : String) (req0 req : AuthzReq) (s s' : PState)
    (hp : parseAuthz p client req0 s = (.ok (.req req), s')) (w : World) (hint : List String) (cookies : List SessionCookie)
    (reqUser : Option (Option String))
    (hm : req.responseMode = none ∨ req.responseMode = some "form_post" ∨ ∀ l, req.prompt = some l → "none" ∉ l)
    (o : HttpOut) (h : authzHttp p D w req hint cookies reqUser = .ok (.out o)) :
    (∃ c uri, req.clientId = some c ∧ OwnRedirect p c uri ∧ Target o = uri) ∧ StateReturned req (Params o) ∧
      ((Params o).get? "error" ≠ none → NoCredentials (Params o)) := by
  obtain ⟨-, c, uri, h1, h2, h3⟩ := parseAuthz_spec hp
  have key : Target o = uri ∧ GoodParams req (Params o) := by
    unfold authzHttp at h
    rw [h1] at h
    simp only [] at h
    split at h
    · cases h
    · split at h
      · cases h
      · split at h
        · cases h
        · split at h
          · cases h
          · rename_i m _ r w' hsetup
            cases r with
            | login => cases h
            | loginRequired =>
              have hnone : promptHas req "none" = true := by
                exact setupAuth_loginRequired hsetup
              have hm' : req.responseMode = none ∨ req.responseMode = some "form_post" := by
                rcases hm with hm | hm | hm
                · exact .inl hm
                · exact .inr hm
                · exfalso
                  unfold promptHas at hnone
                  split at hnone
                  · rename_i l hl
                    exact hm l hl (by simpa using hnone)
                  · cases hnone
              obtain ⟨k1, k2, -⟩ := loginRequired_good h2 hm' h
              exact ⟨k1, k2⟩
            | session sid user =>
              simp only [setupHttp] at h
              cases hh : part2Http p D w' sid req with
              | error e => rw [hh] at h; cases h
              | ok o' =>
                rw [hh] at h
                cases h
                exact part2Http_good h2 hh
  exact ⟨⟨c, uri, h1, h3, key.1⟩, stateReturned_of key.2.state, key.2.error⟩

/-- C92, after a login: the same for the answer to a request for whose user a session has been made. -/
theorem C92_where_after_login (p : Prov) (D : Delivery) (w : World) (sid : String) (req : AuthzReq) (uri : String)
    (hr : req.redirectUri = some uri) (o : HttpOut) (h : part2Http p D w sid req = .ok o) :
    Target o = uri ∧ StateReturned req (Params o) ∧ ((Params o).get? "error" ≠ none → NoCredentials (Params o)) := by
  obtain ⟨h1, h2⟩ := part2Http_good hr h
  exact ⟨h1, stateReturned_of h2.state, h2.error⟩

/-! ### Delivery -/

/-- The outcome is marked for the fragment as the response type demands, and a response has the state. -/
def Placed (req : AuthzReq) : ARes → Prop
  | .resp x f => (f = true ↔ ¬ NoTokenAsked req.responseType) ∧ x.state = truthyStr req.state
  | .err _ _ f => f = true ↔ ¬ NoTokenAsked req.responseType

theorem post_place {E : Env} {w : World} {sid : String} {req : AuthzReq} {s : Sess} {r : ARes}
    (h : (postAuthentication E w sid req).1 = .ok (some (s, r))) : Placed req r := by
  have hrt : ∀ {gs gs' : GS} {c : String} {x : ARes}, createAuthnResponse (minter E sid) w.now (E.filter c) req gs = (.ok x, gs') →
      Placed req x := by
    intro gs gs' c x hx
    have hfrag : req.responseType ≠ ["none"] → (fragmentEnc req.responseType = true ↔ ¬ NoTokenAsked req.responseType) := by
      intro hn
      unfold fragmentEnc NoTokenAsked
      simp only [Bool.not_eq_true', Bool.and_eq_false_iff, List.contains_eq_mem, decide_eq_false_iff_not, List.all_eq_false, hn,
        false_or, beq_iff_eq, not_and]
      constructor
      · rintro (h | ⟨y, hy, hne⟩) h1 h2
        · exact h h1
        · exact hne (h2 y hy)
      · intro h
        by_cases hc : "code" ∈ req.responseType
        · right
          have := h hc
          simp only [Classical.not_forall] at this
          obtain ⟨y, hy, hne⟩ := this
          exact ⟨y, hy, hne⟩
        · exact .inl hc
    rcases createAuthnResponse_cases hx with ⟨hn, rfl⟩ | ⟨hn, rfl⟩ | ⟨hn, rfl, -⟩ | ⟨hn, -, y, rfl, -⟩
    · exact ⟨by simp [NoTokenAsked, hn], rfl⟩
    · exact hfrag hn
    · exact hfrag hn
    · exact ⟨hfrag hn, (createAuthnResponse_state hx).1⟩
  unfold postAuthentication at h
  split at h
  · cases h
  · split at h
    · cases h
    · split at h
      · cases h
      · split at h
        · cases h
        · rename_i hc
          cases h
          exact hrt hc

/-- The parameters that an outcome has. -/
def paramsOf (req : AuthzReq) : ARes → Dict Json
  | .resp r _ => respParams r
  | .err c d _ => errorParams req c d

/-- Where the outcome goes when the response mode fits. -/
theorem finishPost_fits {req : AuthzReq} {u : String} {args : Dict Json} {f : Bool} (hf : f = true ↔ ¬ NoTokenAsked req.responseType)
    (hm : ModeFits req) :
    (req.responseMode = some "form_post" ∧ finishPost req (.ok u) args f = .ok { form := some (u, args) }) ∨
    (req.responseMode ≠ some "form_post" ∧ ∃ fe, finishPost req (.ok u) args f =
      .ok { args := some args, fragmentEnc := fe, returnUri := some u } ∧ (fe = some true ↔ f = true)) := by
  unfold finishPost respMode
  rcases hm with hm | hm | ⟨hm, hc⟩ | ⟨hm, hc⟩
  · exact .inr ⟨by rw [hm]; simp, some f, by simp [hm], by simp⟩
  · exact .inl ⟨hm, by simp [hm]⟩
  · have : f = false := by
      cases f with
      | false => rfl
      | true => exact absurd hc (hf.1 rfl)
    subst this
    exact .inr ⟨by rw [hm]; simp, none, by simp [hm], by simp⟩
  · have := hf.2 hc
    subst this
    exact .inr ⟨by rw [hm]; simp, some true, by simp [hm], by simp⟩

theorem reports_of {req : AuthzReq} {r : ARes} {ps : Dict Json}
    (h : ∀ k, k ≠ "iss" → k ≠ "client_id" → k ≠ "session_state" → ps.get? k = (paramsOf req r).get? k) : Reports ps r := by
  cases r with
  | resp x f =>
    refine ⟨?_, ?_, ?_, ?_, ?_, ?_⟩ <;>
      (rw [h _ (by decide) (by decide) (by decide)]; show Dict.get? (respParams x) _ = _; rw [respParams_get]; rfl)
  | err c d f =>
    refine ⟨?_, ?_, ?_, ?_, ?_⟩ <;>
      (rw [h _ (by decide) (by decide) (by decide)]; show Dict.get? (errorParams req c d) _ = _; rw [errorParams_get]; rfl)

/-- C92 (partial), delivery.  A session has been made and what the endpoint decides is `r`: a response, or an error.  If the client's
redirect URI still passes the check, the response mode is one that there is and fits the response type, and - with session
management - the authentication has not timed out, then an answer goes out.  It goes to the redirect URI of the request, it is in
the place that was asked for, it has every member of the outcome, and the state.  Unless it is a form it names the provider and the
client and has the session state.  (Missing: what is told if these conditions fail, and the issuer in a form.) -/
theorem C92_delivered_partial (p : Prov) (D : Delivery) (w : World) (sid : String) (req : AuthzReq) (s : Sess) (r : ARes)
    (hpost : (postAuthentication p.E w sid req).1 = .ok (some (s, r)))
    (c u : String) (hc : req.clientId = some c) (hu : req.redirectUri = some u)
    (hv : verifyUri p.U p.uris (some c) (some u) = .ok ()) (hm : ModeFits req)
    (hev : D.iframe = true → ∃ ev, eventOf p.E (postAuthentication p.E w sid req).2 sid = .ok ev ∧ w.now < ev.validUntil) :
    ∃ o, part2Http p D w sid req = .ok o ∧ Target o = u ∧ PlaceAsked req o ∧ Reports (Params o) r ∧
      StateReturned req (Params o) ∧
      (req.responseMode ≠ some "form_post" → NamesIssuer D req (Params o) ∧ HasSessionState D req u (Params o)) := by
  have hget : getUri p.U p.uris req.clientId req.redirectUri = .ok u := by
    unfold getUri; rw [hu, hc]; simp only []; rw [hv]
  have hplace := post_place hpost
  have hfits : ∃ f, postInfo req (.ok u) (postAuthentication p.E w sid req).1 = finishPost req (.ok u) (paramsOf req r) f ∧
      (f = true ↔ ¬ NoTokenAsked req.responseType) := by
    rw [hpost]
    cases r with
    | resp x f => exact ⟨f, rfl, hplace.1⟩
    | err a b f => exact ⟨f, rfl, hplace⟩
  have hstate : Dict.get? (paramsOf req r) "state" = (truthyStr req.state).map .str := by
    cases r with
    | resp x f => show Dict.get? (respParams x) _ = _; rw [respParams_get, hplace.2]; rfl
    | err a b f => show Dict.get? (errorParams req a b) _ = _; rw [errorParams_get]; rfl
  obtain ⟨f, hpi, hf⟩ := hfits
  have hearly : earlyError D w.now (eventOf p.E (postAuthentication p.E w sid req).2 sid) = false := by
    unfold earlyError
    cases hi : D.iframe with
    | false => rfl
    | true =>
      obtain ⟨ev, he, hlt⟩ := hev hi
      rw [he]
      simp [AuthnEvent.isValid, hlt]
  have hadd : ∀ i : RespInfo, (i.returnUri = some u ∨ i.returnUri = none) →
      addSessionState D w.now req (eventOf p.E (postAuthentication p.E w sid req).2 sid) i =
        .ok { i with args := i.args.map (fun a => if D.iframe then a.set "session_state" (.str (D.sessionState c u)) else a) } := by
    intro i hi
    unfold addSessionState
    cases hif : D.iframe with
    | false =>
      obtain ⟨a, b, ar, d, e, g, h⟩ := i
      cases ar <;> rfl
    | true =>
      obtain ⟨ev, he, hlt⟩ := hev hif
      rw [he, hc, hu]
      have hval : ev.isValid w.now = true := by simp [AuthnEvent.isValid, hlt]
      simp only [hval, if_true]
      rcases hi with hi | hi <;> rw [hi] <;> rfl
  unfold part2Http partTwo
  simp only [hget, hpi]
  rcases finishPost_fits (args := paramsOf req r) (u := u) hf hm with ⟨hform, hfp⟩ | ⟨hform, fe, hfp, hfe⟩
  · rw [hfp]
    simp only []
    rw [hadd _ (.inr rfl), hearly]
    refine ⟨.form u (paramsOf req r), rfl, rfl, hform, reports_of (fun k _ _ _ => rfl), stateReturned_of hstate,
      fun h => absurd hform h⟩
  · rw [hfp]
    simp only []
    rw [hadd _ (.inl rfl), hearly]
    simp only [Bool.false_eq_true, if_false, addIssuer, Option.map_some, hc]
    generalize hb : (if D.iframe = true then (paramsOf req r).set "session_state" (.str (D.sessionState c u)) else paramsOf req r) = base
    have hbase : ∀ k, k ≠ "session_state" → base.get? k = (paramsOf req r).get? k := by
      intro k hk
      rw [← hb]
      split
      · exact Dict.get?_set_ne _ _ (Ne.symm hk)
      · rfl
    have hps : ∀ k, k ≠ "iss" → k ≠ "client_id" → k ≠ "session_state" →
        ((base.set "iss" (.str D.issuer)).set "client_id" (.str c)).get? k = (paramsOf req r).get? k := by
      intro k h1 h2 h3
      rw [Dict.get?_set_ne _ _ (Ne.symm h2), Dict.get?_set_ne _ _ (Ne.symm h1), hbase k h3]
    refine ⟨.redirect u (if inFragment { args := some ((base.set "iss" (.str D.issuer)).set "client_id" (.str c)), fragmentEnc := fe, returnUri := some u } then .fragment else .query)
        ((base.set "iss" (.str D.issuer)).set "client_id" (.str c)), rfl, rfl, ⟨hform, ?_⟩, reports_of hps, ?_, fun _ => ⟨⟨?_, ?_⟩, ?_⟩⟩
    · by_cases hco : NoTokenAsked req.responseType
      · left
        have : fe ≠ some true := fun h => (hf.1 (hfe.1 h)) hco
        simp [inFragment, this, hco]
      · right
        have := hfe.2 (hf.2 hco)
        simp [inFragment, this, hco]
    · refine stateReturned_of ?_
      show Dict.get? ((base.set "iss" (.str D.issuer)).set "client_id" (.str c)) "state" = _
      rw [hps _ (by decide) (by decide) (by decide)]
      exact hstate
    · show Dict.get? ((base.set "iss" (.str D.issuer)).set "client_id" (.str c)) "iss" = _
      rw [Dict.get?_set_ne _ _ (by decide), Dict.get?_set_self]
    · show Dict.get? ((base.set "iss" (.str D.issuer)).set "client_id" (.str c)) "client_id" = _
      rw [Dict.get?_set_self, hc]; rfl
    · intro hif
      refine ⟨c, hc, ?_⟩
      show Dict.get? ((base.set "iss" (.str D.issuer)).set "client_id" (.str c)) "session_state" = _
      rw [Dict.get?_set_ne _ _ (by decide), Dict.get?_set_ne _ _ (by decide), ← hb, if_pos hif, Dict.get?_set_self]

/-- C92 (partial), login required.  If a login is needed that the client does not want the user to see, the client is told so at its
redirect URI, with its state: in a form if it asks for one, and if it names no response mode in the query for a code and in the
fragment for tokens.  (Missing: the response modes "query" and "fragment", see the refutation; with the response type "none" the error
goes to the fragment.) -/
theorem C92_login_required_partial (p : Prov) (D : Delivery) (w w' : World) (req : AuthzReq) (u : String) (hint : List String)
    (cookies : List SessionCookie) (reqUser : Option (Option String))
    (hs : processAuthz p.L p.E w req hint cookies reqUser = (.ok .loginRequired, w'))
    (hu : req.redirectUri = some u) (ht : req.responseType ≠ [])
    (hm : req.responseMode = none ∨ req.responseMode = some "form_post") :
    ∃ o, authzHttp p D w req hint cookies reqUser = .ok (.out o) ∧ Target o = u ∧
      (Params o).get? "error" = some (.str "login_required") ∧ NoCredentials (Params o) ∧ StateReturned req (Params o) ∧
      (req.responseMode = some "form_post" → ∃ ps, o = .form u ps) ∧
      (req.responseType ≠ ["none"] → req.responseType.Nodup → PlaceAsked req o) := by
  have hte : req.responseType.isEmpty = false := by
    cases h : req.responseType with
    | nil => exact absurd h ht
    | cons _ _ => rfl
  have hex : ∃ m w1, authzHttp p D w req hint cookies reqUser = setupHttp p D w1 m req .loginRequired := by
    unfold processAuthz at hs
    unfold authzHttp
    cases hc : req.clientId with
    | none => rw [hc] at hs; cases hs
    | some c =>
      rw [hc] at hs
      simp only [] at hs ⊢
      by_cases hh : (!p.L.scopes.cdb.has c) = true
      · rw [if_pos hh] at hs; cases hs
      rw [if_neg hh] at hs ⊢
      cases h1 : checkUnknownScopes p.L.scopes c req.scope with
      | error e => rw [h1] at hs; cases hs
      | ok _ =>
        rw [h1] at hs
        simp only [] at hs ⊢
        cases h2 : pickMethod p.L.broker hint req with
        | error e => rw [h2] at hs; cases hs
        | ok m =>
          rw [h2] at hs
          simp only [] at hs ⊢
          cases h3 : setupAuth p.E p.L.loads m w req cookies reqUser with
          | mk a w1 =>
            rw [h3] at hs
            cases a with
            | error e => cases hs
            | ok r =>
              cases r with
              | login => cases hs
              | session a b => cases hs
              | loginRequired => exact ⟨m, w1, rfl⟩
  obtain ⟨m, w1, he⟩ := hex
  have ho : ∃ o, setupHttp p D w1 m req .loginRequired = .ok (.out o) ∧
      (req.responseType ≠ ["none"] → req.responseType.Nodup → PlaceAsked req o) := by
    unfold setupHttp loginRequiredInfo
    rw [hte]
    simp only [Bool.false_eq_true, if_false, hu]
    rcases hm with hm | hm
    · refine ⟨_, by simp only [setupErrorInfo, hm]; rfl, ?_⟩
      intro hn hnd
      refine ⟨by rw [hm]; simp, ?_⟩
      have hiff : NoTokenAsked req.responseType ↔ req.responseType = ["code"] := by
        unfold NoTokenAsked
        constructor
        · rintro (h | ⟨h1, h2⟩)
          · exact absurd h hn
          · match hl : req.responseType with
            | [] => rw [hl] at h1; cases h1
            | [a] => rw [hl] at h2; rw [h2 a List.mem_cons_self]
            | a :: b :: l =>
              rw [hl] at h2 hnd
              rw [h2 a List.mem_cons_self, h2 b (by simp)] at hnd
              simp at hnd
        · intro h; rw [h]; exact .inr ⟨by simp, by simp⟩
      rw [hiff]
      simp only [inFragment]
      by_cases hc : req.responseType = ["code"]
      · left
        refine ⟨?_, hc⟩
        simp [hc]
      · right
        refine ⟨?_, hc⟩
        rw [if_pos]
        simpa using hc
    · refine ⟨_, by simp only [setupErrorInfo, hm, if_true]; rfl, ?_⟩
      intro _ _
      exact hm
  obtain ⟨o, ho, hplace⟩ := ho
  obtain ⟨h1, h2, h3, h4⟩ := loginRequired_good hu hm ho
  exact ⟨o, he.trans ho, h1, h3, h2.error (by rw [h3]; simp), stateReturned_of h2.state, fun h => ⟨_, h4 h⟩, hplace⟩

end OidcOp

namespace OidcOp.Ex
open OidcOp Spec

/-- A provider with session management. -/
def delivery : Delivery := { issuer := "https://op", iframe := true, sessionState := fun c u => c ++ u }

/-- Somebody has logged in at the first client. -/
def loggedIn : World := (provHistory prov 1000 [.request "c1" (authzReq "c1") [] [] none, .loggedIn 0 "d", .tick 5]).w

/-- C92: a code is delivered, in the query. -/
example : (part2Http prov delivery loggedIn (sid "c1" 0) (authzReq "c1")) =
    .ok (.redirect "https://rp/cb" .query
      [("state", .str "s"), ("scope", .arr [.str "openid", .str "email", .str "offline_access"]),
       ("code", .str (E.mkVal 2 .authorizationCode (sid "c1" 0))), ("session_state", .str "c1https://rp/cb"),
       ("iss", .str "https://op"), ("client_id", .str "c1")]) := by
  decide +kernel

/-- The hypotheses of `C92_delivered_partial` are met. -/
example : (∃ s r, (postAuthentication prov.E loggedIn (sid "c1" 0) (authzReq "c1")).1 = .ok (some (s, .resp r false)) ∧
      r.code.isSome = true) ∧
    verifyUri prov.U prov.uris (some "c1") (some "https://rp/cb") = .ok () ∧ ModeFits (authzReq "c1") ∧
    (∃ ev, eventOf prov.E (postAuthentication prov.E loggedIn (sid "c1" 0) (authzReq "c1")).2 (sid "c1" 0) = .ok ev ∧
      loggedIn.now < ev.validUntil) := by
  refine ⟨?_, by decide +kernel, .inl rfl, ?_⟩
  · have h : (match (postAuthentication prov.E loggedIn (sid "c1" 0) (authzReq "c1")).1 with
        | .ok (some (_, .resp r false)) => r.code.isSome
        | _ => false) = true := by decide +kernel
    split at h
    · rename_i s r hr
      exact ⟨s, r, hr, h⟩
    · cases h
  · have h : (match eventOf prov.E (postAuthentication prov.E loggedIn (sid "c1" 0) (authzReq "c1")).2 (sid "c1" 0) with
        | .ok ev => decide (loggedIn.now < ev.validUntil)
        | _ => false) = true := by decide +kernel
    split at h
    · rename_i ev hev
      exact ⟨ev, hev, by simpa using h⟩
    · cases h

/-- A response mode that does not fit: an error at the redirect URI. -/
example : ((part2Http prov delivery loggedIn (sid "c1" 0) { authzReq "c1" with responseMode := some "fragment" }).map
      (fun o => (Target o, (Params o).get? "error", (Params o).get? "code"))) =
    .ok ("https://rp/cb", some (.str "invalid_request"), none) := by decide +kernel

/-- C92: a login is required. -/
example : authzHttp prov delivery loggedIn { authzReq "c1" with prompt := some ["none"] } [] [] none =
      .ok (.out (.redirect "https://rp/cb" .query [("error", .str "login_required"), ("state", .str "s")])) ∧
    authzHttp prov delivery loggedIn { authzReq "c1" with prompt := some ["none"], responseMode := some "form_post" } [] [] none =
      .ok (.out (.form "https://rp/cb" [("error", .str "login_required"), ("state", .str "s")])) ∧
    (processAuthz prov.L prov.E loggedIn { authzReq "c1" with prompt := some ["none"] } [] [] none).1 = .ok .loginRequired := by
  decide +kernel

/-- The hypotheses of `C92_where_partial` are met: a request passes vetting, and with the cookie of the session it is answered at
once. -/
example : (parseAuthz prov "c1" { authzReq "c1" with state := some "t" } { w := loggedIn }).1 =
      .ok (.req { authzReq "c1" with state := some "t" }) ∧
    ((authzHttp prov delivery loggedIn { authzReq "c1" with state := some "t" } [] [⟨sid "c1" 0, 1000⟩] none).map
      (fun o => match o with | .out o => some (Target o, (Params o).get? "state") | _ => none)) =
      .ok (some ("https://rp/cb", some (.str "t"))) := by decide +kernel

/-- C92 is false of the code: with prompt "none" and a response mode, the error does not go to the client but to the empty URL. -/
theorem C92_where_refuted :
    ¬ (∀ (p : Prov) (D : Delivery) (client : String) (req0 req : AuthzReq) (s s' : PState),
      parseAuthz p client req0 s = (.ok (.req req), s') → ∀ o, authzHttp p D s.w req [] [] none = .ok (.out o) →
      ∃ c uri, req.clientId = some c ∧ OwnRedirect p c uri ∧ Target o = uri) := by
  intro h
  obtain ⟨c, uri, h1, ⟨cl, regs, h2, h3, h4⟩, h5⟩ :=
    h prov delivery "c1" { authzReq "c1" with prompt := some ["none"], responseMode := some "query" }
      { authzReq "c1" with prompt := some ["none"], responseMode := some "query" } { w := loggedIn }
      (parseAuthz prov "c1" { authzReq "c1" with prompt := some ["none"], responseMode := some "query" } { w := loggedIn }).2
      (Prod.ext (by decide +kernel) rfl)
      (.redirect "" .query
        [("error", .str "login_required"), ("return_uri", .str "https://rp/cb"), ("return_type", .arr [.str "code"]),
         ("state", .str "s")]) (by decide +kernel)
  cases h1
  have hcl : cl = { redirectUris := some [.pair "https://rp/cb" []], responseTypes := ["code"] } := by
    have : prov.clients.get? "c1" = some { redirectUris := some [.pair "https://rp/cb" []], responseTypes := ["code"] } := rfl
    rw [this] at h2
    exact (Option.some.inj h2).symm
  subst hcl
  cases h3
  subst h5
  rcases h4 with ⟨r, hr, hm⟩ | ⟨b, q, hr, ha⟩
  · simp only [List.mem_singleton] at hr
    subst hr
    revert hm
    unfold Matches
    rintro ⟨-, hb, -⟩
    exact absurd hb (by decide +kernel)
  · simp only [List.cons.injEq, RegUri.pair.injEq, and_true] at hr
    obtain ⟨rfl, rfl⟩ := hr
    rcases ha with ⟨ha, -⟩ | ha
    · exact absurd ha (by decide)
    · exact absurd ha (by decide +kernel)

/-- C92 is false of the code: the user's authentication has timed out, and the client hears nothing, since the request names no
response mode and the error is made with it. -/
theorem C92_timed_out_refuted :
    ¬ (∀ (p : Prov) (D : Delivery) (w : World) (sid : String) (req : AuthzReq) (s : Sess) (r : ARes),
      (postAuthentication p.E w sid req).1 = .ok (some (s, r)) →
      ∀ c u, req.clientId = some c → req.redirectUri = some u → verifyUri p.U p.uris (some c) (some u) = .ok () → ModeFits req →
      ∃ o, part2Http p D w sid req = .ok o) := by
  intro h
  have hx : (match (postAuthentication prov.E { loggedIn with now := 10000 } (sid "c1" 0) (authzReq "c1")).1 with
      | .ok (some _) => true
      | _ => false) = true := by decide +kernel
  split at hx
  · rename_i a ha
    obtain ⟨o, ho⟩ := h prov delivery { loggedIn with now := 10000 } (sid "c1" 0) (authzReq "c1") a.1 a.2 ha "c1" "https://rp/cb" rfl
      rfl (by decide +kernel) (.inl rfl)
    have : part2Http prov delivery { loggedIn with now := 10000 } (sid "c1" 0) (authzReq "c1") = .error .keyError := by
      decide +kernel
    rw [this] at ho
    cases ho
  · cases hx

/-- C92 is false of the code: an answer in a form names neither the provider nor the client, and has no session state. -/
theorem C92_form_post_refuted :
    ¬ (∀ (p : Prov) (D : Delivery) (w : World) (sid : String) (req : AuthzReq) (o : HttpOut),
      part2Http p D w sid req = .ok o → (Params o).get? "error" = none → NamesIssuer D req (Params o)) := by
  intro h
  obtain ⟨h1, -⟩ := h prov delivery loggedIn (sid "c1" 0) { authzReq "c1" with responseMode := some "form_post" }
    (.form "https://rp/cb"
      [("state", .str "s"), ("scope", .arr [.str "openid", .str "email", .str "offline_access"]),
       ("code", .str (E.mkVal 2 .authorizationCode (sid "c1" 0)))]) (by decide +kernel) (by decide +kernel)
  exact absurd h1 (by decide +kernel)

end OidcOp.Ex
