/-
C106: hints about the user in authorization requests; and what C40 says about the endpoint.
-/
import Verif.Props.Login
import Verif.Spec.Hints

namespace OidcOp
open Spec

/-! ### What the endpoint does with the method and the user -/

theorem processAuthz_part2 {L : LoginCfg} {E : Env} {w w' : World} {req : AuthzReq} {hint : List String}
    {cookies : List SessionCookie} {ru : Option (Option String)} {sid user : String} {k : Option SessionCookie}
    (h : processAuthz L E w req hint cookies ru = (.ok (.part2 sid user k), w')) :
    entryChecks L req = .ok () ∧ ∃ m w1, pickMethod L.broker hint req = .ok m ∧
      setupAuth E L.loads m w req cookies ru = (.ok (.session sid user), w1) ∧ k = cookieOf E w1 sid req ∧
      w' = authzPart2 E w1 sid req := by
  unfold processAuthz at h
  unfold entryChecks
  split at h
  · cases h
  · rename_i c hc
    rw [hc]
    split at h
    · cases h
    · rename_i hh
      simp only [hh]
      split at h
      · cases h
      · rename_i hs
        simp only [hs]
        split at h
        · cases h
        · rename_i m hm
          split at h
          · cases h
          · cases h
          · cases h
          · rename_i sid1 user1 w1 he
            simp only [Prod.mk.injEq, Except.ok.injEq, ProcRes.part2.injEq] at h
            obtain ⟨⟨rfl, rfl, h1⟩, h2⟩ := h
            exact ⟨rfl, m, w1, hm, he, h1.symm, h2.symm⟩

theorem processAuthz_login {L : LoginCfg} {E : Env} {w w' : World} {req : AuthzReq} {hint : List String}
    {cookies : List SessionCookie} {ru : Option (Option String)} {m : AuthnMethod}
    (h : processAuthz L E w req hint cookies ru = (.ok (.loginPage m), w')) : pickMethod L.broker hint req = .ok m := by
  unfold processAuthz at h
  split at h
  · cases h
  · split at h
    · cases h
    · split at h
      · cases h
      · split at h
        · cases h
        · rename_i m' hm
          split at h
          · cases h
          · simp only [Prod.mk.injEq, Except.ok.injEq, ProcRes.loginPage.injEq] at h
            rw [← h.1]; exact hm
          · cases h
          · cases h

theorem reuseSession_user {E : Env} {w w' : World} {req : AuthzReq} {us sd sid user : String}
    (h : reuseSession E w req us sd = (.ok (.session sid user), w')) : us = user := by
  have fin : ∀ {w1 s1}, finishSetup E w1 s1 us = (.ok (.session sid user), w') → us = user := by
    intro w1 s1 h
    unfold finishSetup at h
    split at h
    · cases h
    · split at h
      · cases h; rfl
      · cases h
  unfold reuseSession at h
  split at h
  · cases h
  · split at h
    · cases h
    · split at h
      · cases h
      · split at h
        · cases h
        · split at h
          · split at h
            · cases h
            · split at h
              · cases h
              · split at h
                · cases h
                · exact fin h
          · exact fin h
  · cases h

theorem setupAuth_same {E : Env} {loads : List Nat → Except Exc Identity} {m : AuthnMethod} {w w' : World} {req : AuthzReq}
    {cookies : List SessionCookie} {sid user : String}
    (h : setupAuth E loads m w req cookies none = (.ok (.session sid user), w')) :
    setupAuth E loads m w req cookies (some (some user)) = (.ok (.session sid user), w') := by
  unfold setupAuth at h ⊢
  cases hi : findIdentity E loads w req cookies with
  | error e => rw [hi] at h; cases h
  | ok o =>
    cases o with
    | none =>
      rw [hi] at h
      simp only [] at h
      split at h
      · cases h
      · unfold askLogin at h; split at h <;> cases h
    | some i =>
      rw [hi] at h
      simp only [] at h ⊢
      by_cases h1 : req.redirectUri.isNone = true
      · rw [if_pos h1] at h; cases h
      · rw [if_neg h1] at h ⊢
        by_cases h2 : promptHas req "login" = true
        · rw [if_pos h2] at h; cases h
        · rw [if_neg h2] at h ⊢
          cases hu : i.uid with
          | none => rw [hu] at h; cases h
          | some us =>
            rw [hu] at h
            simp only [] at h ⊢
            rw [if_neg (by simp)] at h
            have : us = user := by
              split at h
              · exact reuseSession_user h
              · split at h
                · cases h
                · cases h; rfl
            subst this
            rw [if_neg (by simp)]
            exact h

theorem setupAuth_user {E : Env} {loads : List Nat → Except Exc Identity} {m : AuthnMethod} {w w' : World} {req : AuthzReq}
    {cookies : List SessionCookie} {u : Option String} {sid user : String}
    (h : setupAuth E loads m w req cookies (some u) = (.ok (.session sid user), w')) : u = some user := by
  unfold setupAuth at h
  split at h
  · cases h
  · split at h
    · cases h
    · unfold askLogin at h; split at h <;> cases h
  · split at h
    · cases h
    · split at h
      · cases h
      · split at h
        · cases h
        · rename_i us _
          split at h
          · unfold askLogin at h; split at h <;> cases h
          · rename_i hru
            have hu : u = some us := by simpa using hru
            rw [hu]
            split at h
            · rw [reuseSession_user h]
            · split at h
              · cases h
              · cases h; rfl

theorem pickMethod_ok {broker : List AuthnMethod} {hint : List String} {req : AuthzReq} {m : AuthnMethod}
    (h : pickMethod broker hint req = .ok m) : pickAuth broker hint req = .ok (some m) := by
  unfold pickMethod at h
  split at h
  · rename_i m' hm; cases h; exact hm
  · cases h

/-- C40, at the endpoint, with the same exception: the login page that a request leads to is of a method of the broker with
a requested acr, the first one in the order of the request that any method has. -/
theorem C40_login_page_partial (L : LoginCfg) (E : Env) (w w' : World) (req : AuthzReq) (hint : List String)
    (cookies : List SessionCookie) (ru : Option (Option String)) (acrs : List String) (m : AuthnMethod)
    (hb : L.broker.length ≠ 1) (hr : AsksAcr req acrs) (hne : acrs ≠ [])
    (h : processAuthz L E w req hint cookies ru = (.ok (.loginPage m), w')) :
    m ∈ L.broker ∧ ∃ pre post, acrs = pre ++ m.acr :: post ∧ ∀ a ∈ pre, ∀ m' ∈ L.broker, m'.acr ≠ a := by
  obtain ⟨pre, post, h1, h2, before, after, h3, -⟩ :=
    (C40_acr_honoured_partial L.broker hint req acrs hb hr hne).1 m (pickMethod_ok (processAuthz_login h))
  exact ⟨by rw [h3]; simp, pre, post, h1, h2⟩

/-- C40, at the endpoint, with the same exception: if no method has a requested acr then there is neither a login page nor
an answer to the client. -/
theorem C40_no_method_partial (L : LoginCfg) (E : Env) (w : World) (req : AuthzReq) (hint : List String)
    (cookies : List SessionCookie) (ru : Option (Option String)) (acrs : List String)
    (hb : L.broker.length ≠ 1) (hr : AsksAcr req acrs) (hne : acrs ≠ []) (hno : ∀ m ∈ L.broker, m.acr ∉ acrs) :
    ∃ e, processAuthz L E w req hint cookies ru = (.error e, w) := by
  have hp := (C40_acr_honoured_partial L.broker hint req acrs hb hr hne).2.1.2 hno
  have hm : pickMethod L.broker hint req = .error .keyError := by unfold pickMethod; rw [hp]
  unfold processAuthz
  split
  · exact ⟨_, rfl⟩
  · split
    · exact ⟨_, rfl⟩
    · split
      · exact ⟨_, rfl⟩
      · rw [hm]; exact ⟨_, rfl⟩

/-- C40.  If the request asks for no authentication context then that of a hint decides in the same way, and without a hint
it is the first method. -/
theorem C40_by_hint (broker : List AuthnMethod) (hint : List String) (req : AuthzReq)
    (hb : broker.length ≠ 1) (hr : AsksNoAcr req) :
    (∀ m, hint ≠ [] → pickAuth broker hint req = .ok (some m) →
      m ∈ broker ∧ ∃ pre post, hint = pre ++ m.acr :: post ∧ ∀ a ∈ pre, ∀ m' ∈ broker, m'.acr ≠ a) ∧
    (hint ≠ [] → (pickAuth broker hint req = .ok none ↔ ∀ m ∈ broker, m.acr ∉ hint)) ∧
    (hint = [] → pickAuth broker hint req = .ok broker.head?) := by
  have hw : wantedAcrs hint req = .ok (hint.map .str) := by
    simp [wantedAcrs, acrClaim, hr.1, hr.2]
  have hw' : ∀ (r : AuthzReq), r.acrValues = some hint → wantedAcrs hint r = .ok (hint.map .str) := by
    intro r h; simp [wantedAcrs, h]
  have same : pickAuth broker hint req = pickAuth broker hint { req with acrValues := some hint } := by
    unfold pickAuth; rw [hw, hw' { req with acrValues := some hint } rfl]
  have hp := fun hne => C40_acr_honoured_partial broker hint { req with acrValues := some hint } hint hb (.acrValues rfl) hne
  rw [same]
  refine ⟨fun m hne h => ?_, fun hne => (hp hne).2.1, fun he => ?_⟩
  · obtain ⟨pre, post, h1, h2, before, after, h3, -⟩ := (hp hne).1 m h
    exact ⟨by rw [h3]; simp, pre, post, h1, h2⟩
  · subst he
    rw [← same]
    unfold pickAuth
    rw [hw]
    split
    · exact absurd rfl hb
    · rfl

/-! ### C106 -/

theorem recordHas_iff (attr value : String) (rec : Dict Json) : recordHas attr value rec = true ↔ HasValue rec attr value := by
  unfold recordHas HasValue
  cases h : rec.get? attr with
  | none => simp
  | some v => cases v <;> simp

theorem userSearch_ok {attr value u : String} {db : Dict (Dict Json)} (h : userSearch attr value db = .ok u) :
    ∃ rec, (u, rec) ∈ db ∧ HasValue rec attr value := by
  induction db with
  | nil => cases h
  | cons p db ih =>
    obtain ⟨uid, rec⟩ := p
    rw [userSearch] at h
    split at h
    · rename_i hr
      cases h
      exact ⟨rec, by simp, (recordHas_iff ..).1 hr⟩
    · obtain ⟨r, h1, h2⟩ := ih h
      exact ⟨r, List.mem_cons_of_mem _ h1, h2⟩

theorem userSearch_found {attr value u : String} {db : Dict (Dict Json)} {rec : Dict Json} (hm : (u, rec) ∈ db)
    (hv : HasValue rec attr value) : ∃ u' , userSearch attr value db = .ok u' := by
  induction db with
  | nil => cases hm
  | cons p db ih =>
    obtain ⟨uid, rec'⟩ := p
    rw [userSearch]
    split
    · exact ⟨_, rfl⟩
    · rename_i hr
      rcases List.mem_cons.1 hm with h | h
      · cases h
        exact absurd ((recordHas_iff ..).2 hv) hr
      · exact ih h

theorem userSearch_none {attr value : String} {db : Dict (Dict Json)} (h : ∀ u rec, (u, rec) ∈ db → ¬ HasValue rec attr value) :
    userSearch attr value db = .error .keyError := by
  induction db with
  | nil => rfl
  | cons p db ih =>
    obtain ⟨uid, rec⟩ := p
    rw [userSearch, if_neg (fun hr => h uid rec (by simp) ((recordHas_iff ..).1 hr))]
    exact ih (fun u rec hm => h u rec (List.mem_cons_of_mem _ hm))

theorem lookup_international (db : Dict (Dict Json)) (n : String) :
    loginHintLookup db ("tel:+" ++ n) = (userSearch "phone_number" ("+" ++ n) db).map some := by
  unfold loginHintLookup
  rw [if_pos (by simp)]
  simp only [String.toList_append]
  have : List.drop 4 ("tel:+".toList ++ n.toList) = '+' :: n.toList := rfl
  rw [this]
  simp only [if_true]
  congr 2
  apply String.toList_inj.1
  simp

theorem lookup_national (db : Dict (Dict Json)) (c : Char) (n : String) (hc : c ≠ '+') :
    loginHintLookup db ("tel:" ++ String.ofList [c] ++ n) = (userSearch "phone_number" ("+46" ++ n) db).map some := by
  unfold loginHintLookup
  rw [if_pos (by simp)]
  simp only [String.toList_append, String.toList_ofList]
  have : List.drop 4 ("tel:".toList ++ [c] ++ n.toList) = c :: n.toList := rfl
  rw [this]
  simp only [if_neg hc]
  congr 2
  apply String.toList_inj.1
  simp

theorem lookup_mail (db : Dict (Dict Json)) (a : String) :
    loginHintLookup db ("mail:" ++ a) = (userSearch "email" a db).map some := by
  unfold loginHintLookup
  rw [if_neg (by simp), if_pos (by simp)]
  simp only [String.toList_append]
  have : List.drop 5 ("mail:".toList ++ a.toList) = a.toList := rfl
  rw [this, String.ofList_toList]

theorem split_prefix {p : String} {a : String} (h : p.toList.isPrefixOf a.toList = true) :
    ∃ r : List Char, a.toList.drop p.toList.length = r ∧ a = p ++ String.ofList r := by
  rw [List.isPrefixOf_iff_prefix] at h
  obtain ⟨t, ht⟩ := h
  refine ⟨t, ?_, ?_⟩
  · rw [← ht]; simp
  · apply String.toList_inj.1
    rw [← ht]; simp

theorem lookup_ok {db : Dict (Dict Json)} {hint u : String} (h : loginHintLookup db hint = .ok (some u)) :
    ∃ rec, (u, rec) ∈ db ∧ Identifies hint rec := by
  have unmap : ∀ {x : Except Exc String}, x.map some = .ok (some u) → x = .ok u := by
    intro x hx
    cases x with
    | error e => cases hx
    | ok v => cases hx; rfl
  by_cases ht : "tel:".toList.isPrefixOf hint.toList = true
  · obtain ⟨r, hr, rfl⟩ := split_prefix ht
    cases r with
    | nil =>
      rw [loginHintLookup, if_pos ht] at h
      have : ("tel:" ++ String.ofList []).toList.drop 4 = [] := by simp
      rw [this] at h
      cases h
    | cons c r =>
      by_cases hc : c = '+'
      · subst hc
        have e : "tel:" ++ String.ofList ('+' :: r) = "tel:+" ++ String.ofList r := by
          apply String.toList_inj.1; simp
        rw [e, lookup_international] at h
        obtain ⟨rec, h1, h2⟩ := userSearch_ok (unmap h)
        rw [e]
        exact ⟨rec, h1, .international h2⟩
      · have e : "tel:" ++ String.ofList (c :: r) = "tel:" ++ String.ofList [c] ++ String.ofList r := by
          apply String.toList_inj.1; simp
        rw [e, lookup_national _ _ _ hc] at h
        obtain ⟨rec, h1, h2⟩ := userSearch_ok (unmap h)
        rw [e]
        exact ⟨rec, h1, .national hc h2⟩
  · by_cases hm : "mail:".toList.isPrefixOf hint.toList = true
    · obtain ⟨r, hr, rfl⟩ := split_prefix hm
      rw [lookup_mail] at h
      obtain ⟨rec, h1, h2⟩ := userSearch_ok (unmap h)
      exact ⟨rec, h1, .mail h2⟩
    · rw [loginHintLookup, if_neg ht, if_neg hm] at h
      cases h

theorem lookup_found {db : Dict (Dict Json)} {hint u : String} {rec : Dict Json} (hm : (u, rec) ∈ db)
    (hi : Identifies hint rec) (huniq : ∀ u' rec', (u', rec') ∈ db → Identifies hint rec' → u' = u) :
    loginHintLookup db hint = .ok (some u) := by
  have key : ∃ u', loginHintLookup db hint = .ok (some u') := by
    cases hi with
    | international hv =>
      obtain ⟨u', h⟩ := userSearch_found hm hv
      exact ⟨u', by rw [lookup_international, h]; rfl⟩
    | national hc hv =>
      obtain ⟨u', h⟩ := userSearch_found hm hv
      exact ⟨u', by rw [lookup_national _ _ _ hc, h]; rfl⟩
    | mail hv =>
      obtain ⟨u', h⟩ := userSearch_found hm hv
      exact ⟨u', by rw [lookup_mail, h]; rfl⟩
  obtain ⟨u', h⟩ := key
  obtain ⟨rec', h1, h2⟩ := lookup_ok h
  rw [h, huniq u' rec' h1 h2]

theorem doRequestUser_hint {db : Dict (Dict Json)} {h : Hints} {hint : String} (hv : h.verified.has "it_token_hint" = false)
    (hh : h.loginHint = some hint) (hne : hint ≠ "") :
    doRequestUser (some db) h = (loginHintLookup db hint).map some := by
  have : proposedUser h = none := by
    unfold proposedUser
    rw [(Dict.get?_eq_none_iff ..).2 (by rw [← Dict.has_iff]; simp [hv])]
  unfold doRequestUser
  rw [this, hh]
  simp [truthyStr, hne]

theorem doRequestUser_none {lookup : Option (Dict (Dict Json))} {h : Hints} (hv : h.verified.has "it_token_hint" = false)
    (hh : lookup = none ∨ h.loginHint = none) : doRequestUser lookup h = .ok none := by
  have : proposedUser h = none := by
    unfold proposedUser
    rw [(Dict.get?_eq_none_iff ..).2 (by rw [← Dict.has_iff]; simp [hv])]
  unfold doRequestUser
  rw [this]
  rcases hh with rfl | hh
  · cases truthyStr h.loginHint <;> rfl
  · rw [hh]; rfl

/-- C106, for login hints (`it_token_hint` is no parameter of a request).  If the provider looks users up by login hints, then
a request with a login hint is answered without a login page only for a user of the database of whom the hint speaks. -/
theorem C106_login_hint_partial (L : LoginCfg) (H : HintCfg) (E : Env) (w w' : World) (req : AuthzReq) (h : Hints)
    (cookies : List SessionCookie) (db : Dict (Dict Json)) (hint sid user : String) (k : Option SessionCookie)
    (hl : H.lookup = some db) (hv : h.verified.has "it_token_hint" = false) (hh : h.loginHint = some hint) (hne : hint ≠ "")
    (hr : processOidc L H E w req h cookies = (.ok (.part2 sid user k), w')) :
    ∃ rec, (user, rec) ∈ db ∧ Identifies hint rec := by
  unfold processOidc at hr
  split at hr
  · cases hr
  · rw [hl, doRequestUser_hint hv hh hne] at hr
    cases hq : loginHintLookup db hint with
    | error e => rw [hq] at hr; cases hr
    | ok u =>
      rw [hq] at hr
      obtain ⟨-, m, w1, -, h2, -⟩ := processAuthz_part2 hr
      rw [setupAuth_user h2] at hq
      exact lookup_ok hq

/-- C106.  The user of whom the login hint speaks is not asked to log in again: if the request is answered for that user
without the hint, then it is answered in the same way with it. -/
theorem C106_same_user (L : LoginCfg) (H : HintCfg) (E : Env) (w w' : World) (req : AuthzReq) (h : Hints)
    (cookies : List SessionCookie) (db : Dict (Dict Json)) (hint sid user : String) (rec : Dict Json) (k : Option SessionCookie)
    (hl : H.lookup = some db) (hs : H.schemeMap = none) (hv : h.verified = []) (hh : h.loginHint = some hint) (hne : hint ≠ "")
    (hm : (user, rec) ∈ db) (hi : Identifies hint rec) (huniq : ∀ u' rec', (u', rec') ∈ db → Identifies hint rec' → u' = user)
    (hr : processOidc L H E w req {} cookies = (.ok (.part2 sid user k), w')) :
    processOidc L H E w req h cookies = (.ok (.part2 sid user k), w') := by
  have hacr : ∀ h' : Hints, h'.verified = [] → hintAcrs H.scheme H.schemeMap h' = [] := by
    intro h' hv'
    unfold hintAcrs
    rw [hv', hs]
    cases truthyStr h'.loginHint <;> rfl
  unfold processOidc at hr ⊢
  rw [hl] at hr ⊢
  split at hr
  · cases hr
  · rename_i hc
    have hv' : h.verified.has "it_token_hint" = false := by rw [hv]; rfl
    rw [doRequestUser_hint hv' hh hne, lookup_found hm hi huniq]
    rw [doRequestUser_none (by rfl) (.inr rfl)] at hr
    simp only [Except.map] at hr ⊢
    rw [hacr _ rfl] at hr
    rw [hacr _ hv]
    obtain ⟨-, m, w1, h1, h2, h3, h4⟩ := processAuthz_part2 hr
    have h2' : setupAuth E L.loads m w req cookies (some (some user)) = (.ok (.session sid user), w1) :=
      setupAuth_same h2
    unfold processAuthz at hr ⊢
    unfold entryChecks at hc
    split at hc
    · cases hc
    · rename_i c hcl
      rw [hcl] at hr ⊢
      split at hc
      · cases hc
      · rename_i hcd
        simp only [hcd] at hr ⊢
        cases hcs : checkUnknownScopes L.scopes c req.scope with
        | error e => rw [hcs] at hr; cases hr
        | ok _ =>
          rw [hcs, h1] at hr
          simp only [h1, h2', h3, h4]
          rfl

/-- C106: an ID token in a request has no influence on the user for whom it is answered: with one authentication method
all verified ID tokens lead to the same, whatever "sub" they have. -/
theorem C106_id_token_ignored (L : LoginCfg) (H : HintCfg) (E : Env) (w : World) (req : AuthzReq) (loginHint : Option String)
    (cookies : List SessionCookie) (claims claims' : Dict Json) (hb : L.broker.length = 1) :
    processOidc L H E w req { verified := [("id_token_hint", claims)], loginHint := loginHint } cookies =
      processOidc L H E w req { verified := [("id_token_hint", claims')], loginHint := loginHint } cookies := by
  have hp : ∀ a b, pickMethod L.broker a req = pickMethod L.broker b req := by
    intro a b
    unfold pickMethod pickAuth
    split
    · rename_i m hm
      split at hm
      · cases hm; rfl
      · rename_i hne
        match hL : L.broker, hb with
        | [m'], _ => exact absurd hL (hne m')
    · rename_i hm
      split at hm
      · exact absurd rfl (hm _)
      · rename_i hne
        match hL : L.broker, hb with
        | [m'], _ => exact absurd hL (hne m')
  have hpa : ∀ a b ru, processAuthz L E w req a cookies ru = processAuthz L E w req b cookies ru := by
    intro a b ru
    unfold processAuthz
    rw [hp a b]
  unfold processOidc
  have hd : ∀ c, doRequestUser H.lookup { verified := [("id_token_hint", c)], loginHint := loginHint } =
      doRequestUser H.lookup { verified := [], loginHint := loginHint } := by
    intro c
    rfl
  rw [hd, hd]
  cases entryChecks L req with
  | error e => rfl
  | ok _ =>
    cases doRequestUser H.lookup { verified := [], loginHint := loginHint } with
    | error e => rfl
    | ok ru => exact hpa _ _ ru

/-- C106, for authentication contexts, with more than one method and a request that asks for none: the acr of a verified ID
token decides about the login page; without such a token the acrs that the scheme of the login hint stands for do. -/
theorem C106_acr (L : LoginCfg) (H : HintCfg) (E : Env) (w w' : World) (req : AuthzReq) (h : Hints)
    (cookies : List SessionCookie) (m : AuthnMethod) (hb : L.broker.length ≠ 1) (hr : AsksNoAcr req)
    (hp : processOidc L H E w req h cookies = (.ok (.loginPage m), w')) :
    (∀ claims a, h.verified.get? "id_token_hint" = some claims → claims.get? "acr" = some (.str a) → a ≠ "" →
      m ∈ L.broker ∧ m.acr = a) ∧
    (∀ hint sm acrs, h.verified.get? "id_token_hint" = none → h.loginHint = some hint → hint ≠ "" → H.schemeMap = some sm →
      sm.get? (H.scheme hint) = some acrs → acrs ≠ [] →
      m ∈ L.broker ∧ ∃ pre post, acrs = pre ++ m.acr :: post ∧ ∀ a ∈ pre, ∀ m' ∈ L.broker, m'.acr ≠ a) ∧
    (h.verified.get? "id_token_hint" = none → h.loginHint = none → L.broker.head? = some m) := by
  have hm : pickAuth L.broker (hintAcrs H.scheme H.schemeMap h) req = .ok (some m) := by
    unfold processOidc at hp
    split at hp
    · cases hp
    · split at hp
      · cases hp
      · exact pickMethod_ok (processAuthz_login hp)
  obtain ⟨h1, -, h3⟩ := C40_by_hint L.broker (hintAcrs H.scheme H.schemeMap h) req hb hr
  refine ⟨fun claims a hc ha hne => ?_, fun hint sm acrs hc hh hne hs hg hna => ?_, fun hc hh => ?_⟩
  · have he : hintAcrs H.scheme H.schemeMap h = [a] := by
      unfold hintAcrs
      rw [hc]
      cases claims with
      | nil => cases ha
      | cons x xs => simp only [ha, if_neg hne]
    rw [he] at h1 hm
    obtain ⟨h4, pre, post, h5, -⟩ := h1 m (by simp) hm
    refine ⟨h4, ?_⟩
    cases pre with
    | nil => simp at h5; exact h5.1.symm
    | cons x xs => simp at h5
  · have he : hintAcrs H.scheme H.schemeMap h = acrs := by
      unfold hintAcrs
      rw [hc, hh, hs]
      simp [truthyStr, hne, loginHint2Acrs, hg]
    rw [he] at h1 hm
    exact h1 m hna hm
  · have he : hintAcrs H.scheme H.schemeMap h = [] := by
      unfold hintAcrs
      rw [hc, hh]
      cases H.schemeMap <;> rfl
    rw [h3 he] at hm
    exact Except.ok.inj hm

namespace Ex

/-- A provider with one method, and one with two. -/
def hintLogin : LoginCfg := { scopes := { cdb := [("c1", {})] }, broker := [{ acr := "password" }], loads := noJson }
def twoLogin : LoginCfg := { hintLogin with broker := broker }

/-- Users "e" and "d" and their addresses and phones. -/
def hintDb : Dict (Dict Json) :=
  [("e", [("email", .str "e@x.org"), ("phone_number", .str "+46701")]),
   ("d", [("email", .arr [.str "d@x.org", .str "dd@x.org"]), ("phone_number", .str "+4790")])]

def hintCfg : HintCfg := { lookup := some hintDb }

/-- C106, the hypotheses: "d" is logged in; hints of both kinds speak of "d", and the request is answered as without them. -/
example :
    (processOidc hintLogin hintCfg E (signedIn 10) (authzReq "c1") { loginHint := some "mail:dd@x.org" } [cookie]).1 =
      .ok (.part2 (sid "c1" 0) "d" (some { sid := sid "c1" 0, timestamp := 1010 })) ∧
    (processOidc hintLogin hintCfg E (signedIn 10) (authzReq "c1") { loginHint := some "tel:+4790" } [cookie]).1 =
      .ok (.part2 (sid "c1" 0) "d" (some { sid := sid "c1" 0, timestamp := 1010 })) ∧
    (processOidc hintLogin hintCfg E (signedIn 10) (authzReq "c1") {} [cookie]).1 =
      .ok (.part2 (sid "c1" 0) "d" (some { sid := sid "c1" 0, timestamp := 1010 })) := by
  decide +kernel

example : Identifies "mail:dd@x.org" [("email", .arr [.str "d@x.org", .str "dd@x.org"])] :=
  .mail (a := "dd@x.org") (.inr ⟨[.str "d@x.org", .str "dd@x.org"], by decide, by decide⟩)

/-- "0701" speaks of "e": the user "d" is asked to log in as someone else. -/
example :
    (processOidc hintLogin hintCfg E (signedIn 10) (authzReq "c1") { loginHint := some "tel:0701" } [cookie]).1 =
      .ok (.loginPage { acr := "password" }) ∧
    (processOidc hintLogin hintCfg E (signedIn 10) { authzReq "c1" with prompt := some ["none"] }
      { loginHint := some "tel:0701" } [cookie]).1 = .ok .loginRequired := by
  decide +kernel

example : Identifies "tel:0701" [("phone_number", .str "+46701")] :=
  .national (c := '0') (n := "701") (by decide) (.inl (by decide))

/-- Hints about the authentication context. -/
example :
    (processOidc twoLogin { schemeMap := some [("otp", ["hw", "mfa"])], scheme := fun _ => "otp" } E (signedIn 10)
      { authzReq "c1" with state := some "t" } { loginHint := some "otp:d" } []).1 =
      .ok (.loginPage { id := "otp", acr := "mfa", expiresIn := some 600 }) ∧
    (processOidc twoLogin {} E (signedIn 10) (authzReq "c1")
      { verified := [("id_token_hint", [("acr", .str "mfa")])] } []).1 =
      .ok (.loginPage { id := "otp", acr := "mfa", expiresIn := some 600 }) ∧
    (processOidc twoLogin {} E (signedIn 10) (authzReq "c1") {} []).1 =
      .ok (.loginPage { id := "user", acr := "password" }) ∧ AsksNoAcr (authzReq "c1") := by
  refine ⟨by decide +kernel, by decide +kernel, by decide +kernel, rfl, rfl⟩

/-- C106 is false of the code for ID tokens: a request with the ID token of someone else is answered for the user who is
logged in, because the code looks for "it_token_hint" (oidc/authorization.py:15). -/
theorem C106_id_token_hint_refuted :
    ¬ (∀ (L : LoginCfg) (H : HintCfg) (E : Env) (w w' : World), Reachable E w →
      ∀ (req : AuthzReq) (h : Hints) (cookies : List SessionCookie) (claims : Dict Json) (sub sid user : String)
        (k : Option SessionCookie) (s : Sess),
        h.verified.get? "id_token_hint" = some claims → claims.get? "sub" = some (.str sub) →
        processOidc L H E w req h cookies = (.ok (.part2 sid user k), w') → sessionOf E w'.st sid = .ok s →
        s.grant.sub = sub) := by
  intro h
  have hq : (processOidc hintLogin hintCfg E (signedIn 10) (authzReq "c1")
      { verified := [("id_token_hint", [("sub", .str "another")])] } [cookie]).1 =
      .ok (.part2 (sid "c1" 0) "d" (some { sid := sid "c1" 0, timestamp := 1010 })) ∧
      ∃ s, sessionOf E (processOidc hintLogin hintCfg E (signedIn 10) (authzReq "c1")
        { verified := [("id_token_hint", [("sub", .str "another")])] } [cookie]).2.st (sid "c1" 0) = .ok s ∧
        s.grant.sub ≠ "another" := by
    refine ⟨by decide +kernel, ?_⟩
    cases hs : sessionOf E (processOidc hintLogin hintCfg E (signedIn 10) (authzReq "c1")
        { verified := [("id_token_hint", [("sub", .str "another")])] } [cookie]).2.st (sid "c1" 0) with
    | error e =>
      exfalso
      have : (match sessionOf E (processOidc hintLogin hintCfg E (signedIn 10) (authzReq "c1")
        { verified := [("id_token_hint", [("sub", .str "another")])] } [cookie]).2.st (sid "c1" 0) with
        | .ok s => decide (s.grant.sub ≠ "another") | .error _ => false) = true := by decide +kernel
      rw [hs] at this
      cases this
    | ok s =>
      refine ⟨s, rfl, ?_⟩
      have : (match sessionOf E (processOidc hintLogin hintCfg E (signedIn 10) (authzReq "c1")
        { verified := [("id_token_hint", [("sub", .str "another")])] } [cookie]).2.st (sid "c1" 0) with
        | .ok s => decide (s.grant.sub ≠ "another") | .error _ => false) = true := by decide +kernel
      rw [hs] at this
      simpa using this
  obtain ⟨h1, s, h2, h3⟩ := hq
  exact h3 (h _ _ E _ _ ⟨1000, _, rfl⟩ (authzReq "c1") _ [cookie] [("sub", .str "another")] "another" _ _ _ s rfl rfl
    (Prod.ext h1 rfl) h2)

/-- C106 is false of the code for hints that fit no user: the endpoint raises an exception where it would show a login page
without the hint (user_info/__init__.py:78; for "tel:" alone, login_hint.py:13). -/
theorem C106_unknown_user_refuted :
    ¬ (∀ (L : LoginCfg) (H : HintCfg) (E : Env) (w : World), Reachable E w →
      ∀ (req : AuthzReq) (hint : String) (cookies : List SessionCookie) (m : AuthnMethod),
        (processOidc L H E w req {} cookies).1 = .ok (.loginPage m) →
        ∀ e, (processOidc L H E w req { loginHint := some hint } cookies).1 ≠ .error e) := by
  intro h
  exact h hintLogin hintCfg E (signedIn 10) ⟨1000, _, rfl⟩ (authzReq "c1") "mail:f@x.org" [] { acr := "password" }
    (by decide +kernel) .keyError (by decide +kernel)

example : (processOidc hintLogin hintCfg E (signedIn 10) (authzReq "c1") { loginHint := some "tel:" } []).1 =
    .error .indexError := by decide +kernel

/-- C106 is false of the code for hints that are addresses: the user with that address is asked to log in again. -/
theorem C106_address_refuted :
    ¬ (∀ (L : LoginCfg) (H : HintCfg) (E : Env) (w : World), Reachable E w →
      ∀ (req : AuthzReq) (hint : String) (cookies : List SessionCookie) (db : Dict (Dict Json)) (rec : Dict Json)
        (sid user : String) (k : Option SessionCookie),
        H.lookup = some db → (user, rec) ∈ db → HasValue rec "email" hint →
        (processOidc L H E w req {} cookies).1 = .ok (.part2 sid user k) →
        (processOidc L H E w req { loginHint := some hint } cookies).1 = .ok (.part2 sid user k)) := by
  intro h
  have := h hintLogin hintCfg E (signedIn 10) ⟨1000, _, rfl⟩ (authzReq "c1") "d@x.org" [cookie] hintDb _ (sid "c1" 0) "d"
    (some { sid := sid "c1" 0, timestamp := 1010 }) rfl
    (List.mem_cons_of_mem _ (List.mem_cons_self ..)) (.inr ⟨[.str "d@x.org", .str "dd@x.org"], by decide, by decide⟩)
    (by decide +kernel)
  exact absurd this (by decide +kernel)

/-- C40 is false of the code when a login is reused: a request for "mfa" is answered with a session whose authentication
had another context, without a login page (oauth2/authorization.py:600-653). -/
theorem C40_reused_login_refuted :
    ¬ (∀ (L : LoginCfg) (E : Env) (w w' : World), Reachable E w →
      ∀ (req : AuthzReq) (hint : List String) (cookies : List SessionCookie) (ru : Option (Option String)) (acrs : List String)
        (sid user : String) (k : Option SessionCookie) (ev : AuthnEvent),
        L.broker.length ≠ 1 → AsksAcr req acrs → acrs ≠ [] →
        processAuthz L E w req hint cookies ru = (.ok (.part2 sid user k), w') → eventOf E w' sid = .ok ev →
        ev.authnInfo ∈ acrs) := by
  intro h
  have hev : eventOf E (processAuthz twoLogin E (signedIn 10) { authzReq "c1" with acrValues := some ["mfa"] } [] [cookie]
      none).2 (E.encSid 2 ["d", "c1", E.uuid 2]) = .ok event ∧
    (processAuthz twoLogin E (signedIn 10) { authzReq "c1" with acrValues := some ["mfa"] } [] [cookie] none).1 =
      .ok (.part2 (E.encSid 2 ["d", "c1", E.uuid 2]) "d" (some { sid := E.encSid 2 ["d", "c1", E.uuid 2], timestamp := 1010 })) := by
    decide +kernel
  exact absurd (h twoLogin E _ _ ⟨1000, _, rfl⟩ { authzReq "c1" with acrValues := some ["mfa"] } [] [cookie] none ["mfa"] _ _ _
    event (by decide) (.acrValues rfl) (by decide) (Prod.ext hev.2 rfl) hev.1) (by decide)

/-- C40, the hypotheses: a login page of the method with the requested context; no method, an error. -/
example :
    (processAuthz twoLogin E (signedIn 10) { authzReq "c1" with acrValues := some ["hw", "mfa"] } [] [] none).1 =
      .ok (.loginPage { id := "otp", acr := "mfa", expiresIn := some 600 }) ∧
    (processAuthz twoLogin E (signedIn 10) { authzReq "c1" with acrValues := some ["hw"] } [] [cookie] none).1 =
      .error .keyError := by
  decide +kernel

end Ex
end OidcOp
