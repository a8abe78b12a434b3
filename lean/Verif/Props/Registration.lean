/-
Dynamic registration: C52-C56 and C70.
-/
import Verif.Lemmas.Registration

namespace OidcOp
open Spec

/-! ### C52 -/

/-- C52.  A registration, successful or not, leaves the record and the keys of every client there was as they were. -/
theorem C52_others_untouched (C : RegConf) (setSecret : Bool) (d : RegDraw) (req : Dict Json) (s s' : RegState)
    (r : Except String (Dict Json)) (h : register C true setSecret d req s = some (r, s')) (c : String) (rec : Cinfo)
    (hc : s.cdb.get? c = some rec) : s'.cdb.get? c = some rec ∧ s'.keys.get? c = s.keys.get? c := by
  have hk : c ∈ s.cdb.keys := (Dict.get?_isSome_iff _ _).1 (by rw [hc]; rfl)
  rcases register_cases h with ⟨-, rfl, -⟩ | ⟨req1, req2, cid, -, -, hid, h⟩
  · exact ⟨hc, rfl⟩
  · obtain ⟨-, hf, -⟩ := chooseId_new hid
    have hne : c ≠ cid := fun e => hf (e ▸ hk)
    rcases h with ⟨-, hkeys, -, hcdb⟩ | ⟨args, ci, -, -, -, hkeys, -, hcdb⟩
    · exact ⟨by rw [hcdb, Dict.get?_set_ne _ _ (Ne.symm hne)]; exact hc, hkeys c hne⟩
    · exact ⟨by rw [hcdb, Dict.get?_set_ne _ _ (Ne.symm hne), Dict.get?_set_ne _ _ (Ne.symm hne)]; exact hc, hkeys c hne⟩

/-- The key a record keeps for itself: nothing in the request changes "client_id". -/
theorem makeRecord_id {C : RegConf} {ss : Bool} {d : RegDraw} {req1 : Dict Json} {cid : String} {ci : Cinfo}
    (hn : req1.keys.Nodup)
    (h : makeRecord C (req1.erase "client_id") (initialRecord C true ss d cid) = .ok ci) :
    ci.get? "client_id" = some (.json (.str cid)) := by
  rw [makeRecord_kept h (List.Nodup.sublist (erase_keys_sublist _ _) hn) (by simp) (.inr ⟨by decide, by decide⟩)]
  rfl

theorem combAll_get? {L : UriLib} {ci : Cinfo} {d : Dict Json} (h : combAll L ci = .ok d) (k : String) :
    (ci.get? k = none ∧ d.get? k = none) ∨ ∃ v j, ci.get? k = some v ∧ d.get? k = some j ∧ combVal L v = .ok j := by
  induction ci generalizing d with
  | nil => cases h; exact .inl ⟨rfl, rfl⟩
  | cons x t ih =>
    obtain ⟨a, v⟩ := x
    rw [combAll] at h
    cases hv : combVal L v with
    | error e => rw [hv] at h; cases h
    | ok j =>
      rw [hv] at h
      cases ht : combAll L t with
      | error e => rw [ht] at h; cases h
      | ok d' =>
        rw [ht] at h
        cases h
        by_cases e : a = k
        · right
          exact ⟨v, j, by rw [Dict.get?_cons, if_pos e], by rw [Dict.get?_cons, if_pos e], hv⟩
        · rw [Dict.get?_cons, if_neg e, Dict.get?_cons, if_neg e]
          exact ih ht

theorem filter_get? (ci : Cinfo) (f : String → Bool) (k : String) :
    Dict.get? (ci.filter (fun p => f p.1)) k = if f k then ci.get? k else none := by
  induction ci with
  | nil => simp
  | cons x t ih =>
    obtain ⟨a, v⟩ := x
    by_cases ha : f a
    · rw [List.filter_cons_of_pos (by simpa using ha), Dict.get?_cons, ih, Dict.get?_cons]
      by_cases e : a = k
      · subst e; rw [if_pos rfl, if_pos rfl, if_pos ha]
      · rw [if_neg e, if_neg e]
    · rw [List.filter_cons_of_neg (by simpa using ha), ih, Dict.get?_cons]
      by_cases e : a = k
      · subst e; rw [if_neg ha, if_neg ha]
      · rw [if_neg e]

/-- C52.  The client id in the answer is one that was not in the database, and now is. -/
theorem C52_fresh_id (C : RegConf) (setSecret : Bool) (d : RegDraw) (req args : Dict Json) (s s' : RegState)
    (hp : "client_id" ∈ C.respParams) (h : register C true setSecret d req s = some (.ok args, s')) :
    ∃ cid, args.get? "client_id" = some (.str cid) ∧ s.cdb.get? cid = none ∧
      ∃ ci, s'.cdb.get? cid = some ci ∧ ci.get? "client_id" = some (.json (.str cid)) := by
  rcases register_cases h with ⟨⟨e, he⟩, -⟩ | ⟨req1, req2, cid, hv, -, hid, h⟩
  · cases he
  · obtain ⟨-, hf, rfl⟩ := chooseId_new hid
    rcases h with ⟨⟨e, he⟩, -⟩ | ⟨args', ci, he, hci, ha, -, -, hcdb⟩
    · cases he
    · cases he
      have hi := makeRecord_id (C.lib.verify_nodup hv) hci
      refine ⟨cid, ?_, (Dict.get?_eq_none_iff _ _).2 hf, ci, by rw [hcdb]; simp, hi⟩
      unfold responseArgs at ha
      rcases combAll_get? ha "client_id" with ⟨h1, -⟩ | ⟨v, j, h1, h2, h3⟩
      · rw [filter_get? ci (fun k => C.respParams.contains k), if_pos (by simpa using hp), hi] at h1
        cases h1
      · rw [filter_get? ci (fun k => C.respParams.contains k), if_pos (by simpa using hp), hi] at h1
        cases h1
        cases h3
        exact h2

/-- C52.  However many registrations follow, a client's record stays what it was. -/
theorem C52_history (C : RegConf) (s : RegState) (calls : List RegCall) (c : String) (rec : Cinfo)
    (hc : s.cdb.get? c = some rec) :
    (regHistory C s calls).cdb.get? c = some rec ∧ (regHistory C s calls).keys.get? c = s.keys.get? c := by
  induction calls generalizing s with
  | nil => exact ⟨hc, rfl⟩
  | cons x t ih =>
    rw [regHistory]
    cases h : register C true true x.draw x.req s with
    | none => exact ih s hc
    | some p =>
      obtain ⟨r, s1⟩ := p
      have h1 := C52_others_untouched C true x.draw x.req s s1 r h c rec hc
      obtain ⟨h2, h3⟩ := ih s1 h1.1
      exact ⟨h2, h3.trans h1.2⟩

/-- C52.  The registration access tokens of the other clients go on working: only the token drawn for the new client gets a
new meaning. -/
theorem C52_access_tokens_kept (C : RegConf) (newId setSecret : Bool) (d : RegDraw) (req : Dict Json) (s s' : RegState)
    (r : Except String (Dict Json)) (h : register C newId setSecret d req s = some (r, s')) (tok : String) (ht : tok ≠ d.token) :
    s'.tokens.get? tok = s.tokens.get? tok := by
  have key : ∀ cid, (storeInitial C newId setSecret d cid s).tokens.get? tok = s.tokens.get? tok := by
    intro cid
    unfold storeInitial
    simp only []
    split
    · exact Dict.get?_set_ne _ _ (Ne.symm ht)
    · rfl
  rcases register_cases h with ⟨-, rfl, -⟩ | ⟨req1, req2, cid, -, -, hid, h⟩
  · rfl
  · rcases h with ⟨-, -, htok, -⟩ | ⟨args, ci, -, -, -, -, htok, -⟩
    · rw [htok]; exact key cid
    · rw [htok]; exact key cid

/-- C52.  However many registrations follow, as long as the token is not drawn again it stays the token of its client. -/
theorem C52_access_tokens_history (C : RegConf) (s : RegState) (calls : List RegCall) (tok c : String)
    (ht : ∀ x ∈ calls, x.draw.token ≠ tok) (hc : s.tokens.get? tok = some c) :
    (regHistory C s calls).tokens.get? tok = some c := by
  induction calls generalizing s with
  | nil => exact hc
  | cons x t ih =>
    rw [regHistory]
    have ht' : ∀ y ∈ t, y.draw.token ≠ tok := fun y hy => ht y (List.mem_cons_of_mem _ hy)
    cases h : register C true true x.draw x.req s with
    | none => exact ih s ht' hc
    | some p =>
      obtain ⟨r, s1⟩ := p
      refine ih s1 ht' ?_
      rw [C52_access_tokens_kept C true true x.draw x.req s s1 r h tok (Ne.symm (ht x List.mem_cons_self))]
      exact hc

/-- C52.  The registration ends as soon as the generator draws an id that is free. -/
theorem C52_ends (C : RegConf) (setSecret : Bool) (d : RegDraw) (req : Dict Json) (s : RegState)
    (h : ∃ c ∈ d.ids, s.cdb.get? c = none) : (register C true setSecret d req s).isSome := by
  unfold register
  split
  · rfl
  · split
    · rfl
    · have : (chooseId true d (by assumption) s).isSome := by
        unfold chooseId
        simp only [if_true, Option.isSome_map]
        rw [randomClientId_isSome]
        obtain ⟨c, h1, h2⟩ := h
        exact ⟨c, h1, (Dict.get?_eq_none_iff _ _).1 h2⟩
      split
      · rename_i hn
        rw [hn] at this
        cases this
      · rfl
      · rfl

/-! ### C53 -/

/-- The table of the code has the preferences of the specification, in another order. -/
theorem mem_preferences (p : String × String) : p ∈ preferences ↔ p ∈ preference2provider := by
  have h1 : ∀ p ∈ preferences, p ∈ preference2provider := by decide +kernel
  have h2 : ∀ p ∈ preference2provider, p ∈ preferences := by decide +kernel
  exact ⟨h1 p, h2 p⟩

/-- C53, in part.  A request refused because its form is wrong or because it asks for something the provider does not support
changes nothing. -/
theorem C53_early_partial (C : RegConf) (setSecret : Bool) (d : RegDraw) (req : Dict Json) (s s' : RegState)
    (r : Except String (Dict Json)) (h : register C true setSecret d req s = some (r, s'))
    (hr : (∃ e, C.lib.verify req = .error e) ∨
      ∃ req1, C.lib.verify req = .ok req1 ∧ ¬ WithinCapabilities C.providerInfo req1) :
    s' = s ∧ ∃ e, r = .error e := by
  rcases register_cases h with ⟨he, rfl, -⟩ | ⟨req1, req2, cid, hv, hm, -⟩
  · exact ⟨rfl, he⟩
  · exfalso
    rcases hr with ⟨e, he⟩ | ⟨req1', h1, h2⟩
    · rw [hv] at he; cases he
    · rw [hv] at h1
      cases h1
      refine h2 (fun pref prov v hp hg => ?_)
      exact (matchPref_ok_iff _ _ (pref, prov)).1 ((matchPrefs_ok_iff _ _ _).1 hm _ ((mem_preferences _).1 hp)) v hg

theorem initialRecord_no_redirects (C : RegConf) (newId ss : Bool) (d : RegDraw) (cid : String) :
    (initialRecord C newId ss d cid).get? "redirect_uris" = none := by
  rw [Dict.get?_eq_none_iff]
  unfold initialRecord Dict.keys
  cases C.readPath <;> cases newId <;> cases ss <;> simp <;> split <;> simp

theorem initialRecord_get? (C : RegConf) (ss : Bool) (d : RegDraw) (cid k : String) :
    (initialRecord C true ss d cid).get? k = (givenByProvider C ss d cid k).map .json := by
  unfold givenByProvider initialRecord
  by_cases k1 : k = "client_id"
  · subst k1; rfl
  by_cases k2 : k = "client_salt"
  · subst k2; rfl
  by_cases k3 : k = "client_id_issued_at"
  · subst k3; cases C.readPath <;> rfl
  by_cases k4 : k = "client_secret"
  · subst k4; cases C.readPath <;> cases ss <;> rfl
  by_cases k5 : k = "registration_access_token"
  · subst k5; cases C.readPath <;> cases ss <;> (try rfl) <;> dsimp <;> split <;> (try rfl) <;> split <;> rfl
  by_cases k6 : k = "registration_client_uri"
  · subst k6; cases C.readPath <;> cases ss <;> (try rfl) <;> dsimp <;> split <;> (try rfl) <;> split <;> rfl
  by_cases k7 : k = "client_secret_expires_at"
  · subst k7
    cases C.secretExpires <;> by_cases e : d.now + C.secretExpiresIn = 0 <;> cases C.readPath <;> cases ss <;>
      simp [e, Dict.get?_cons]
  · simp only [k1, k2, k3, k4, k5, k6, k7, if_false, false_and, Option.map_none]
    rw [Dict.get?_eq_none_iff]
    unfold Dict.keys
    cases C.readPath <;> cases ss <;> simp [k1, k2, k3, k4, k5, k6, k7]

theorem redirectUrisOf_get? (s : RegState) (c : String) :
    (redirectUrisOf s).get? c =
      (s.cdb.get? c).map (fun p => match p.get? "redirect_uris" with | some (.uris l) => some l | _ => none) := by
  unfold redirectUrisOf
  induction s.cdb with
  | nil => rfl
  | cons x t ih =>
    obtain ⟨a, v⟩ := x
    rw [List.map_cons, Dict.get?_cons, Dict.get?_cons]
    by_cases e : a = c
    · rw [if_pos e, if_pos e]; rfl
    · rw [if_neg e, if_neg e, ih]

/-- C53, in part.  Whatever the reason for an error, either the database is as before, or there is one more client in it,
under an id that was free, with nothing of the request in its record, and no redirect URI of that client passes the
verification of an authorization request. -/
theorem C53_leftover_unusable_partial (C : RegConf) (setSecret : Bool) (d : RegDraw) (req : Dict Json) (s s' : RegState)
    (e : String) (h : register C true setSecret d req s = some (.error e, s')) :
    s' = s ∨ ∃ cid, s.cdb.get? cid = none ∧ (∀ c, c ≠ cid → s'.cdb.get? c = s.cdb.get? c) ∧
      (∃ ci, s'.cdb.get? cid = some ci ∧ ∀ k, ci.get? k = (givenByProvider C setSecret d cid k).map .json) ∧
      ∀ L uri, verifyUri L (redirectUrisOf s') (some cid) uri ≠ .ok () := by
  rcases register_cases h with ⟨-, rfl, -⟩ | ⟨req1, req2, cid, hv, -, hid, h⟩
  · exact .inl rfl
  · obtain ⟨-, hf, rfl⟩ := chooseId_new hid
    right
    rcases h with ⟨-, -, -, hcdb⟩ | ⟨args', ci, he, -⟩
    · refine ⟨cid, (Dict.get?_eq_none_iff _ _).2 hf, fun c hc => by rw [hcdb, Dict.get?_set_ne _ _ (Ne.symm hc)],
        ⟨_, by rw [hcdb, Dict.get?_set_self], initialRecord_get? C setSecret d cid⟩, fun L uri hu => ?_⟩
      obtain ⟨c, u, regs, r, h1, -, h3, -⟩ := C30_redirect_uri_exact L _ _ _ hu
      cases h1
      rw [redirectUrisOf_get?, hcdb, Dict.get?_set_self] at h3
      simp only [Option.map_some, initialRecord_no_redirects] at h3
      cases h3
    · cases he

/-! ### C54 -/

/-- C54, in part.  What a request does not name is as the provider set it: the secret, the salt, the registration access
token are the generated ones, and there are no scopes, usage rules or other settings in the record.  The sector members only
come with "sector_identifier_uri". -/
theorem C54_unnamed_partial (C : RegConf) (setSecret : Bool) (d : RegDraw) (req req1 args : Dict Json) (s s' : RegState)
    (hv : C.lib.verify req = .ok req1) (h : register C true setSecret d req s = some (.ok args, s')) :
    ∃ cid ci, s.cdb.get? cid = none ∧ s'.cdb.get? cid = some ci ∧
      ∀ k, req1.get? k = none → (req1.get? "sector_identifier_uri" = none ∨ (k ≠ "si_redirects" ∧ k ≠ "sector_id")) →
        ci.get? k = (givenByProvider C setSecret d cid k).map .json := by
  rcases register_cases h with ⟨⟨e, he⟩, -⟩ | ⟨req1', req2, cid, hv', -, hid, h⟩
  · cases he
  · rw [hv] at hv'
    cases hv'
    obtain ⟨-, hf, rfl⟩ := chooseId_new hid
    rcases h with ⟨⟨e, he⟩, -⟩ | ⟨args', ci, he, hci, ha, -, -, hcdb⟩
    · cases he
    · refine ⟨cid, ci, (Dict.get?_eq_none_iff _ _).2 hf, by rw [hcdb]; simp, fun k hk hs => ?_⟩
      rw [← initialRecord_get?]
      refine makeRecord_kept hci (List.Nodup.sublist (erase_keys_sublist _ _) (C.lib.verify_nodup hv)) ?_ ?_
      · rw [Dict.get?_erase]; split <;> simp [hk]
      · rw [Dict.get?_erase_ne _ (by decide)]; exact hs

/-- C54, in part.  Whatever the request says, the client id and the registered redirect URIs are not taken over from it
unchecked. -/
theorem C54_id_partial (C : RegConf) (setSecret : Bool) (d : RegDraw) (req args : Dict Json) (s s' : RegState)
    (h : register C true setSecret d req s = some (.ok args, s')) :
    ∃ cid ci, s.cdb.get? cid = none ∧ s'.cdb.get? cid = some ci ∧ ci.get? "client_id" = some (.json (.str cid)) ∧
      ∀ j, ci.get? "redirect_uris" ≠ some (.json j) := by
  rcases register_cases h with ⟨⟨e, he⟩, -⟩ | ⟨req1, req2, cid, hv, -, hid, h⟩
  · cases he
  · obtain ⟨-, hf, rfl⟩ := chooseId_new hid
    rcases h with ⟨⟨e, he⟩, -⟩ | ⟨args', ci, he, hci, ha, -, -, hcdb⟩
    · cases he
    · refine ⟨cid, ci, (Dict.get?_eq_none_iff _ _).2 hf, by rw [hcdb]; simp,
        makeRecord_id (C.lib.verify_nodup hv) hci, fun j hj => ?_⟩
      rcases makeRecord_redirects hci (List.Nodup.sublist (erase_keys_sublist _ _) (C.lib.verify_nodup hv)) with
        ⟨-, h2⟩ | ⟨us, rs, -, -, h2⟩
      · rw [h2, initialRecord_no_redirects] at hj; cases hj
      · rw [h2] at hj; cases hj

/-- C54 is false for every parameter that is not in the short list of those that are looked at: whatever its name, the value
in the request is the value in the record, in place of the provider's own. -/
theorem C54_any_parameter_refuted (C : RegConf) (setSecret : Bool) (d : RegDraw) (req req1 args : Dict Json)
    (s s' : RegState) (hv : C.lib.verify req = .ok req1)
    (h : register C true setSecret d req s = some (.ok args, s')) (k : String) (v : Json) (hk : req1.get? k = some v)
    (hn : k ∉ ["client_id", "post_logout_redirect_uri", "redirect_uris", "request_uris", "si_redirects", "sector_id",
      "policy_uri", "logo_uri", "tos_uri", "id_token_signed_response_alg", "userinfo_signed_response_alg"]) :
    ∃ cid ci, s.cdb.get? cid = none ∧ s'.cdb.get? cid = some ci ∧ ci.get? k = some (.json v) := by
  rcases register_cases h with ⟨⟨e, he⟩, -⟩ | ⟨req1', req2, cid, hv', -, hid, h⟩
  · cases he
  · rw [hv] at hv'
    cases hv'
    obtain ⟨-, hf, rfl⟩ := chooseId_new hid
    rcases h with ⟨⟨e, he⟩, -⟩ | ⟨args', ci, he, hci, ha, -, -, hcdb⟩
    · cases he
    · refine ⟨cid, ci, (Dict.get?_eq_none_iff _ _).2 hf, by rw [hcdb]; simp, ?_⟩
      simp only [List.mem_cons, List.not_mem_nil, or_false, not_or] at hn
      rw [makeRecord_copied' hci (List.Nodup.sublist (erase_keys_sublist _ _) (C.lib.verify_nodup hv))
        (by simp [checkedNames, hn]) ⟨hn.2.2.2.2.2.2.2.2.2.1, hn.2.2.2.2.2.2.2.2.2.2⟩,
        Dict.get?_erase_ne _ (Ne.symm hn.1), hk]

/-! ### C55 -/

theorem verifyRedirectLoop_iff {L : RegLib} {t : Json} {m : Bool} {P : String → Prop} {f : String → RegUri}
    (hR : ∀ u r, verifyRedirectUri L t m u = .ok r ↔ P u ∧ r = f u) (us : List String) (rs : List RegUri) :
    verifyRedirectLoop L t m us = .ok rs ↔ (∀ u ∈ us, P u) ∧ rs = us.map f := by
  induction us generalizing rs with
  | nil =>
    rw [verifyRedirectLoop]
    simp [eq_comm]
  | cons u rest ih =>
    rw [verifyRedirectLoop]
    cases hu : verifyRedirectUri L t m u with
    | error e =>
      simp only [reduceCtorEq, false_iff, not_and]
      intro h
      have := (hR u (f u)).2 ⟨h u List.mem_cons_self, rfl⟩
      rw [hu] at this
      cases this
    | ok r =>
      obtain ⟨h1, rfl⟩ := (hR u r).1 hu
      simp only []
      cases hl : verifyRedirectLoop L t m rest with
      | error e =>
        simp only [reduceCtorEq, false_iff, not_and]
        intro h
        have := (ih (rest.map f)).2 ⟨fun x hx => h x (List.mem_cons_of_mem _ hx), rfl⟩
        rw [hl] at this
        cases this
      | ok rs' =>
        obtain ⟨h2, rfl⟩ := (ih rs').1 hl
        simp only [Except.ok.injEq, List.map_cons]
        constructor
        · rintro rfl
          refine ⟨fun x hx => ?_, rfl⟩
          rcases List.mem_cons.1 hx with rfl | hx
          · exact h1
          · exact h2 x hx
        · rintro ⟨-, rfl⟩; rfl

/-- C55 for web clients.  A list of redirect URIs is accepted exactly if each is an https URI, or an http URI when the client
uses only the code flow, without a fragment; base and query of each are kept, in order. -/
theorem C55_web (L : RegLib) (req : Dict Json) (hw : IsWeb req) (us : List String) (rs : List RegUri) :
    verifyRedirectUris L req us = .ok rs ↔
      (∀ u ∈ us, WebUri L (CodeOnly req) u) ∧ rs = us.map (fun u => .pair (L.split u).1 (L.split u).2) := by
  have ht : clientType req = .str "web" := by
    unfold clientType
    rcases hw with h | h <;> rw [h] <;> rfl
  have hm : mustHttps req = !CodeOnly req := by
    unfold mustHttps CodeOnly
    rw [ht]
    by_cases h : req.get? "response_types" = some (.arr [.str "code"]) <;> simp [h]
  unfold verifyRedirectUris
  rw [ht, hm]
  refine verifyRedirectLoop_iff (fun u r => ?_) us rs
  unfold verifyRedirectUri WebUri registeredForm
  rw [if_neg (by decide)]
  by_cases h1 : L.scheme u = "https"
  · simp only [h1, bne_self_eq_false, Bool.and_false, Bool.false_eq_true, if_false]
    rw [if_neg (by simp)]
    by_cases h2 : L.fragment u = ""
    · simp [h2]; exact eq_comm
    · simp [h2]
  · by_cases h2 : L.scheme u = "http"
    · cases hc : CodeOnly req
      · simp [h2]
      · by_cases h3 : L.fragment u = ""
        · simp [h2, h3]; exact eq_comm
        · simp [h2, h3]
    · cases hc : CodeOnly req <;> simp [h1, h2]

/-- C55 for native clients, in part: exactly the URIs with a scheme of their own and the http URIs on the local host are
accepted; base and query are kept, in order, and a URI with a scheme of its own is kept whole.  What is missing: a fragment is
not refused. -/
theorem C55_native_partial (L : RegLib) (req : Dict Json) (hw : IsNative req) (us : List String) (rs : List RegUri) :
    verifyRedirectUris L req us = .ok rs ↔
      (∀ u ∈ us, NativeUri L u) ∧
      rs = us.map (fun u => if L.scheme u = "http" then .pair (L.split u).1 (L.split u).2 else .pair u []) := by
  have ht : clientType req = .str "native" := by
    unfold clientType
    rw [hw]; rfl
  unfold verifyRedirectUris
  rw [ht]
  refine verifyRedirectLoop_iff (fun u r => ?_) us rs
  unfold verifyRedirectUri NativeUri registeredForm
  rw [if_pos rfl]
  by_cases h1 : L.scheme u = "http"
  · by_cases h2 : L.hostname u = some "localhost" ∨ L.hostname u = some "127.0.0.1"
    · simp [h1, h2]; exact eq_comm
    · simp [h1, h2]
  · by_cases h2 : L.scheme u = "https"
    · simp [h2]
    · simp [h1, h2]; exact eq_comm

/-- C55, from registration to authorization.  When a web client has registered, an authorization request of that client
passes the verification of its redirect URI only if that URI has the base and the parameters of one of the URIs in the
registration request, each of them allowed for a web client. -/
theorem C55_web_registered (C : RegConf) (setSecret : Bool) (d : RegDraw) (req req1 args : Dict Json) (s s' : RegState)
    (hv : C.lib.verify req = .ok req1) (hw : IsWeb req1)
    (h : register C true setSecret d req s = some (.ok args, s')) :
    ∃ cid, s.cdb.get? cid = none ∧ ∀ L uri, verifyUri L (redirectUrisOf s') (some cid) (some uri) = .ok () →
      ∃ (us : List String) (u : String), req1.get? "redirect_uris" = some (.arr (us.map .str)) ∧ u ∈ us ∧
        (∀ x ∈ us, WebUri C.lib (CodeOnly req1) x) ∧
        Matches L uri (.pair (C.lib.split u).1 (C.lib.split u).2) := by
  rcases register_cases h with ⟨⟨e, he⟩, -⟩ | ⟨req1', req2, cid, hv', -, hid, h⟩
  · cases he
  · rw [hv] at hv'
    cases hv'
    obtain ⟨-, hf, rfl⟩ := chooseId_new hid
    rcases h with ⟨⟨e, he⟩, -⟩ | ⟨args', ci, he, hci, ha, -, -, hcdb⟩
    · cases he
    · refine ⟨cid, (Dict.get?_eq_none_iff _ _).2 hf, fun L uri hu => ?_⟩
      obtain ⟨c, u, regs, r, h1, h2, h3, h4, h5⟩ := C30_redirect_uri_exact L _ _ _ hu
      cases h1
      cases h2
      rw [redirectUrisOf_get?, hcdb, Dict.get?_set_self] at h3
      simp only [Option.map_some, Option.some.injEq] at h3
      rcases makeRecord_redirects hci (List.Nodup.sublist (erase_keys_sublist _ _) (C.lib.verify_nodup hv)) with
        ⟨-, h7⟩ | ⟨us, rs, h6, h7, h8⟩
      · rw [h7, initialRecord_no_redirects] at h3; cases h3
      · rw [h8] at h3
        simp only [Option.some.injEq] at h3
        subst h3
        rw [Dict.get?_erase_ne _ (by decide)] at h6
        have hw' : IsWeb (req1.erase "client_id") := by
          unfold IsWeb
          rw [Dict.get?_erase_ne _ (by decide)]; exact hw
        obtain ⟨h9, rfl⟩ := (C55_web _ _ hw' _ _).1 h7
        obtain ⟨x, hx, rfl⟩ := List.mem_map.1 h4
        have hco : CodeOnly (req1.erase "client_id") = CodeOnly req1 := by
          unfold CodeOnly
          rw [Dict.get?_erase_ne _ (by decide)]
        rw [hco] at h9
        exact ⟨us, x, h6, hx, h9, h5⟩

/-! ### C56 -/

/-- C56.  A request is accepted exactly if each of its preferences is within what the provider supports. -/
theorem C56_match_exact (pi : Dict (List String)) (req : Dict Json) :
    matchClientRequest pi req = .ok () ↔ WithinCapabilities pi req := by
  unfold matchClientRequest
  rw [matchPrefs_ok_iff]
  constructor
  · intro h pref prov v hp hg
    exact (matchPref_ok_iff _ _ (pref, prov)).1 (h _ ((mem_preferences _).1 hp)) v hg
  · intro h p hp
    exact (matchPref_ok_iff _ _ p).2 (fun v hv => h p.1 p.2 v ((mem_preferences p).2 hp) hv)

/-- The preferences in a record are within what the provider supports. -/
def RecordWithin (C : RegConf) (ci : Cinfo) : Prop :=
  ∀ pref prov v, (pref, prov) ∈ preference2provider → ci.get? pref = some v →
    ∃ j sup, v = .json j ∧ C.providerInfo.get? prov = some sup ∧ Within pref j sup

theorem initialRecord_no_pref (C : RegConf) (newId ss : Bool) (d : RegDraw) (cid pref prov : String)
    (hp : (pref, prov) ∈ preference2provider) : (initialRecord C newId ss d cid).get? pref = none := by
  have hk : pref ∉ ["client_id", "client_salt", "registration_access_token", "registration_client_uri",
      "client_id_issued_at", "client_secret", "client_secret_expires_at"] := by
    revert hp
    have : ∀ p ∈ preference2provider, p.1 ∉ ["client_id", "client_salt", "registration_access_token", "registration_client_uri",
      "client_id_issued_at", "client_secret", "client_secret_expires_at"] := by decide
    exact fun hp => this _ hp
  rw [Dict.get?_eq_none_iff]
  simp only [List.mem_cons, List.not_mem_nil, or_false, not_or] at hk
  obtain ⟨k1, k2, k3, k4, k5, k6, k7⟩ := hk
  unfold initialRecord Dict.keys
  cases C.readPath <;> cases newId <;> cases ss <;> simp [k1, k2, k3, k4, k5, k6, k7]

/-- C56.  Through any series of registrations, the record of every client that was not there before has only preferences that
the provider supports. -/
theorem C56_history (C : RegConf) (s : RegState) (calls : List RegCall) (c : String) (rec : Cinfo)
    (hnew : s.cdb.get? c = none) (hc : (regHistory C s calls).cdb.get? c = some rec) (pref prov : String) (v : RVal)
    (hp : (pref, prov) ∈ preferences) (hg : rec.get? pref = some v) :
    ∃ j sup, v = .json j ∧ C.providerInfo.get? prov = some sup ∧ Within pref j sup := by
  suffices H : ∀ s : RegState, (∀ rec, s.cdb.get? c = some rec → RecordWithin C rec) →
      ∀ rec, (regHistory C s calls).cdb.get? c = some rec → RecordWithin C rec from
    H s (fun r hr => by rw [hnew] at hr; cases hr) rec hc pref prov v ((mem_preferences _).1 hp) hg
  clear hc hg hnew hp
  induction calls with
  | nil => exact fun s h => h
  | cons x t ih =>
    intro s hs rec
    rw [regHistory]
    cases h : register C true true x.draw x.req s with
    | none => exact ih s hs rec
    | some p =>
      obtain ⟨r, s1⟩ := p
      refine ih s1 (fun rec1 hr => ?_) rec
      rcases register_cases h with ⟨-, rfl, -⟩ | ⟨req1, req2, cid, hv, hm, hid, h⟩
      · exact hs rec1 hr
      · obtain ⟨-, hf, rfl⟩ := chooseId_new hid
        have hinit : RecordWithin C (initialRecord C true true x.draw cid) := by
          intro pref prov v hp hg
          rw [initialRecord_no_pref C true true x.draw cid pref prov hp] at hg
          cases hg
        rcases h with ⟨-, -, -, hcdb⟩ | ⟨args', ci, -, hci, -, -, -, hcdb⟩
        · rw [hcdb, Dict.get?_set] at hr
          split at hr
          · cases hr; exact hinit
          · exact hs rec1 hr
        · rw [hcdb, Dict.get?_set] at hr
          split at hr
          · cases hr
            intro pref prov v hp hg
            have hck : pref ∉ checkedNames := by
              have : ∀ p ∈ preference2provider, p.1 ∉ checkedNames := by decide
              exact this _ hp
            have hcid : pref ≠ "client_id" := by
              have : ∀ p ∈ preference2provider, p.1 ≠ "client_id" := by decide
              exact this _ hp
            rcases makeRecord_copied hci (List.Nodup.sublist (erase_keys_sublist _ _) (C.lib.verify_nodup hv)) hck with
              e | e
            · rw [hg, Dict.get?_erase_ne _ (Ne.symm hcid)] at e
              cases hq : req1.get? pref with
              | none =>
                rw [hq, initialRecord_no_pref C true true x.draw cid pref prov hp] at e
                cases e
              | some j =>
                rw [hq] at e
                cases e
                obtain ⟨sup, h1, h2⟩ := (C56_match_exact _ _).1 hm pref prov j ((mem_preferences _).2 hp) hq
                exact ⟨j, sup, rfl, h1, h2⟩
            · rw [hg] at e; cases e
          · rename_i hne
            rw [Dict.get?_set_ne _ _ hne] at hr
            exact hs rec1 hr

/-! ### C70 -/

/-- C70.  After any further registrations the registration read endpoint answers for the new client with what its registration
was answered with. -/
theorem C70_read_what_was_answered (C : RegConf) (d : RegDraw) (req args : Dict Json) (s s' : RegState)
    (calls : List RegCall) (hp : "client_id" ∈ C.respParams) (h : register C true true d req s = some (.ok args, s')) :
    ∃ cid, args.get? "client_id" = some (.str cid) ∧ readRecord C (regHistory C s' calls) cid = .ok args := by
  obtain ⟨cid0, h1, h2, -⟩ := C52_fresh_id C true d req args s s' hp h
  refine ⟨cid0, h1, ?_⟩
  rcases register_cases h with ⟨⟨e, he⟩, -⟩ | ⟨req1, req2, cid, hv, -, hid, h⟩
  · cases he
  · obtain ⟨-, hf, rfl⟩ := chooseId_new hid
    rcases h with ⟨⟨e, he⟩, -⟩ | ⟨args', ci, he, hci, ha, -, -, hcdb⟩
    · cases he
    · cases he
      have hi := makeRecord_id (C.lib.verify_nodup hv) hci
      have e : cid = cid0 := by
        unfold responseArgs at ha
        rcases combAll_get? ha "client_id" with ⟨h3, -⟩ | ⟨v, j, h3, h4, h5⟩
        · rw [filter_get? ci (fun k => C.respParams.contains k), if_pos (by simpa using hp), hi] at h3
          cases h3
        · rw [filter_get? ci (fun k => C.respParams.contains k), if_pos (by simpa using hp), hi] at h3
          cases h3
          cases h5
          rw [h1] at h4
          cases h4
          rfl
      subst e
      have hr : s'.cdb.get? cid = some ci := by rw [hcdb]; simp
      unfold readRecord
      rw [(C52_history C s' calls cid ci hr).1]
      exact ha

end OidcOp
