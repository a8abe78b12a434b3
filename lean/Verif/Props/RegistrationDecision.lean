/-
Property theorems about which registrations are accepted and what is kept of them: C113, and more of C70 and C79.
-/
import Verif.Lemmas.RegistrationDecision
import Verif.Props.RegistrationExamples
import Verif.Props.RegistrationAnswer
import Verif.Lemmas.RequestObject

namespace OidcOp
open Spec

theorem keptForm_place {L : RegLib} {req : Dict Json} {u : String} (h : RedirectOk L req u) :
    (keptForm L req u).parts.1 = placeOf L req u := by
  unfold keptForm placeOf registeredForm
  by_cases hn : IsNative req
  · have hc := (clientType_native req).2 hn
    have hr := h.2.1 hn
    have hn' : req.get? "application_type" = some (.str "native") := hn
    unfold NativeUri at hr
    by_cases h1 : L.scheme u = "http"
    · simp [hc, h1, RegUri.parts]
    · have h2 : L.scheme u ≠ "https" := by
        rcases hr with hr | hr
        · exact hr.2
        · exact absurd hr.1 h1
      simp [hc, h1, h2, hn', RegUri.parts]
  · have hc : clientType req ≠ .str "native" := fun h => hn ((clientType_native req).1 h)
    have hn' : ¬ req.get? "application_type" = some (.str "native") := hn
    simp [hc, hn', RegUri.parts]

theorem makeRecord_of_steps {C : RegConf} {req : Dict Json} {ci c1 c2 c3 c4 c5 c6 : Cinfo}
    (h1 : postLogoutStep C.lib req (copyRequest regIgnore req ci) = .ok c1) (h2 : redirectStep C.lib req c1 = .ok c2)
    (h3 : requestUrisStep C.lib req c2 = .ok c3) (h4 : sectorStep C.lib req c3 = .ok c4) (h5 : urlsStep C.lib req c4 = .ok c5)
    (h6 : algsStep C req c5 = .ok c6) : makeRecord C req ci = .ok c6 := by
  unfold makeRecord
  rw [h1]
  show (redirectStep C.lib req c1 >>= _) = _
  rw [h2]
  show (requestUrisStep C.lib req c2 >>= _) = _
  rw [h3]
  show (sectorStep C.lib req c3 >>= _) = _
  rw [h4]
  show (urlsStep C.lib req c4 >>= _) = _
  rw [h5]
  exact h6

/-- The redirect URIs in the record while the links are looked at. -/
theorem redirects_then {C : RegConf} {req : Dict Json} {ci c1 c2 c3 c4 : Cinfo} (hn : req.keys.Nodup)
    (hci : ci.get? "redirect_uris" = none)
    (h1 : postLogoutStep C.lib req (copyRequest regIgnore req ci) = .ok c1) (h2 : redirectStep C.lib req c1 = .ok c2)
    (h3 : requestUrisStep C.lib req c2 = .ok c3) (h4 : sectorStep C.lib req c3 = .ok c4) :
    (req.get? "redirect_uris" = none ∧ c4.get? "redirect_uris" = none) ∨
    ∃ us : List String, req.get? "redirect_uris" = some (.arr (us.map .str)) ∧
      c4.get? "redirect_uris" = some (.uris (us.map (keptForm C.lib req))) := by
  have e : c4.get? "redirect_uris" = c2.get? "redirect_uris" :=
    (sectorStep_frame h4 (.inr (by decide))).trans (requestUrisStep_frame h3 (by decide))
  rcases redirectStep_get? h2 with ⟨h, rfl⟩ | ⟨us, h, rfl⟩
  · refine .inl ⟨h, ?_⟩
    rw [e, postLogoutStep_frame h1 (by decide), copyRequest_get? hn]
    exact hci
  · exact .inr ⟨us, h, by rw [e, Dict.get?_set_self]⟩

theorem linkOk_iff {C : RegConf} {req : Dict Json} {c4 : Cinfo}
    (hr : ∀ v, req.get? "redirect_uris" = some v → ∃ us : List String, v = .arr (us.map .str) ∧ ∀ u ∈ us, RedirectOk C.lib req u)
    (h4 : (req.get? "redirect_uris" = none ∧ c4.get? "redirect_uris" = none) ∨
      ∃ us : List String, req.get? "redirect_uris" = some (.arr (us.map .str)) ∧
        c4.get? "redirect_uris" = some (.uris (us.map (keptForm C.lib req)))) (k : String) :
    LinkOk C.lib req c4 k ↔ ∀ v, req.get? k = some v →
      ∃ (u : String) (us : List String) (x : String), v = .str u ∧ req.get? "redirect_uris" = some (.arr (us.map .str)) ∧ x ∈ us ∧
        SameSite C.lib u (placeOf C.lib req x) := by
  unfold LinkOk
  constructor
  · intro h v hv
    obtain ⟨u, rs, rfl, h5, r, h6, h7⟩ := h v hv
    rcases h4 with ⟨-, h4⟩ | ⟨us, h8, h9⟩
    · rw [h4] at h5; cases h5
    · rw [h9] at h5
      cases h5
      obtain ⟨x, hx, rfl⟩ := List.mem_map.1 h6
      obtain ⟨us', h10, h11⟩ := hr _ h8
      have : us = us' := by
        have h3 : strList (us.map Json.str) = some us' := (strList_iff _ _).2 (Json.arr.inj h10)
        rw [(strList_iff _ us).2 rfl] at h3
        exact Option.some.inj h3
      subst this
      rw [keptForm_place (h11 x hx)] at h7
      exact ⟨u, us, x, rfl, h8, hx, h7⟩
  · intro h v hv
    obtain ⟨u, us, x, rfl, h5, hx, h6⟩ := h v hv
    rcases h4 with ⟨h4, -⟩ | ⟨us', h8, h9⟩
    · rw [h4] at h5; cases h5
    · have : us = us' := by
        rw [h8] at h5
        have h3 : strList (us'.map Json.str) = some us := (strList_iff _ _).2 (Json.arr.inj (Option.some.inj h5))
        rw [(strList_iff _ us').2 rfl] at h3
        exact (Option.some.inj h3).symm
      subst this
      obtain ⟨us', h10, h11⟩ := hr _ h8
      have : us = us' := by
        have h3 : strList (us.map Json.str) = some us' := (strList_iff _ _).2 (Json.arr.inj h10)
        rw [(strList_iff _ us).2 rfl] at h3
        exact Option.some.inj h3
      subst this
      refine ⟨u, _, rfl, h9, _, List.mem_map.2 ⟨x, hx, rfl⟩, ?_⟩
      rw [keptForm_place (h11 x hx)]
      exact h6

/-- When a record can be made and answered, and the keys loaded, for a request that asks for what the provider supports. -/
theorem finish_ok {C : RegConf} {ss : Bool} {d : RegDraw} {cid : String} {req : Dict Json} {s : RegState} (hn : req.keys.Nodup)
    (hcap : WithinCapabilities C.providerInfo req) :
    (∃ args s', finishRegistration C ss d cid req (storeInitial C true ss d cid s) = (.ok args, s')) ↔ InOrder C req := by
  have hini : ((storeInitial C true ss d cid s).cdb.get? cid).getD [] = initialRecord C true ss d cid := by
    unfold storeInitial; simp
  have hci := initialRecord_no_redirects C true ss d cid
  have hpt := initialRecord_parts C true ss d cid
  unfold finishRegistration
  rw [hini]
  constructor
  · rintro ⟨args, s', h⟩
    cases hm : makeRecord C req (initialRecord C true ss d cid) with
    | error e => rw [hm] at h; cases h
    | ok c =>
      rw [hm] at h
      simp only [] at h
      cases hk : loadKeys C.lib req with
      | error e => rw [hk] at h; cases h
      | ok ks =>
        rw [hk] at h
        simp only [] at h
        cases hr : responseArgs C c with
        | error e => rw [hr] at h; cases h
        | ok args' =>
          obtain ⟨c1, c2, c3, c4, c5, h1, h2, h3, h4, h5, h6⟩ := makeRecord_steps hm
          have hred := (redirectStep_ok C.lib req c1).1 ⟨_, h2⟩
          have hfrag := (responseArgs_ok hm hpt).1 ⟨_, hr⟩
          refine ⟨hcap, (postLogoutStep_ok _ _ _).1 ⟨_, h1⟩, hred, ?_, ?_, ?_, ((loadKeys_iff _ _ _).1 hk).1⟩
          · intro v hv
            rcases (requestUrisStep_iff _ _ _ _).1 h3 with ⟨h7, -⟩ | ⟨us, h7, h8, -⟩
            · rw [hv] at h7; cases h7
            · rw [hv] at h7
              cases h7
              exact ⟨us, rfl, fun u hu => ⟨h8 u hu, fun hp => hfrag hp us hv u hu⟩⟩
          · intro v hv
            rcases (sectorStep_iff _ _ _ _ (fun v hv => let ⟨us, h, _⟩ := hred v hv; ⟨us, h⟩)).1 h4 with ⟨h7, -⟩ | ⟨u, doc, h7, h8, h9, -⟩
            · rw [hv] at h7; cases h7
            · rw [hv] at h7
              cases h7
              exact ⟨u, doc, rfl, h8, h9⟩
          · intro k hk
            exact (linkOk_iff hred (redirects_then hn hci h1 h2 h3 h4) k).1 ((urlsStep_ok _ _ _).1 ⟨_, h5⟩ k hk)
  · intro ho
    obtain ⟨c1, h1⟩ := (postLogoutStep_ok C.lib req (copyRequest regIgnore req (initialRecord C true ss d cid))).2 ho.logout
    obtain ⟨c2, h2⟩ := (redirectStep_ok C.lib req c1).2 ho.redirects
    have h3 : ∃ c3, requestUrisStep C.lib req c2 = .ok c3 := by
      cases hv : req.get? "request_uris" with
      | none => exact ⟨_, (requestUrisStep_iff _ _ _ _).2 (.inl ⟨hv, rfl⟩)⟩
      | some v =>
        obtain ⟨us, rfl, h⟩ := ho.requests v hv
        exact ⟨_, (requestUrisStep_iff _ _ _ _).2 (.inr ⟨us, hv, fun u hu => (h u hu).1, rfl⟩)⟩
    obtain ⟨c3, h3⟩ := h3
    have h4 : ∃ c4, sectorStep C.lib req c3 = .ok c4 := by
      have hrr : ∀ v, req.get? "redirect_uris" = some v → ∃ us : List String, v = .arr (us.map .str) :=
        fun v hv => let ⟨us, h, _⟩ := ho.redirects v hv; ⟨us, h⟩
      cases hv : req.get? "sector_identifier_uri" with
      | none => exact ⟨_, (sectorStep_iff _ _ _ _ hrr).2 (.inl ⟨hv, rfl⟩)⟩
      | some v =>
        obtain ⟨u, doc, rfl, h, h'⟩ := ho.sector v hv
        exact ⟨_, (sectorStep_iff _ _ _ _ hrr).2 (.inr ⟨u, doc, hv, h, h', rfl⟩)⟩
    obtain ⟨c4, h4⟩ := h4
    obtain ⟨c5, h5⟩ := (urlsStep_ok C.lib req c4).2
      (fun k hk => (linkOk_iff ho.redirects (redirects_then hn hci h1 h2 h3 h4) k).2 (ho.links k hk))
    obtain ⟨c6, h6⟩ := algsStep_ok hcap c5
    have hm := makeRecord_of_steps h1 h2 h3 h4 h5 h6
    have hk := (loadKeys_iff C.lib req _).2 ⟨ho.keys, rfl⟩
    obtain ⟨args, hr⟩ := (responseArgs_ok hm hpt).2 (by
      intro hp us hu u hm'
      obtain ⟨us', h7, h8⟩ := ho.requests _ hu
      have : us = us' := by
        have h3 : strList (us.map Json.str) = some us' := (strList_iff _ _).2 (Json.arr.inj h7)
        rw [(strList_iff _ us).2 rfl] at h3
        exact Option.some.inj h3
      subst this
      exact (h8 u hm').2 hp)
    rw [hm]
    simp only []
    rw [hk]
    simp only []
    rw [hr]
    exact ⟨_, _, rfl⟩

/-- Whether a request is in order does not depend on the client id in it. -/
theorem InOrder.congr {C : RegConf} {r r' : Dict Json} (hx : ∀ k, k ≠ "client_id" → r'.get? k = r.get? k) (h : InOrder C r) :
    InOrder C r' := by
  have hat := hx "application_type" (by decide)
  have hrt := hx "response_types" (by decide)
  have hru := hx "redirect_uris" (by decide)
  have hro : ∀ u, RedirectOk C.lib r' u ↔ RedirectOk C.lib r u := by
    intro u; unfold RedirectOk IsWeb IsNative CodeOnly; rw [hat, hrt]
  have hpl : ∀ u, placeOf C.lib r' u = placeOf C.lib r u := by intro u; unfold placeOf; rw [hat]
  have hpref : ∀ pref prov, (pref, prov) ∈ preferences → pref ≠ "client_id" := by
    have : ∀ p ∈ preferences, p.1 ≠ "client_id" := by decide
    exact fun a b h => this _ h
  refine ⟨?_, ?_, ?_, ?_, ?_, ?_, ?_⟩
  · intro pref prov v hp hv
    rw [hx pref (hpref _ _ hp)] at hv
    exact h.capabilities pref prov v hp hv
  · rw [hx _ (by decide)]; exact h.logout
  · rw [hru]
    intro v hv
    obtain ⟨us, h1, h2⟩ := h.redirects v hv
    exact ⟨us, h1, fun u hu => (hro u).2 (h2 u hu)⟩
  · rw [hx _ (by decide)]; exact h.requests
  · rw [hx _ (by decide), hru]; exact h.sector
  · intro k hk v hv
    have : k ≠ "client_id" := by
      rintro rfl; exact absurd hk (by decide)
    rw [hx k this] at hv
    obtain ⟨u, us, x, h1, h2, h3, h4⟩ := h.links k hk v hv
    exact ⟨u, us, x, h1, hru.trans h2, h3, by rw [hpl]; exact h4⟩
  · rw [hx "jwks_uri" (by decide), hx "jwks" (by decide)]; exact h.keys

/-- C113.  A registration is accepted exactly if the request is in order. -/
theorem C113_accepted (C : RegConf) (setSecret : Bool) (d : RegDraw) (req req1 : Dict Json) (s : RegState)
    (hv : C.lib.verify req = .ok req1) (hfree : ∃ c ∈ d.ids, s.cdb.get? c = none) :
    (∃ args s', register C true setSecret d req s = some (.ok args, s')) ↔ InOrder C req1 := by
  have hnd : req1.keys.Nodup := C.lib.verify_nodup hv
  have hnd2 : (req1.erase "client_id").keys.Nodup := List.Nodup.sublist (erase_keys_sublist _ _) hnd
  have hx : ∀ k, k ≠ "client_id" → (req1.erase "client_id").get? k = req1.get? k :=
    fun k hk => Dict.get?_erase_ne _ (Ne.symm hk)
  have hid : ∃ cid, randomClientId s.cdb.keys d.ids = some cid := by
    have : (randomClientId s.cdb.keys d.ids).isSome := randomClientId_isSome.2 (by
      obtain ⟨c, hc, hg⟩ := hfree
      exact ⟨c, hc, (Dict.get?_eq_none_iff _ _).1 hg⟩)
    exact Option.isSome_iff_exists.1 this
  obtain ⟨cid, hid⟩ := hid
  unfold register
  rw [hv]
  simp only []
  cases hm : matchClientRequest C.providerInfo req1 with
  | error e =>
    simp only [Option.some.injEq, Prod.mk.injEq, reduceCtorEq, false_and, exists_false, false_iff]
    intro ho
    rw [(C56_match_exact _ _).2 ho.capabilities] at hm; cases hm
  | ok _ =>
    have hcap := (C56_match_exact C.providerInfo req1).1 hm
    have hcap2 : WithinCapabilities C.providerInfo (req1.erase "client_id") := by
      intro pref prov v hp hv
      rw [hx pref (by
        have : ∀ p ∈ preferences, p.1 ≠ "client_id" := by decide
        exact this _ hp)] at hv
      exact hcap pref prov v hp hv
    have hc : chooseId true d req1 s = some (.ok (cid, req1.erase "client_id")) := by
      unfold chooseId; simp [hid]
    simp only [hc, Option.some.injEq]
    rw [finish_ok hnd2 hcap2]
    exact ⟨InOrder.congr (fun k hk => (hx k hk).symm), InOrder.congr hx⟩

theorem algStep_get? {C : RegConf} {req : Dict Json} {ci c : Cinfo} {item prov a : String} {sup : List String}
    (h : algStep C req ci item prov = .ok c) (hv : req.get? item = some (.str a)) (hs : C.providerInfo.get? prov = some sup)
    (ha : a ∈ sup) : (CannotSign C.lib a → c.get? item = none) ∧ (¬ CannotSign C.lib a → c.get? item = ci.get? item) := by
  unfold algStep at h
  rw [hv] at h
  simp only [hs] at h
  unfold CannotSign
  by_cases hc : C.lib.keyType a ≠ "none" ∧ C.lib.keyType a ≠ "oct" ∧ C.lib.hasKey a = false
  · rw [if_pos (by simp [ha, hc])] at h
    cases h
    exact ⟨fun _ => by rw [Dict.get?_erase_self], fun h => absurd hc h⟩
  · rw [if_neg (by
      simp only [Bool.and_eq_true, bne_iff_ne, Bool.not_eq_true', not_and, and_imp] at hc ⊢
      exact fun _ h1 h2 => hc h1 h2)] at h
    cases h
    exact ⟨fun h => absurd h hc, fun _ => rfl⟩

theorem addKeys_get? (keys : Dict (List KeySource)) (cid : String) (new : List KeySource) :
    ((addKeys keys cid new).get? cid).getD [] = (keys.get? cid).getD [] ++ new ∧
    ∀ c, c ≠ cid → (addKeys keys cid new).get? c = keys.get? c := by
  unfold addKeys
  cases new with
  | nil => simp
  | cons a t =>
    simp only [List.isEmpty_cons, Bool.false_eq_true, if_false]
    exact ⟨by rw [Dict.get?_set_self]; rfl, fun c hc => Dict.get?_set_ne _ _ (Ne.symm hc)⟩

theorem initialRecord_no_links (C : RegConf) (newId ss : Bool) (d : RegDraw) (cid : String) {k : String} (hk : k ∈ linkNames) :
    (initialRecord C newId ss d cid).get? k = none := by
  simp only [linkNames, List.mem_cons, List.not_mem_nil, or_false] at hk
  unfold initialRecord
  rcases hk with rfl | rfl | rfl <;>
    cases C.readPath <;> cases newId <;> cases ss <;>
    simp [Dict.get?_cons] <;> split <;> simp [Dict.get?_cons]

/-- C113.  What is kept of an accepted request under the client id that was drawn: the links and the sector as given, where the
documents of the sector said, the algorithms that the provider can sign with, the keys that came along and then the secret, and
the access token by which the client can read all this later.  Keys of others stay as they are. -/
theorem C113_kept (C : RegConf) (setSecret : Bool) (d : RegDraw) (req req1 args : Dict Json) (s s' : RegState)
    (hv : C.lib.verify req = .ok req1) (h : register C true setSecret d req s = some (.ok args, s')) :
    ∃ cid ci, s.cdb.get? cid = none ∧ s'.cdb.get? cid = some ci ∧ ci.get? "client_id" = some (.json (.str cid)) ∧
      (∀ k ∈ linkNames, ci.get? k = (req1.get? k).map .json) ∧
      (∀ u, req1.get? "sector_identifier_uri" = some (.str u) → ∃ doc, C.lib.fetch u = some doc ∧
        ci.get? "sector_id" = some (.json (.str u)) ∧ ci.get? "si_redirects" = some (.json doc)) ∧
      (∀ k ∈ ["id_token_signed_response_alg", "userinfo_signed_response_alg"], ∀ a, req1.get? k = some (.str a) →
        (CannotSign C.lib a → ci.get? k = none) ∧ (¬ CannotSign C.lib a → ci.get? k = some (.json (.str a)))) ∧
      (s'.keys.get? cid).getD [] = (s.keys.get? cid).getD [] ++ broughtKeys req1 ++
        (if setSecret = true ∧ d.secret ≠ "" then [.symmetric d.secret] else []) ∧
      (∀ c, c ≠ cid → s'.keys.get? c = s.keys.get? c) ∧
      (C.readPath ≠ none → s'.tokens.get? d.token = some cid) := by
  have hnd : req1.keys.Nodup := C.lib.verify_nodup hv
  have hnd2 : (req1.erase "client_id").keys.Nodup := List.Nodup.sublist (erase_keys_sublist _ _) hnd
  have hx : ∀ k, k ≠ "client_id" → (req1.erase "client_id").get? k = req1.get? k :=
    fun k hk => Dict.get?_erase_ne _ (Ne.symm hk)
  unfold register at h
  rw [hv] at h
  simp only [] at h
  cases hm : matchClientRequest C.providerInfo req1 with
  | error e => rw [hm] at h; simp at h
  | ok _ =>
    have hcap := (C56_match_exact C.providerInfo req1).1 hm
    rw [hm] at h
    simp only [] at h
    cases hc : chooseId true d req1 s with
    | none => rw [hc] at h; cases h
    | some x =>
      cases x with
      | error e => rw [hc] at h; simp at h
      | ok p =>
        obtain ⟨cid, req2⟩ := p
        obtain ⟨-, hnew, rfl⟩ := chooseId_new hc
        rw [hc] at h
        simp only [Option.some.injEq] at h
        have hini : ((storeInitial C true setSecret d cid s).cdb.get? cid).getD [] = initialRecord C true setSecret d cid := by
          unfold storeInitial; simp
        unfold finishRegistration at h
        rw [hini] at h
        cases hm2 : makeRecord C (req1.erase "client_id") (initialRecord C true setSecret d cid) with
        | error e => rw [hm2] at h; cases h
        | ok ci =>
          rw [hm2] at h
          simp only [] at h
          cases hk : loadKeys C.lib (req1.erase "client_id") with
          | error e => rw [hk] at h; cases h
          | ok ks =>
            rw [hk] at h
            simp only [] at h
            cases hr : responseArgs C ci with
            | error e => rw [hr] at h; cases h
            | ok args' =>
              rw [hr] at h
              simp only [Prod.mk.injEq] at h
              obtain ⟨-, rfl⟩ := h
              have hks : ks = broughtKeys req1 := by
                rw [((loadKeys_iff _ _ _).1 hk).2]
                unfold broughtKeys
                rw [hx _ (by decide), hx _ (by decide)]
              subst hks
              obtain ⟨c1, c2, c3, c4, c5, h1, h2, h3, h4, h5, h6⟩ := makeRecord_steps hm2
              refine ⟨cid, ci, (Dict.get?_eq_none_iff _ _).2 hnew, Dict.get?_set_self _ _ _, makeRecord_id hnd hm2,
                ?_, ?_, ?_, ?_, ?_, ?_⟩
              · intro k hk
                have hkc : k ≠ "client_id" := by rintro rfl; exact absurd hk (by decide)
                have hin : regIgnore.contains k = true := by
                  simp only [linkNames, List.mem_cons, List.not_mem_nil, or_false] at hk
                  rcases hk with rfl | rfl | rfl <;> decide
                have hne : ∀ n, n ∉ linkNames → k ≠ n := by rintro n hn rfl; exact hn hk
                rw [algsStep_frame h6 (.inr ⟨hne _ (by decide), hne _ (by decide)⟩), urlsStep_get? h5 hk, hx k hkc,
                  sectorStep_frame h4 (.inr ⟨hne _ (by decide), hne _ (by decide)⟩),
                  requestUrisStep_frame h3 (hne _ (by decide)), redirectStep_frame h2 (hne _ (by decide)),
                  postLogoutStep_frame h1 (hne _ (by decide)), copyRequest_get? hnd2, if_pos hin,
                  initialRecord_no_links _ _ _ _ _ hk]
                cases req1.get? k <;> rfl
              · intro u hu
                have hred := (redirectStep_ok C.lib _ c1).1 ⟨_, h2⟩
                rcases (sectorStep_iff _ _ _ _ (fun v hv => let ⟨us, h, _⟩ := hred v hv; ⟨us, h⟩)).1 h4 with
                  ⟨h7, -⟩ | ⟨u', doc, h7, h8, -, rfl⟩
                · rw [hx _ (by decide), hu] at h7; cases h7
                · rw [hx _ (by decide), hu] at h7
                  cases h7
                  refine ⟨doc, h8, ?_, ?_⟩
                  · rw [algsStep_frame h6 (.inr (by decide)), urlsStep_frame h5 (.inr (by decide)), Dict.get?_set_self]
                  · rw [algsStep_frame h6 (.inr (by decide)), urlsStep_frame h5 (.inr (by decide)),
                      Dict.get?_set_ne _ _ (by decide), Dict.get?_set_self]
              · have before : ∀ k ∈ ["id_token_signed_response_alg", "userinfo_signed_response_alg"], ∀ a,
                    req1.get? k = some (.str a) → c5.get? k = some (.json (.str a)) := by
                  intro k hk a ha
                  have hne : ∀ n, n ∉ ["id_token_signed_response_alg", "userinfo_signed_response_alg"] → k ≠ n := by
                    rintro n hn rfl; exact hn hk
                  have hin : regIgnore.contains k = false := by
                    simp only [List.mem_cons, List.not_mem_nil, or_false] at hk
                    rcases hk with rfl | rfl <;> decide
                  rw [urlsStep_frame h5 (.inr ⟨hne _ (by decide), hne _ (by decide), hne _ (by decide)⟩),
                    sectorStep_frame h4 (.inr ⟨hne _ (by decide), hne _ (by decide)⟩),
                    requestUrisStep_frame h3 (hne _ (by decide)), redirectStep_frame h2 (hne _ (by decide)),
                    postLogoutStep_frame h1 (hne _ (by decide)), copyRequest_get? hnd2, if_neg (by rw [hin]; decide),
                    hx k (hne _ (by decide)), ha]
                have sup : ∀ item prov a, (item, prov) ∈ preferences → ¬ (item = "response_types" ∨ item = "default_acr_values") →
                    req1.get? item = some (.str a) → ∃ sup, C.providerInfo.get? prov = some sup ∧ a ∈ sup := by
                  intro item prov a hp hi ha
                  obtain ⟨su, h8, h9⟩ := hcap item prov _ hp ha
                  unfold Within at h9
                  rw [if_neg hi] at h9
                  rcases h9 with ⟨x, h9, h10⟩ | ⟨_, h9, _⟩ | ⟨_, h9, _⟩
                  · cases h9; exact ⟨su, h8, h10⟩
                  · cases h9
                  · cases h9
                unfold algsStep at h6
                cases hs1 : algStep C (req1.erase "client_id") c5 "id_token_signed_response_alg"
                    "id_token_signing_alg_values_supported" with
                | error e => rw [hs1] at h6; cases h6
                | ok c' =>
                  rw [hs1] at h6
                  simp only [] at h6
                  intro k hk a ha
                  have hb := before k hk a ha
                  simp only [List.mem_cons, List.not_mem_nil, or_false] at hk
                  rcases hk with rfl | rfl
                  · obtain ⟨su, hsu, hsa⟩ := sup _ "id_token_signing_alg_values_supported" _ (by decide) (by decide) ha
                    have := algStep_get? hs1 (by rw [hx _ (by decide)]; exact ha) hsu hsa
                    rw [algStep_frame h6 (.inr (by decide)), ← hb]
                    exact this
                  · obtain ⟨su, hsu, hsa⟩ := sup _ "userinfo_signing_alg_values_supported" _ (by decide) (by decide) ha
                    have := algStep_get? h6 (by rw [hx _ (by decide)]; exact ha) hsu hsa
                    rw [algStep_frame hs1 (.inr (by decide)), hb] at this
                    exact this
              · show (Dict.get? (if (setSecret && d.secret != "") = true then
                    addKeys (addKeys s.keys cid (broughtKeys req1)) cid [.symmetric d.secret]
                    else addKeys s.keys cid (broughtKeys req1)) cid).getD [] = _
                by_cases hss : setSecret = true ∧ d.secret ≠ ""
                · rw [if_pos (by simp [hss]), if_pos hss, (addKeys_get? _ _ _).1, (addKeys_get? _ _ _).1]
                · rw [if_neg (by simpa using hss), if_neg hss, (addKeys_get? _ _ _).1, List.append_nil]
              · intro c hc
                show Dict.get? (if (setSecret && d.secret != "") = true then
                    addKeys (addKeys s.keys cid (broughtKeys req1)) cid [.symmetric d.secret]
                    else addKeys s.keys cid (broughtKeys req1)) c = _
                split
                · rw [(addKeys_get? _ _ _).2 c hc, (addKeys_get? _ _ _).2 c hc]
                · rw [(addKeys_get? _ _ _).2 c hc]
              · intro hp
                show Dict.get? (if C.readPath.isSome then s.tokens.set d.token cid else s.tokens) d.token = _
                rw [if_pos (by cases hq : C.readPath with | none => exact absurd hq hp | some _ => rfl), Dict.get?_set_self]

/-- How a URI with a fragment is written: the fragment is what comes after the first "#". -/
def FragmentLaw (L : RegLib) : Prop :=
  ∀ u, L.fragment u ≠ "" → ∃ b : List Char, '#' ∉ b ∧ u.toList = b ++ '#' :: (L.fragment u).toList

theorem combParts_requests {L : RegLib} (hl : FragmentLaw L) (us : List String) (l : List String)
    (h : combParts (us.map (requestParts L)) = .ok l) : l = us := by
  induction us generalizing l with
  | nil => simp [combParts] at h; exact h
  | cons u t ih =>
    rw [List.map_cons] at h
    have h2 : ∀ p ∈ (requestParts L u :: t.map (requestParts L)), p.length = 2 := (combParts_ok _).1 ⟨_, h⟩
    have h3 := (requestParts_two L u).1 (h2 _ (List.mem_cons_self ..))
    have key : ∃ b f, requestParts L u = [b, f] ∧ (if f ≠ "" then b ++ "#" ++ f else b) = u := by
      unfold requestParts
      by_cases hf : L.fragment u = ""
      · exact ⟨u, "", by simp [hf], by simp⟩
      · obtain ⟨b, f, e1, e2, e3⟩ := h3 hf
        obtain ⟨b', e4, e5⟩ := hl u hf
        have hbb : b = b' ∧ f = (L.fragment u).toList := by
          have := e1.symm.trans e5
          rw [List.append_eq_append_iff] at this
          rcases this with ⟨w, hw1, hw2⟩ | ⟨w, hw1, hw2⟩
          · cases w with
            | nil => simp at hw1 hw2; exact ⟨hw1.symm, hw2⟩
            | cons x y =>
              simp only [List.cons_append, List.cons.injEq] at hw2
              exact absurd (by rw [hw1, ← hw2.1]; simp) e4
          · cases w with
            | nil => simp at hw1 hw2; exact ⟨hw1, hw2.symm⟩
            | cons x y =>
              simp only [List.cons_append, List.cons.injEq] at hw2
              exact absurd (by rw [hw1, ← hw2.1]; simp) e2
        refine ⟨String.ofList b, String.ofList f, ?_, ?_⟩
        · have hsp := pySplit1_join '#' [b, f] (by simp) (by simp [e2, e3])
          simp only [pyJoin, List.append_assoc, List.cons_append, List.nil_append] at hsp
          rw [if_pos hf, e1, hsp]; rfl
        · have hfn : String.ofList f ≠ "" := by
            rw [hbb.2, String.ofList_toList]; exact hf
          rw [if_pos hfn]
          apply String.toList_inj.1
          simp [e1]
    obtain ⟨b, f, e1, e2⟩ := key
    rw [e1] at h
    unfold combParts at h
    cases hr : combParts (t.map (requestParts L)) with
    | error e => rw [hr] at h; cases h
    | ok r =>
      rw [hr] at h
      simp only [Except.ok.injEq] at h
      rw [← h, e2, ih r hr]

/-- C79.  The places of request objects in the answer are those of the request, one by one, in their order and with their
fragments. -/
theorem C79_request_uris (C : RegConf) (setSecret : Bool) (d : RegDraw) (req req1 args : Dict Json) (s s' : RegState)
    (hv : C.lib.verify req = .ok req1) (h : register C true setSecret d req s = some (.ok args, s'))
    (hl : FragmentLaw C.lib) (hp : "request_uris" ∈ C.respParams) (us : List String)
    (hu : req1.get? "request_uris" = some (.arr (us.map .str))) :
    args.get? "request_uris" = some (.arr (us.map .str)) := by
  rcases register_cases h with ⟨⟨e, he⟩, -⟩ | ⟨req1', req2, cid, hv', -, hid, h⟩
  · cases he
  · rw [hv] at hv'
    cases hv'
    obtain ⟨-, hf, rfl⟩ := chooseId_new hid
    rcases h with ⟨⟨e, he⟩, -⟩ | ⟨args', ci, he, hci, ha, -, -, hcdb⟩
    · cases he
    · cases he
      have hc := makeRecord_request_uris hci (us := us) (by rw [Dict.get?_erase_ne _ (by decide)]; exact hu)
      rcases responseArgs_get? ha hp with ⟨h9, -⟩ | ⟨v', j, h9, h10, h11⟩
      · rw [hc] at h9; cases h9
      · rw [hc] at h9
        cases h9
        simp only [combVal] at h11
        cases hr : combParts (us.map (requestParts C.lib)) with
        | error e => rw [hr] at h11; cases h11
        | ok l =>
          rw [hr] at h11
          cases h11
          rw [h10, combParts_requests hl us l hr]

namespace Ex

/-- A provider that supports pairwise sectors and reads a document at one place. -/
def decLib : RegLib := { regLib with
  fetch := fun u => if u = "https://sec/doc" then some (.arr [.str "https://rp/cb?x=1", .str "https://rp/other"]) else none }

def decConf : RegConf := { regConf with lib := decLib, respParams := "request_uris" :: regConf.respParams }

/-- A request with links, a sector, keys, request objects and an algorithm that the provider has no key for. -/
def decReq : Dict Json :=
  [("redirect_uris", .arr [.str "https://rp/cb?x=1", .str "https://rp/other"]), ("policy_uri", .str "https://rp/policy"),
   ("sector_identifier_uri", .str "https://sec/doc"), ("request_uris", .arr [.str "https://rp/req#hash", .str "https://rp/req2"]),
   ("id_token_signed_response_alg", .str "PS256"), ("jwks_uri", .str "https://rp/keys"), ("jwks", .str "ignored")]

def decReg : Except String (Dict Json) × RegState := (register decConf true true regDraw decReq reg0).getD (.error "", {})

def decArgs : Dict Json := match decReg.1 with | .ok a => a | .error _ => []

theorem dec_eq : register decConf true true regDraw decReq reg0 = some (.ok decArgs, decReg.2) := by decide +kernel

/-- The request is accepted, so it is in order; and all of it is kept. -/
example : InOrder decConf decReq ∧ decArgs.get? "request_uris" = some (.arr [.str "https://rp/req#hash", .str "https://rp/req2"]) ∧
    decReg.2.keys.get? "rp1" = some [.url "https://rp/keys", .symmetric "s3cret"] ∧ decReg.2.tokens.get? "rat" = some "rp1" :=
  ⟨(C113_accepted decConf true regDraw decReq decReq reg0 (by decide +kernel) ⟨"rp1", by decide, by decide⟩).1 ⟨_, _, dec_eq⟩,
   by decide +kernel, by decide +kernel, by decide +kernel⟩

example : ∃ cid ci, reg0.cdb.get? cid = none ∧ decReg.2.cdb.get? cid = some ci ∧
    ci.get? "policy_uri" = some (.json (.str "https://rp/policy")) ∧ ci.get? "id_token_signed_response_alg" = none := by
  obtain ⟨cid, ci, h1, h2, -, h3, -, h4, -⟩ := C113_kept decConf true regDraw decReq decReq decArgs reg0 decReg.2
    (by decide +kernel) dec_eq
  exact ⟨cid, ci, h1, h2, h3 "policy_uri" (by decide), (h4 "id_token_signed_response_alg" (by decide) "PS256" (by decide)).1
    ⟨by decide +kernel, by decide +kernel, by decide +kernel⟩⟩

/-- A link on another site, a redirect URI missing in the document of the sector, a query in the place of a request object: none
of these is in order. -/
example : ¬ InOrder decConf (decReq.set "logo_uri" (.str "https://other/logo")) ∧
    ¬ InOrder decConf (decReq.set "redirect_uris" (.arr [.str "https://rp/new"])) ∧
    ¬ InOrder decConf (decReq.set "request_uris" (.arr [.str "https://rp/req?x=1"])) := by
  have key : ∀ r : Dict Json, decConf.lib.verify r = .ok r →
      (match register decConf true true regDraw r reg0 with | some (.ok _, _) => false | _ => true) = true → ¬ InOrder decConf r := by
    intro r hv hr ho
    obtain ⟨args, s', h⟩ := (C113_accepted decConf true regDraw r r reg0 hv ⟨"rp1", by decide, by decide⟩).2 ho
    rw [h] at hr; cases hr
  exact ⟨key _ (by decide +kernel) (by decide +kernel), key _ (by decide +kernel) (by decide +kernel),
    key _ (by decide +kernel) (by decide +kernel)⟩

theorem decLaw : FragmentLaw decConf.lib := by
  intro u hu
  have hu' : String.ofList (cutAt '#' u.toList).2 ≠ "" := hu
  show ∃ b : List Char, '#' ∉ b ∧ u.toList = b ++ '#' :: (String.ofList (cutAt '#' u.toList).2).toList
  unfold cutAt at hu' ⊢
  cases hs : splitFirst '#' u.toList with
  | none => rw [hs] at hu'; exact absurd rfl hu'
  | some p =>
    obtain ⟨a, b⟩ := p
    obtain ⟨h1, h2⟩ := splitFirst_some hs
    exact ⟨a, h1, by simpa using h2⟩

/-- The places of request objects as they are told to the client. -/
example : decArgs.get? "request_uris" = some (.arr [.str "https://rp/req#hash", .str "https://rp/req2"]) :=
  C79_request_uris decConf true regDraw decReq decReq decArgs reg0 decReg.2 (by decide +kernel) dec_eq decLaw (by decide)
    ["https://rp/req#hash", "https://rp/req2"] (by decide)

end Ex

end OidcOp
