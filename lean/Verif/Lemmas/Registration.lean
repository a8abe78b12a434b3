/-
What the steps of a registration do to the record and to the state.
-/
import Verif.Spec.Registration
import Verif.Props.Uri

namespace OidcOp
open Spec

theorem strList_iff (l : List Json) (vs : List String) : strList l = some vs ↔ l = vs.map .str := by
  induction l generalizing vs with
  | nil => cases vs <;> simp [strList]
  | cons x t ih =>
    cases x with
    | str s =>
      simp only [strList, Option.map_eq_some_iff]
      constructor
      · rintro ⟨a, h1, rfl⟩
        rw [(ih a).1 h1]; rfl
      · intro h
        cases vs with
        | nil => cases h
        | cons y ys =>
          simp only [List.map_cons, List.cons.injEq, Json.str.injEq] at h
          exact ⟨ys, (ih ys).2 h.2, by rw [h.1]⟩
    | _ => cases vs <;> simp [strList]

theorem sameWords_iff (a b : List String) : sameWords a b = true ↔ SameSet a b := by
  unfold sameWords
  simp only [Bool.and_eq_true, List.all_eq_true, List.contains_eq_mem, decide_eq_true_eq]
  exact ⟨fun h x => ⟨h.1 x, h.2 x⟩, fun h => ⟨fun x => (h x).1, fun x => (h x).2⟩⟩

theorem words_spWords (v : String) : Words v (spWords v) := words_exists v

theorem spWords_unique {v : String} {ws : List String} (h : Words v ws) : spWords v = ws := words_unique h

theorem wordsSupported_iff (sup : List String) (v : String) :
    (sup.any (fun w => sameWords (spWords v) (spWords w))) = true ↔ WordsSupported sup v := by
  rw [List.any_eq_true]
  constructor
  · rintro ⟨w, hw, h⟩
    exact ⟨w, hw, _, _, words_spWords v, words_spWords w, (sameWords_iff _ _).1 h⟩
  · rintro ⟨w, hw, a, b, h1, h2, h3⟩
    refine ⟨w, hw, (sameWords_iff _ _).2 ?_⟩
    rw [spWords_unique h1, spWords_unique h2]; exact h3

theorem spWords_word {v x : String} (h : x ∈ spWords v) : spWords x = [x] := by
  refine spWords_unique ⟨by simp, ?_, ?_⟩
  · intro w hw
    rw [List.mem_singleton] at hw
    subst hw
    exact (words_spWords v).2.1 _ h
  · simp [pyJoin]

/-- What `match_sp_sep` decides. -/
theorem matchSpSep_iff (v : Json) (sup : List String) :
    matchSpSep v sup = .ok true ↔
      (∃ vs : List String, v = .arr (vs.map .str) ∧ ∀ x ∈ vs, WordsSupported sup x) ∨
      (∃ s ws, v = .str s ∧ Words s ws ∧ ∀ x ∈ ws, WordsSupported sup x) := by
  unfold matchSpSep
  cases v with
  | arr l =>
    simp only []
    cases hs : strList l with
    | none =>
      simp only [reduceCtorEq, false_iff, not_or]
      refine ⟨?_, by simp⟩
      rintro ⟨vs, h, -⟩
      cases h
      rw [(strList_iff _ vs).2 rfl] at hs
      cases hs
    | some vs =>
      have hl := (strList_iff _ _).1 hs
      subst hl
      simp only [Except.ok.injEq, List.all_eq_true, wordsSupported_iff]
      constructor
      · exact fun h => .inl ⟨vs, rfl, h⟩
      · rintro (⟨vs', h, h'⟩ | ⟨s, ws, h, -⟩)
        · have : strList (vs.map Json.str) = some vs' := (strList_iff _ _).2 (Json.arr.inj h)
          rw [hs] at this
          cases this
          exact h'
        · cases h
  | str s =>
    simp only [Except.ok.injEq, List.all_eq_true]
    constructor
    · intro h
      refine .inr ⟨s, spWords s, rfl, words_spWords s, fun x hx => ?_⟩
      have := h x hx
      rw [← wordsSupported_iff]
      rw [spWords_word hx]
      exact this
    · rintro (⟨vs, h, -⟩ | ⟨s', ws, h, hw, h'⟩)
      · cases h
      · cases h
        intro x hx
        have h3 := (wordsSupported_iff sup x).2 (h' x (by rw [← spWords_unique hw]; exact hx))
        rw [spWords_word hx] at h3
        exact h3
  | _ => simp

theorem matchPref_ok_iff (pi : Dict (List String)) (req : Dict Json) (p : String × String) :
    matchPref pi req p = .ok () ↔
      ∀ v, req.get? p.1 = some v → ∃ sup, pi.get? p.2 = some sup ∧ Within p.1 v sup := by
  unfold matchPref
  cases hv : req.get? p.1 with
  | none => simp
  | some v =>
    simp only [Option.some.injEq, forall_eq']
    cases hp : pi.get? p.2 with
    | none => simp
    | some sup =>
      simp only [Option.some.injEq, exists_eq_left']
      unfold Within
      by_cases hk : p.1 = "response_types" ∨ p.1 = "default_acr_values"
      · rw [if_pos hk, if_pos hk, ← matchSpSep_iff]
        cases matchSpSep v sup with
        | error e => simp
        | ok b => cases b <;> simp
      · rw [if_neg hk, if_neg hk]
        cases v with
        | str s =>
          simp only [Json.str.injEq, exists_eq_left', reduceCtorEq, false_and, exists_false, or_false]
          by_cases h : s ∈ sup <;> simp [h]
        | arr l =>
          simp only [Json.arr.injEq, reduceCtorEq, false_and, exists_false, or_false, false_or]
          have : (l.all (fun j => sup.any (fun s => j = .str s))) = true ↔
              ∃ vs : List String, l = vs.map .str ∧ ∀ x ∈ vs, x ∈ sup := by
            rw [List.all_eq_true]
            constructor
            · intro h
              clear hv
              induction l with
              | nil => exact ⟨[], rfl, by simp⟩
              | cons y t ih =>
                obtain ⟨vs, h1, h2⟩ := ih (fun x hx => h x (List.mem_cons_of_mem _ hx))
                have hy := h y List.mem_cons_self
                rw [List.any_eq_true] at hy
                obtain ⟨s, hs, he⟩ := hy
                refine ⟨s :: vs, by simp only [List.map_cons]; rw [h1, of_decide_eq_true he], ?_⟩
                intro x hx
                rcases List.mem_cons.1 hx with rfl | hx
                · exact hs
                · exact h2 x hx
            · rintro ⟨vs, rfl, h⟩ j hj
              obtain ⟨x, hx, rfl⟩ := List.mem_map.1 hj
              exact List.any_eq_true.2 ⟨x, h x hx, by simp⟩
          rw [← this]
          split <;> simp_all
        | obj d =>
          simp only [Json.obj.injEq, reduceCtorEq, false_and, exists_false, false_or]
          have : (d.all (fun q => sup.contains q.1)) = true ↔ ∃ d' : Dict Json, d = d' ∧ ∀ x ∈ d'.keys, x ∈ sup := by
            simp [Dict.keys]
          rw [← this]
          split <;> simp_all
        | _ => simp

theorem matchPrefs_ok_iff (pi : Dict (List String)) (req : Dict Json) (l : Dict String) :
    matchPrefs pi req l = .ok () ↔ ∀ p ∈ l, matchPref pi req p = .ok () := by
  induction l with
  | nil => simp [matchPrefs]
  | cons p t ih =>
    rw [matchPrefs]
    cases h : matchPref pi req p with
    | error e => simp [h]
    | ok u => cases u; simp [h, ih]

/-! ### The record -/

theorem copyRequest_get? {ignore : List String} {req : Dict Json} (hn : req.keys.Nodup) (ci : Cinfo) (k : String) :
    (copyRequest ignore req ci).get? k =
      if ignore.contains k then ci.get? k
      else match req.get? k with | some v => some (.json v) | none => ci.get? k := by
  have hk : ∀ d : Dict Json,
      Dict.get? ((d.filter (fun p => !ignore.contains p.1)).map (fun p => (p.1, RVal.json p.2)) : Cinfo) k =
      if ignore.contains k then none else (d.get? k).map RVal.json := by
    intro d
    induction d with
    | nil => simp
    | cons x t ih =>
      obtain ⟨a, b⟩ := x
      by_cases ha : ignore.contains a
      · rw [List.filter_cons_of_neg (by simpa using ha), ih, Dict.get?_cons]
        by_cases hak : a = k
        · subst hak
          rw [if_pos ha, if_pos ha]
        · rw [if_neg hak]
      · rw [List.filter_cons_of_pos (by simpa using ha), List.map_cons, Dict.get?_cons, ih, Dict.get?_cons]
        by_cases hak : a = k
        · subst hak
          rw [if_pos rfl, if_pos rfl, if_neg ha]; rfl
        · rw [if_neg hak, if_neg hak]
  unfold copyRequest
  rw [Dict.get?_update_of_nodup, hk]
  · by_cases hi : ignore.contains k
    · rw [if_pos hi, if_pos hi]
    · rw [if_neg hi, if_neg hi]
      cases req.get? k <;> rfl
  · have : Dict.keys ((req.filter (fun p => !ignore.contains p.1)).map (fun p => (p.1, RVal.json p.2)) : Cinfo) =
        (req.filter (fun p => !ignore.contains p.1)).map (·.1) := by
      simp [Dict.keys]
    rw [this]
    exact List.Nodup.sublist (List.Sublist.map _ List.filter_sublist) hn

theorem postLogoutStep_frame {L : RegLib} {req : Dict Json} {ci ci' : Cinfo} (h : postLogoutStep L req ci = .ok ci')
    {k : String} (hk : k ≠ "post_logout_redirect_uri") : ci'.get? k = ci.get? k := by
  unfold postLogoutStep at h
  split at h
  · cases h; rfl
  · split at h
    · cases h; rfl
    · split at h
      · cases h
      · cases h
        exact Dict.get?_set_ne _ _ (Ne.symm hk)
  · split at h
    · cases h
    · cases h; rfl

theorem redirectStep_frame {L : RegLib} {req : Dict Json} {ci ci' : Cinfo} (h : redirectStep L req ci = .ok ci')
    {k : String} (hk : k ≠ "redirect_uris") : ci'.get? k = ci.get? k := by
  unfold redirectStep at h
  split at h
  · cases h
  · cases h; rfl
  · split at h
    · cases h
    · cases h
      exact Dict.get?_set_ne _ _ (Ne.symm hk)

theorem requestUrisStep_frame {L : RegLib} {req : Dict Json} {ci ci' : Cinfo} (h : requestUrisStep L req ci = .ok ci')
    {k : String} (hk : k ≠ "request_uris") : ci'.get? k = ci.get? k := by
  unfold requestUrisStep at h
  split at h
  · cases h
  · cases h; rfl
  · split at h
    · cases h
    · cases h
      exact Dict.get?_set_ne _ _ (Ne.symm hk)

theorem sectorStep_frame {L : RegLib} {req : Dict Json} {ci ci' : Cinfo} (h : sectorStep L req ci = .ok ci')
    {k : String} (hk : req.get? "sector_identifier_uri" = none ∨ (k ≠ "si_redirects" ∧ k ≠ "sector_id")) :
    ci'.get? k = ci.get? k := by
  unfold sectorStep at h
  split at h
  · cases h
  · cases h; rfl
  · rename_i u hu
    have hne : req.get? "sector_identifier_uri" ≠ none := by
      intro hn
      rw [strMember, hn] at hu
      cases hu
    obtain ⟨h1, h2⟩ := hk.resolve_left hne
    split at h
    · cases h
    · split at h
      · cases h
      · split at h
        · cases h
        · cases h
          rw [Dict.get?_set_ne _ _ (Ne.symm h2), Dict.get?_set_ne _ _ (Ne.symm h1)]

theorem urlStep_frame {L : RegLib} {req : Dict Json} {ci ci' : Cinfo} {item : String} (h : urlStep L req ci item = .ok ci')
    {k : String} (hk : req.get? item = none ∨ k ≠ item) : ci'.get? k = ci.get? k := by
  unfold urlStep at h
  split at h
  · cases h
  · cases h; rfl
  · rename_i u hu
    have hne : req.get? item ≠ none := by
      intro hn
      rw [strMember, hn] at hu
      cases hu
    have h2 := hk.resolve_left hne
    split at h
    · split at h
      · cases h
        exact Dict.get?_set_ne _ _ (Ne.symm h2)
      · cases h
    · cases h

theorem urlsStep_frame {L : RegLib} {req : Dict Json} {ci ci' : Cinfo} (h : urlsStep L req ci = .ok ci')
    {k : String} (hk : req.get? k = none ∨ (k ≠ "policy_uri" ∧ k ≠ "logo_uri" ∧ k ≠ "tos_uri")) :
    ci'.get? k = ci.get? k := by
  have hc : ∀ item, (k ≠ "policy_uri" ∧ k ≠ "logo_uri" ∧ k ≠ "tos_uri" → k ≠ item) →
      req.get? item = none ∨ k ≠ item := by
    intro item hi
    rcases hk with hk | hk
    · by_cases e : k = item
      · subst e; exact .inl hk
      · exact .inr e
    · exact .inr (hi hk)
  unfold urlsStep at h
  split at h
  · cases h
  · rename_i c1 h1
    split at h
    · cases h
    · rename_i c2 h2
      rw [urlStep_frame h (hc _ (fun x => x.2.2)), urlStep_frame h2 (hc _ (fun x => x.2.1)),
        urlStep_frame h1 (hc _ (fun x => x.1))]

theorem algStep_frame {C : RegConf} {req : Dict Json} {ci ci' : Cinfo} {item prov : String}
    (h : algStep C req ci item prov = .ok ci') {k : String} (hk : req.get? item = none ∨ k ≠ item) :
    ci'.get? k = ci.get? k := by
  unfold algStep at h
  split at h
  · cases h; rfl
  · rename_i v hv
    have h2 : k ≠ item := hk.resolve_left (by rw [hv]; simp)
    split at h
    · cases h
    · split at h
      · split at h
        · cases h
          exact Dict.get?_erase_ne _ (Ne.symm h2)
        · cases h; rfl
      · cases h; rfl

theorem algsStep_frame {C : RegConf} {req : Dict Json} {ci ci' : Cinfo} (h : algsStep C req ci = .ok ci')
    {k : String} (hk : req.get? k = none ∨ (k ≠ "id_token_signed_response_alg" ∧ k ≠ "userinfo_signed_response_alg")) :
    ci'.get? k = ci.get? k := by
  have hc : ∀ item, (k ≠ "id_token_signed_response_alg" ∧ k ≠ "userinfo_signed_response_alg" → k ≠ item) →
      req.get? item = none ∨ k ≠ item := by
    intro item hi
    rcases hk with hk | hk
    · by_cases e : k = item
      · subst e; exact .inl hk
      · exact .inr e
    · exact .inr (hi hk)
  unfold algsStep at h
  split at h
  · cases h
  · rename_i c1 h1
    rw [algStep_frame h (hc _ (fun x => x.2)), algStep_frame h1 (hc _ (fun x => x.1))]

/-- The algorithm steps keep a value or remove it. -/
theorem algStep_sub {C : RegConf} {req : Dict Json} {ci ci' : Cinfo} {item prov : String}
    (h : algStep C req ci item prov = .ok ci') (k : String) : ci'.get? k = ci.get? k ∨ ci'.get? k = none := by
  unfold algStep at h
  split at h
  · cases h; exact .inl rfl
  · split at h
    · cases h
    · split at h
      · split at h
        · cases h
          rw [Dict.get?_erase]
          split
          · exact .inr rfl
          · exact .inl rfl
        · cases h; exact .inl rfl
      · cases h; exact .inl rfl

theorem algsStep_sub {C : RegConf} {req : Dict Json} {ci ci' : Cinfo} (h : algsStep C req ci = .ok ci') (k : String) :
    ci'.get? k = ci.get? k ∨ ci'.get? k = none := by
  unfold algsStep at h
  split at h
  · cases h
  · rename_i c1 h1
    rcases algStep_sub h k with e | e
    · rw [e]; exact algStep_sub h1 k
    · exact .inr e

/-- The steps of `makeRecord`. -/
theorem makeRecord_steps {C : RegConf} {req : Dict Json} {ci ci' : Cinfo} (h : makeRecord C req ci = .ok ci') :
    ∃ c1 c2 c3 c4 c5, postLogoutStep C.lib req (copyRequest regIgnore req ci) = .ok c1 ∧ redirectStep C.lib req c1 = .ok c2 ∧
      requestUrisStep C.lib req c2 = .ok c3 ∧ sectorStep C.lib req c3 = .ok c4 ∧ urlsStep C.lib req c4 = .ok c5 ∧
      algsStep C req c5 = .ok ci' := by
  unfold makeRecord at h
  simp only [bind, Except.bind] at h
  split at h
  · cases h
  · rename_i c1 h1
    split at h
    · cases h
    · rename_i c2 h2
      split at h
      · cases h
      · rename_i c3 h3
        split at h
        · cases h
        · rename_i c4 h4
          split at h
          · cases h
          · rename_i c5 h5
            exact ⟨c1, c2, c3, c4, c5, h1, h2, h3, h4, h5, h⟩

/-- The names that registration does not simply copy. -/
def checkedNames : List String :=
  ["post_logout_redirect_uri", "redirect_uris", "request_uris", "si_redirects", "sector_id", "policy_uri", "logo_uri",
   "tos_uri"]

/-- A member that the request has and no check looks at is in the record as it was in the request, unless it is an algorithm
without a key. -/
theorem makeRecord_copied {C : RegConf} {req : Dict Json} {ci ci' : Cinfo} (h : makeRecord C req ci = .ok ci')
    (hn : req.keys.Nodup) {k : String} (hk : k ∉ checkedNames) :
    ci'.get? k = (match req.get? k with | some v => some (.json v) | none => ci.get? k) ∨ ci'.get? k = none := by
  obtain ⟨c1, c2, c3, c4, c5, h1, h2, h3, h4, h5, h6⟩ := makeRecord_steps h
  simp only [checkedNames, List.mem_cons, List.not_mem_nil, or_false, not_or] at hk
  obtain ⟨k1, k2, k3, k4, k5, k6, k7, k8⟩ := hk
  have hi : ¬ (regIgnore.contains k = true) := by simp [regIgnore, k2, k6, k7, k8]
  rcases algsStep_sub h6 k with e | e
  · left
    rw [e, urlsStep_frame h5 (.inr ⟨k6, k7, k8⟩), sectorStep_frame h4 (.inr ⟨k4, k5⟩), requestUrisStep_frame h3 k3,
      redirectStep_frame h2 k2, postLogoutStep_frame h1 k1, copyRequest_get? hn, if_neg hi]
  · exact .inr e

/-- As above, for a name other than the two algorithms: nothing is removed. -/
theorem makeRecord_copied' {C : RegConf} {req : Dict Json} {ci ci' : Cinfo} (h : makeRecord C req ci = .ok ci')
    (hn : req.keys.Nodup) {k : String} (hk : k ∉ checkedNames)
    (ha : k ≠ "id_token_signed_response_alg" ∧ k ≠ "userinfo_signed_response_alg") :
    ci'.get? k = (match req.get? k with | some v => some (.json v) | none => ci.get? k) := by
  obtain ⟨c1, c2, c3, c4, c5, h1, h2, h3, h4, h5, h6⟩ := makeRecord_steps h
  simp only [checkedNames, List.mem_cons, List.not_mem_nil, or_false, not_or] at hk
  obtain ⟨k1, k2, k3, k4, k5, k6, k7, k8⟩ := hk
  have hi : ¬ (regIgnore.contains k = true) := by simp [regIgnore, k2, k6, k7, k8]
  rw [algsStep_frame h6 (.inr ha), urlsStep_frame h5 (.inr ⟨k6, k7, k8⟩), sectorStep_frame h4 (.inr ⟨k4, k5⟩),
    requestUrisStep_frame h3 k3, redirectStep_frame h2 k2, postLogoutStep_frame h1 k1, copyRequest_get? hn, if_neg hi]

/-- A name that the request does not have keeps the value of the record, apart from the two of the sector identifier. -/
theorem makeRecord_kept {C : RegConf} {req : Dict Json} {ci ci' : Cinfo} (h : makeRecord C req ci = .ok ci')
    (hn : req.keys.Nodup) {k : String} (hk : req.get? k = none)
    (hs : req.get? "sector_identifier_uri" = none ∨ (k ≠ "si_redirects" ∧ k ≠ "sector_id")) :
    ci'.get? k = ci.get? k := by
  obtain ⟨c1, c2, c3, c4, c5, h1, h2, h3, h4, h5, h6⟩ := makeRecord_steps h
  have e1 : c1.get? k = (copyRequest regIgnore req ci).get? k := by
    by_cases e : k = "post_logout_redirect_uri"
    · subst e
      unfold postLogoutStep at h1
      rw [hk] at h1
      cases h1; rfl
    · exact postLogoutStep_frame h1 e
  have e2 : c2.get? k = c1.get? k := by
    by_cases e : k = "redirect_uris"
    · subst e
      unfold redirectStep listMember at h2
      rw [hk] at h2
      cases h2; rfl
    · exact redirectStep_frame h2 e
  have e3 : c3.get? k = c2.get? k := by
    by_cases e : k = "request_uris"
    · subst e
      unfold requestUrisStep listMember at h3
      rw [hk] at h3
      cases h3; rfl
    · exact requestUrisStep_frame h3 e
  rw [algsStep_frame h6 (.inl hk), urlsStep_frame h5 (.inl hk), sectorStep_frame h4 hs, e3, e2, e1,
    copyRequest_get? hn, hk]
  split <;> rfl

/-- The redirect URIs of the record are those of the request, verified. -/
theorem makeRecord_redirects {C : RegConf} {req : Dict Json} {ci ci' : Cinfo} (h : makeRecord C req ci = .ok ci')
    (hn : req.keys.Nodup) :
    (req.get? "redirect_uris" = none ∧ ci'.get? "redirect_uris" = ci.get? "redirect_uris") ∨
    ∃ us rs, req.get? "redirect_uris" = some (.arr (us.map .str)) ∧ verifyRedirectUris C.lib req us = .ok rs ∧
      ci'.get? "redirect_uris" = some (.uris rs) := by
  cases hr : req.get? "redirect_uris" with
  | none => exact .inl ⟨rfl, makeRecord_kept h hn hr (.inr ⟨by decide, by decide⟩)⟩
  | some v =>
    right
    obtain ⟨c1, c2, c3, c4, c5, h1, h2, h3, h4, h5, h6⟩ := makeRecord_steps h
    have e : ci'.get? "redirect_uris" = c2.get? "redirect_uris" := by
      rw [algsStep_frame h6 (.inr ⟨by decide, by decide⟩), urlsStep_frame h5 (.inr ⟨by decide, by decide, by decide⟩),
        sectorStep_frame h4 (.inr ⟨by decide, by decide⟩), requestUrisStep_frame h3 (by decide)]
    unfold redirectStep listMember at h2
    rw [hr] at h2
    cases v with
    | arr l =>
      simp only [] at h2
      cases hl : strList l with
      | none => rw [hl] at h2; cases h2
      | some us =>
        rw [hl] at h2
        simp only [] at h2
        cases hv : verifyRedirectUris C.lib req us with
        | error e => rw [hv] at h2; cases h2
        | ok rs =>
          rw [hv] at h2
          cases h2
          refine ⟨us, rs, by rw [(strList_iff _ _).1 hl], hv, by rw [e]; simp⟩
    | _ => cases h2

/-! ### The random generator -/

theorem randomClientId_not_mem {reserved l : List String} {c : String} (h : randomClientId reserved l = some c) :
    c ∉ reserved := by
  induction l with
  | nil => cases h
  | cons x t ih =>
    rw [randomClientId] at h
    split at h
    · exact ih h
    · rename_i hx
      cases h
      simpa using hx

theorem randomClientId_isSome {reserved l : List String} : (randomClientId reserved l).isSome ↔ ∃ c ∈ l, c ∉ reserved := by
  induction l with
  | nil => simp [randomClientId]
  | cons x t ih =>
    rw [randomClientId]
    by_cases hx : x ∈ reserved
    · simp [hx, ih]
    · simp [hx]

/-! ### The state -/

theorem addKeys_ne {keys : Dict (List KeySource)} {cid k : String} {new : List KeySource} (h : k ≠ cid) :
    (addKeys keys cid new).get? k = keys.get? k := by
  unfold addKeys
  split
  · rfl
  · exact Dict.get?_set_ne _ _ (Ne.symm h)

/-- The four ways a registration can end. -/
theorem register_cases {C : RegConf} {newId ss : Bool} {d : RegDraw} {req : Dict Json} {s s' : RegState}
    {r : Except String (Dict Json)} (h : register C newId ss d req s = some (r, s')) :
    ((∃ e, r = .error e) ∧ s' = s ∧
      ((∃ e, C.lib.verify req = .error e) ∨
        (∃ req1 e, C.lib.verify req = .ok req1 ∧ matchClientRequest C.providerInfo req1 = .error e) ∨
        (∃ req1 e, C.lib.verify req = .ok req1 ∧ chooseId newId d req1 s = some (.error e)))) ∨
    ∃ req1 req2 cid, C.lib.verify req = .ok req1 ∧ matchClientRequest C.providerInfo req1 = .ok () ∧
      chooseId newId d req1 s = some (.ok (cid, req2)) ∧
      (((∃ e, r = .error e) ∧ (∀ k, k ≠ cid → s'.keys.get? k = s.keys.get? k) ∧
          s'.tokens = (storeInitial C newId ss d cid s).tokens ∧
          s'.cdb = s.cdb.set cid (initialRecord C newId ss d cid)) ∨
       ∃ args ci, r = .ok args ∧ makeRecord C req2 (initialRecord C newId ss d cid) = .ok ci ∧
          responseArgs C ci = .ok args ∧ (∀ k, k ≠ cid → s'.keys.get? k = s.keys.get? k) ∧
          s'.tokens = (storeInitial C newId ss d cid s).tokens ∧
          s'.cdb = (s.cdb.set cid (initialRecord C newId ss d cid)).set cid ci) := by
  unfold register at h
  split at h
  · rename_i e he
    simp only [Option.some.injEq, Prod.mk.injEq] at h
    exact .inl ⟨⟨e, h.1.symm⟩, h.2.symm, .inl ⟨e, he⟩⟩
  · rename_i req1 hv
    split at h
    · rename_i e he
      simp only [Option.some.injEq, Prod.mk.injEq] at h
      exact .inl ⟨⟨e, h.1.symm⟩, h.2.symm, .inr (.inl ⟨req1, e, hv, he⟩)⟩
    · rename_i u hm
      split at h
      · cases h
      · rename_i e he
        simp only [Option.some.injEq, Prod.mk.injEq] at h
        exact .inl ⟨⟨e, h.1.symm⟩, h.2.symm, .inr (.inr ⟨req1, e, hv, he⟩)⟩
      · rename_i cid req2 hc
        simp only [Option.some.injEq] at h
        refine .inr ⟨req1, req2, cid, hv, hm, hc, ?_⟩
        unfold finishRegistration at h
        have hg : ((storeInitial C newId ss d cid s).cdb.get? cid).getD [] = initialRecord C newId ss d cid := by
          simp [storeInitial]
        rw [hg] at h
        split at h
        · rename_i e he
          simp only [Prod.mk.injEq] at h
          refine .inl ⟨⟨e, h.1.symm⟩, ?_, ?_, ?_⟩ <;> rw [← h.2]
          · intro k _; rfl
          · rfl
        · rename_i ci hci
          split at h
          · rename_i e he
            simp only [Prod.mk.injEq] at h
            refine .inl ⟨⟨e, h.1.symm⟩, ?_, ?_, ?_⟩ <;> rw [← h.2]
            · intro k _; rfl
            · rfl
          · rename_i ks hks
            simp only [] at h
            split at h
            · rename_i e he
              simp only [Prod.mk.injEq] at h
              refine .inl ⟨⟨e, h.1.symm⟩, ?_, ?_, ?_⟩ <;> rw [← h.2]
              · intro k hk
                exact addKeys_ne hk
              · rfl
            · rename_i args ha
              simp only [Prod.mk.injEq] at h
              refine .inr ⟨args, ci, h.1.symm, hci, ha, ?_, ?_, ?_⟩ <;> rw [← h.2]
              · intro k hk
                simp only []
                split
                · rw [addKeys_ne hk, addKeys_ne hk]; rfl
                · rw [addKeys_ne hk]; rfl
              · rfl

/-- A new client id is one that no client has. -/
theorem chooseId_new {d : RegDraw} {req req2 : Dict Json} {s : RegState} {cid : String}
    (h : chooseId true d req s = some (.ok (cid, req2))) :
    randomClientId s.cdb.keys d.ids = some cid ∧ cid ∉ s.cdb.keys ∧ req2 = req.erase "client_id" := by
  unfold chooseId at h
  simp only [if_true, Option.map_eq_some_iff, Except.ok.injEq, Prod.mk.injEq] at h
  obtain ⟨c, h1, rfl, h2⟩ := h
  exact ⟨h1, randomClientId_not_mem h1, h2.symm⟩

theorem erase_keys_sublist (d : Dict Json) (k : String) : (d.erase k).keys.Sublist d.keys := by
  induction d with
  | nil => exact List.Sublist.refl _
  | cons x t ih =>
    obtain ⟨a, b⟩ := x
    rw [Dict.erase]
    split
    · exact List.Sublist.cons _ ih
    · exact List.Sublist.cons_cons _ ih

end OidcOp
