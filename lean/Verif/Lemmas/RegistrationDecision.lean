/-
When each step of a registration passes.
-/
import Verif.Spec.RegistrationDecision
import Verif.Props.Registration

namespace OidcOp
open Spec

theorem listMember_none {req : Dict Json} {n : String} : listMember req n = .ok none ↔ req.get? n = none := by
  unfold listMember
  cases req.get? n with
  | none => simp
  | some v =>
    cases v with
    | arr l => simp only []; cases strList l <;> simp
    | _ => simp

theorem listMember_some {req : Dict Json} {n : String} {us : List String} :
    listMember req n = .ok (some us) ↔ req.get? n = some (.arr (us.map .str)) := by
  unfold listMember
  cases req.get? n with
  | none => simp
  | some v =>
    cases v with
    | arr l =>
      simp only [Option.some.injEq, Json.arr.injEq]
      rw [← strList_iff]
      cases strList l <;> simp
    | _ => simp

theorem strMember_none {req : Dict Json} {n : String} : strMember req n = .ok none ↔ req.get? n = none := by
  unfold strMember
  cases req.get? n with
  | none => simp
  | some v => cases v <;> simp

theorem strMember_some {req : Dict Json} {n u : String} : strMember req n = .ok (some u) ↔ req.get? n = some (.str u) := by
  unfold strMember
  cases req.get? n with
  | none => simp
  | some v => cases v <;> simp

theorem listMember_error {req : Dict Json} {n e : String} (h : listMember req n = .error e) :
    ∃ v, req.get? n = some v ∧ ∀ us : List String, v ≠ .arr (us.map .str) := by
  cases hg : req.get? n with
  | none => rw [(listMember_none).2 hg] at h; cases h
  | some v =>
    refine ⟨v, rfl, ?_⟩
    rintro us rfl
    rw [(listMember_some).2 hg] at h; cases h

theorem strMember_error {req : Dict Json} {n e : String} (h : strMember req n = .error e) :
    ∃ v, req.get? n = some v ∧ ∀ u, v ≠ .str u := by
  cases hg : req.get? n with
  | none => rw [(strMember_none).2 hg] at h; cases h
  | some v =>
    refine ⟨v, rfl, ?_⟩
    rintro u rfl
    rw [(strMember_some).2 hg] at h; cases h

theorem postLogoutStep_ok (L : RegLib) (req : Dict Json) (ci : Cinfo) :
    (∃ c, postLogoutStep L req ci = .ok c) ↔
      ∀ v, req.get? "post_logout_redirect_uri" = some v → v.truthy = true → ∃ u, v = .str u ∧ L.fragment u = "" := by
  unfold postLogoutStep
  cases req.get? "post_logout_redirect_uri" with
  | none => simp
  | some v =>
    simp only [Option.some.injEq, forall_eq']
    cases v with
    | str u =>
      by_cases hu : u = ""
      · simp [hu, Json.truthy]
      · by_cases hf : L.fragment u = "" <;> simp [hu, hf, Json.truthy]
    | null => simp [Json.truthy]
    | bool b => cases b <;> simp [Json.truthy]
    | num n => by_cases hn : n = 0 <;> simp [Json.truthy, hn]
    | arr l => cases l <;> simp [Json.truthy]
    | obj l => cases l <;> simp [Json.truthy]

/-- The form that an accepted redirect URI is kept in. -/
def keptForm (L : RegLib) (req : Dict Json) (u : String) : RegUri :=
  registeredForm L.toUriLib (decide (clientType req = .str "native" ∧ L.scheme u ≠ "http" ∧ L.scheme u ≠ "https")) u

theorem clientType_native (req : Dict Json) : clientType req = .str "native" ↔ IsNative req := by
  unfold clientType IsNative
  cases req.get? "application_type" with
  | none => simp
  | some v => simp

theorem clientType_web (req : Dict Json) : clientType req = .str "web" ↔ IsWeb req := by
  unfold clientType IsWeb
  cases req.get? "application_type" with
  | none => simp
  | some v => simp

theorem mustHttps_eq (req : Dict Json) : mustHttps req = true ↔ IsWeb req ∧ CodeOnly req = false := by
  unfold mustHttps CodeOnly
  rw [Bool.and_eq_true, decide_eq_true_eq, clientType_web]
  simp

theorem verifyRedirectUri_iff (L : RegLib) (req : Dict Json) (u : String) (r : RegUri) :
    verifyRedirectUri L (clientType req) (mustHttps req) u = .ok r ↔ RedirectOk L req u ∧ r = keptForm L req u := by
  have hnw : IsNative req → ¬ IsWeb req := by
    intro h1 h2
    rw [← clientType_native] at h1
    rw [← clientType_web, h1] at h2
    exact absurd h2 (by decide)
  unfold verifyRedirectUri keptForm RedirectOk
  by_cases hn : IsNative req
  · have hc := (clientType_native req).2 hn
    simp only [hc, if_true, hn, hnw hn, true_and, false_imp_iff, true_imp_iff, not_true_eq_false, imp_self,
      and_true, not_false_eq_true]
    unfold NativeUri
    by_cases h1 : L.scheme u ≠ "http" ∧ L.scheme u ≠ "https"
    · simp [h1, eq_comm]
    · by_cases h2 : L.scheme u = "http"
      · by_cases h3 : L.hostname u = some "localhost" ∨ L.hostname u = some "127.0.0.1"
        · simp only [h2, h3, and_self, if_true, ne_eq, not_true_eq_false, false_and, if_false, false_or, decide_false, true_and,
            Except.ok.injEq]
          exact eq_comm
        · simp [h2, h3]
      · have h4 : L.scheme u = "https" := by
          simpa [h2] using h1
        simp [h4]
  · have hc : clientType req ≠ .str "native" := fun h => hn ((clientType_native req).1 h)
    simp only [hc, if_false, hn, false_and, decide_false, not_false_eq_true, true_imp_iff, false_imp_iff, true_and]
    by_cases hw : IsWeb req
    · simp only [hw, true_imp_iff, not_true_eq_false, false_imp_iff, and_true]
      unfold WebUri
      cases hco : CodeOnly req with
      | false =>
        have := (mustHttps_eq req).2 ⟨hw, hco⟩
        simp only [this, Bool.true_and, bne_iff_ne, ne_eq, Bool.false_eq_true, false_and, or_false]
        by_cases h1 : L.scheme u = "https"
        · by_cases h2 : L.fragment u = "" <;> simp [h1, h2, eq_comm]
        · simp [h1]
      | true =>
        have : mustHttps req = false := by
          cases h : mustHttps req with
          | false => rfl
          | true => have := ((mustHttps_eq req).1 h).2; rw [hco] at this; cases this
        simp only [this, Bool.false_and, Bool.false_eq_true, if_false, true_and]
        by_cases h1 : L.scheme u = "https"
        · by_cases h2 : L.fragment u = "" <;> simp [h1, h2, eq_comm]
        · by_cases h3 : L.scheme u = "http"
          · by_cases h2 : L.fragment u = "" <;> simp [h3, h2, eq_comm]
          · simp [h1, h3]
    · have : mustHttps req = false := by
        cases h : mustHttps req with
        | false => rfl
        | true => exact absurd ((mustHttps_eq req).1 h).1 hw
      simp only [this, Bool.false_and, Bool.false_eq_true, if_false, hw, false_imp_iff, not_false_eq_true, true_imp_iff, true_and]
      by_cases h1 : L.scheme u = "https"
      · by_cases h2 : L.fragment u = "" <;> simp [h1, h2, eq_comm]
      · by_cases h3 : L.scheme u = "http"
        · by_cases h2 : L.fragment u = "" <;> simp [h3, h2, eq_comm]
        · simp [h1, h3]

theorem verifyRedirectUris_iff (L : RegLib) (req : Dict Json) (us : List String) (rs : List RegUri) :
    verifyRedirectUris L req us = .ok rs ↔ (∀ u ∈ us, RedirectOk L req u) ∧ rs = us.map (keptForm L req) :=
  verifyRedirectLoop_iff (verifyRedirectUri_iff L req) us rs

theorem redirectStep_ok (L : RegLib) (req : Dict Json) (ci : Cinfo) :
    (∃ c, redirectStep L req ci = .ok c) ↔
      ∀ v, req.get? "redirect_uris" = some v →
        ∃ us : List String, v = .arr (us.map .str) ∧ ∀ u ∈ us, RedirectOk L req u := by
  unfold redirectStep
  cases h : listMember req "redirect_uris" with
  | error e =>
    obtain ⟨v, h1, h2⟩ := listMember_error h
    simp only [reduceCtorEq, exists_false, false_iff]
    intro hx
    obtain ⟨us, h3, -⟩ := hx v h1
    exact h2 us h3
  | ok o =>
    cases o with
    | none =>
      have := listMember_none.1 h
      simp [this]
    | some us =>
      have hg := listMember_some.1 h
      simp only [hg, Option.some.injEq, forall_eq', Json.arr.injEq]
      constructor
      · rintro ⟨c, hc⟩
        cases hv : verifyRedirectUris L req us with
        | error e => rw [hv] at hc; cases hc
        | ok rs => exact ⟨us, rfl, ((verifyRedirectUris_iff L req us rs).1 hv).1⟩
      · rintro ⟨us', h1, h2⟩
        have : us = us' := by
          have h3 : strList (us.map Json.str) = some us' := (strList_iff _ _).2 h1
          rw [(strList_iff _ us).2 rfl] at h3
          exact Option.some.inj h3
        subst this
        rw [(verifyRedirectUris_iff L req us _).2 ⟨h2, rfl⟩]
        exact ⟨_, rfl⟩

theorem redirectStep_get? {L : RegLib} {req : Dict Json} {ci c : Cinfo} (h : redirectStep L req ci = .ok c) :
    (req.get? "redirect_uris" = none ∧ c = ci) ∨
    ∃ us : List String, req.get? "redirect_uris" = some (.arr (us.map .str)) ∧
      c = ci.set "redirect_uris" (.uris (us.map (keptForm L req))) := by
  unfold redirectStep at h
  cases hl : listMember req "redirect_uris" with
  | error e => rw [hl] at h; cases h
  | ok o =>
    rw [hl] at h
    cases o with
    | none => cases h; exact .inl ⟨listMember_none.1 hl, rfl⟩
    | some us =>
      simp only [] at h
      cases hv : verifyRedirectUris L req us with
      | error e => rw [hv] at h; cases h
      | ok rs =>
        rw [hv] at h
        cases h
        rw [((verifyRedirectUris_iff L req us rs).1 hv).2]
        exact .inr ⟨us, listMember_some.1 hl, rfl⟩

/-- What is kept of the place of a request object. -/
def requestParts (L : RegLib) (u : String) : List String :=
  if L.fragment u ≠ "" then (pySplit ['#'] u.toList).map String.ofList else [u, ""]

theorem requestUriParts_iff (L : RegLib) (us : List String) (ps : List (List String)) :
    requestUriParts L us = .ok ps ↔ (∀ u ∈ us, L.query u = "") ∧ ps = us.map (requestParts L) := by
  induction us generalizing ps with
  | nil =>
    unfold requestUriParts
    simp only [List.not_mem_nil, false_imp_iff, implies_true, List.map_nil, true_and, Except.ok.injEq]
    exact eq_comm
  | cons u t ih =>
    unfold requestUriParts
    by_cases hq : L.query u = ""
    · simp only [hq, ne_eq, not_true_eq_false, if_false, List.forall_mem_cons, true_and, List.map_cons]
      cases hr : requestUriParts L t with
      | error e =>
        simp only [reduceCtorEq, false_iff, not_and]
        intro h1
        have := (ih _).2 ⟨h1, rfl⟩
        rw [hr] at this; cases this
      | ok l =>
        obtain ⟨h1, h2⟩ := (ih l).1 hr
        simp only [Except.ok.injEq]
        constructor
        · rintro rfl; exact ⟨h1, by rw [h2]; rfl⟩
        · rintro ⟨-, rfl⟩; rw [h2]; rfl
    · simp [hq]

theorem requestUrisStep_iff (L : RegLib) (req : Dict Json) (ci c : Cinfo) :
    requestUrisStep L req ci = .ok c ↔
      (req.get? "request_uris" = none ∧ c = ci) ∨
      ∃ us : List String, req.get? "request_uris" = some (.arr (us.map .str)) ∧ (∀ u ∈ us, L.query u = "") ∧
        c = ci.set "request_uris" (.parts (us.map (requestParts L))) := by
  unfold requestUrisStep
  cases hl : listMember req "request_uris" with
  | error e =>
    obtain ⟨v, h1, h2⟩ := listMember_error hl
    simp only [reduceCtorEq, h1, false_and, false_or, Option.some.injEq, false_iff, not_exists, not_and]
    intro us h3; exact absurd h3 (h2 us)
  | ok o =>
    cases o with
    | none =>
      simp only [listMember_none.1 hl, Except.ok.injEq, true_and, reduceCtorEq, false_and, exists_false, or_false]
      exact eq_comm
    | some us =>
      have hg := listMember_some.1 hl
      simp only [hg, reduceCtorEq, false_and, false_or, Option.some.injEq, Json.arr.injEq]
      constructor
      · intro h
        cases hr : requestUriParts L us with
        | error e => rw [hr] at h; cases h
        | ok ps =>
          rw [hr] at h
          cases h
          obtain ⟨h1, h2⟩ := (requestUriParts_iff L us ps).1 hr
          exact ⟨us, rfl, h1, by rw [h2]⟩
      · rintro ⟨us', h1, h2, rfl⟩
        have : us = us' := by
          have h3 : strList (us.map Json.str) = some us' := (strList_iff _ _).2 h1
          rw [(strList_iff _ us).2 rfl] at h3
          exact Option.some.inj h3
        subst this
        rw [(requestUriParts_iff L us _).2 ⟨h2, rfl⟩]

theorem sectorCovers_ok (doc : Json) (us : List String) :
    sectorCovers doc us = .ok () ↔ ∀ x ∈ us, pyIn (.str x) doc = .ok true := by
  induction us with
  | nil => simp [sectorCovers]
  | cons u t ih =>
    unfold sectorCovers
    cases h : pyIn (.str u) doc with
    | error e => simp [h]
    | ok b => cases b <;> simp [h, ih]

theorem sectorStep_iff (L : RegLib) (req : Dict Json) (ci c : Cinfo)
    (hr : ∀ v, req.get? "redirect_uris" = some v → ∃ us : List String, v = .arr (us.map .str)) :
    sectorStep L req ci = .ok c ↔
      (req.get? "sector_identifier_uri" = none ∧ c = ci) ∨
      ∃ u doc, req.get? "sector_identifier_uri" = some (.str u) ∧ L.fetch u = some doc ∧
        (∀ us : List String, req.get? "redirect_uris" = some (.arr (us.map .str)) → ∀ x ∈ us, pyIn (.str x) doc = .ok true) ∧
        c = (ci.set "si_redirects" (.json doc)).set "sector_id" (.json (.str u)) := by
  unfold sectorStep
  cases hs : strMember req "sector_identifier_uri" with
  | error e =>
    obtain ⟨v, h1, h2⟩ := strMember_error hs
    simp only [reduceCtorEq, h1, false_and, false_or, Option.some.injEq, false_iff, not_exists, not_and]
    intro u _ h3; exact absurd h3 (h2 u)
  | ok o =>
    cases o with
    | none => simp [strMember_none.1 hs, eq_comm]
    | some u =>
      have hg := strMember_some.1 hs
      simp only [hg, reduceCtorEq, false_and, false_or, Option.some.injEq, Json.str.injEq]
      cases hf : L.fetch u with
      | none =>
        simp only [reduceCtorEq, false_iff, not_exists, not_and]
        rintro u' doc rfl h; rw [hf] at h; cases h
      | some doc =>
        simp only []
        have key : ∀ us : Option (List String), listMember req "redirect_uris" = .ok us →
            (sectorCovers doc (us.getD []) = .ok () ↔
              ∀ us : List String, req.get? "redirect_uris" = some (.arr (us.map .str)) → ∀ x ∈ us, pyIn (.str x) doc = .ok true) := by
          intro us hus
          rw [sectorCovers_ok]
          cases us with
          | none => simp [listMember_none.1 hus]
          | some us =>
            have := listMember_some.1 hus
            constructor
            · intro h us' h'
              have h3 := listMember_some.2 h'
              rw [hus] at h3
              cases h3
              exact h
            · intro h; exact h us this
        cases hl : listMember req "redirect_uris" with
        | error e =>
          obtain ⟨v, h1, h2⟩ := listMember_error hl
          obtain ⟨us, h3⟩ := hr v h1
          exact absurd h3 (h2 us)
        | ok us =>
          simp only []
          have hk := key us hl
          cases hc : sectorCovers doc (us.getD []) with
          | error e =>
            rw [hc] at hk
            simp only [reduceCtorEq, false_iff, not_exists, not_and]
            rintro u' doc' rfl h1 h2
            rw [hf] at h1
            cases h1
            exact absurd (hk.2 h2) (by simp)
          | ok _ =>
            rw [hc] at hk
            simp only [Except.ok.injEq]
            constructor
            · rintro rfl; exact ⟨u, doc, rfl, hf, hk.1 rfl, rfl⟩
            · rintro ⟨u', doc', rfl, h1, -, rfl⟩
              rw [hf] at h1; cases h1; rfl

theorem verifyUrl_iff (L : RegLib) (url : String) (rs : List RegUri) :
    verifyUrl L url rs = true ↔ ∃ r ∈ rs, SameSite L url r.parts.1 := by
  unfold verifyUrl SameSite
  simp

theorem urlStep_iff (L : RegLib) (req : Dict Json) (ci c : Cinfo) (item : String) :
    urlStep L req ci item = .ok c ↔
      (req.get? item = none ∧ c = ci) ∨
      ∃ u rs, req.get? item = some (.str u) ∧ ci.get? "redirect_uris" = some (.uris rs) ∧
        (∃ r ∈ rs, SameSite L u r.parts.1) ∧ c = ci.set item (.json (.str u)) := by
  unfold urlStep
  cases hs : strMember req item with
  | error e =>
    obtain ⟨v, h1, h2⟩ := strMember_error hs
    simp only [reduceCtorEq, h1, false_and, false_or, Option.some.injEq, false_iff, not_exists, not_and]
    intro u _ h3; exact absurd h3 (h2 u)
  | ok o =>
    cases o with
    | none => simp [strMember_none.1 hs, eq_comm]
    | some u =>
      have hg := strMember_some.1 hs
      simp only [hg, reduceCtorEq, false_and, false_or, Option.some.injEq, Json.str.injEq]
      cases hr : ci.get? "redirect_uris" with
      | none => simp
      | some x =>
        cases x with
        | uris rs =>
          simp only [Option.some.injEq, RVal.uris.injEq]
          by_cases hv : verifyUrl L u rs = true
          · rw [if_pos hv]
            simp only [Except.ok.injEq]
            constructor
            · rintro rfl; exact ⟨u, rs, rfl, rfl, (verifyUrl_iff L u rs).1 hv, rfl⟩
            · rintro ⟨_, _, rfl, rfl, -, rfl⟩; rfl
          · rw [if_neg hv]
            simp only [reduceCtorEq, false_iff, not_exists, not_and]
            rintro u' rs' rfl rfl h
            exact absurd ((verifyUrl_iff L u rs).2 h) hv
        | _ => simp

/-- The links that a record with these redirect URIs may have. -/
def LinkOk (L : RegLib) (req : Dict Json) (ci : Cinfo) (k : String) : Prop :=
  ∀ v, req.get? k = some v →
    ∃ u rs, v = .str u ∧ ci.get? "redirect_uris" = some (.uris rs) ∧ ∃ r ∈ rs, SameSite L u r.parts.1

theorem urlStep_ok (L : RegLib) (req : Dict Json) (ci : Cinfo) (k : String) :
    (∃ c, urlStep L req ci k = .ok c) ↔ LinkOk L req ci k := by
  constructor
  · rintro ⟨c, hc⟩ v hv
    rcases (urlStep_iff L req ci c k).1 hc with ⟨h, -⟩ | ⟨u, rs, h1, h2, h3, -⟩
    · rw [hv] at h; cases h
    · rw [hv] at h1
      cases h1
      exact ⟨u, rs, rfl, h2, h3⟩
  · intro h
    cases hk : req.get? k with
    | none => exact ⟨ci, (urlStep_iff L req ci ci k).2 (.inl ⟨hk, rfl⟩)⟩
    | some v =>
      obtain ⟨u, rs, rfl, h2, h3⟩ := h v hk
      exact ⟨_, (urlStep_iff L req ci _ k).2 (.inr ⟨u, rs, hk, h2, h3, rfl⟩)⟩

theorem linkOk_congr {L : RegLib} {req : Dict Json} {ci ci' : Cinfo} (h : ci'.get? "redirect_uris" = ci.get? "redirect_uris")
    (k : String) : LinkOk L req ci' k ↔ LinkOk L req ci k := by
  unfold LinkOk; rw [h]

theorem urlsStep_ok (L : RegLib) (req : Dict Json) (ci : Cinfo) :
    (∃ c, urlsStep L req ci = .ok c) ↔ ∀ k ∈ linkNames, LinkOk L req ci k := by
  unfold urlsStep linkNames
  simp only [List.forall_mem_cons, List.not_mem_nil, false_imp_iff, implies_true, and_true]
  cases h1 : urlStep L req ci "policy_uri" with
  | error e =>
    simp only [reduceCtorEq, exists_false, false_iff, not_and]
    intro h
    obtain ⟨c, hc⟩ := (urlStep_ok L req ci _).2 h
    rw [h1] at hc; cases hc
  | ok c1 =>
    have hp := (urlStep_ok L req ci _).1 ⟨c1, h1⟩
    have r1 := urlStep_frame h1 (k := "redirect_uris") (.inr (by decide))
    simp only []
    cases h2 : urlStep L req c1 "logo_uri" with
    | error e =>
      simp only [reduceCtorEq, exists_false, false_iff, not_and]
      intro _ h
      obtain ⟨c, hc⟩ := (urlStep_ok L req c1 _).2 ((linkOk_congr r1 _).2 h)
      rw [h2] at hc; cases hc
    | ok c2 =>
      have hl := (linkOk_congr r1 _).1 ((urlStep_ok L req c1 _).1 ⟨c2, h2⟩)
      have r2 := urlStep_frame h2 (k := "redirect_uris") (.inr (by decide))
      simp only [hp, hl, true_and]
      rw [urlStep_ok]
      exact linkOk_congr (r2.trans r1) _

/-- The links in the record. -/
theorem urlsStep_get? {L : RegLib} {req : Dict Json} {ci c : Cinfo} (h : urlsStep L req ci = .ok c) {k : String}
    (hk : k ∈ linkNames) : c.get? k = match req.get? k with | some v => some (.json v) | none => ci.get? k := by
  have one : ∀ {ci c : Cinfo} {k : String}, urlStep L req ci k = .ok c →
      c.get? k = match req.get? k with | some v => some (.json v) | none => ci.get? k := by
    intro ci c k h
    rcases (urlStep_iff L req ci c k).1 h with ⟨h', rfl⟩ | ⟨u, rs, h1, -, -, rfl⟩
    · rw [h']
    · rw [h1, Dict.get?_set_self]
  unfold urlsStep at h
  cases h1 : urlStep L req ci "policy_uri" with
  | error e => rw [h1] at h; cases h
  | ok c1 =>
    rw [h1] at h
    simp only [] at h
    cases h2 : urlStep L req c1 "logo_uri" with
    | error e => rw [h2] at h; cases h
    | ok c2 =>
      rw [h2] at h
      simp only [] at h
      simp only [linkNames, List.mem_cons, List.not_mem_nil, or_false] at hk
      rcases hk with rfl | rfl | rfl
      · rw [urlStep_frame h (.inr (by decide)), urlStep_frame h2 (.inr (by decide))]; exact one h1
      · rw [urlStep_frame h (.inr (by decide)), one h2]
        cases req.get? "logo_uri" with
        | some v => rfl
        | none => exact urlStep_frame h1 (.inr (by decide))
      · rw [one h]
        cases req.get? "tos_uri" with
        | some v => rfl
        | none => exact (urlStep_frame h2 (.inr (by decide))).trans (urlStep_frame h1 (.inr (by decide)))

theorem algStep_ok (C : RegConf) (req : Dict Json) (ci : Cinfo) (item prov : String)
    (h : ∀ v, req.get? item = some v → ∃ sup, C.providerInfo.get? prov = some sup) : ∃ c, algStep C req ci item prov = .ok c := by
  unfold algStep
  cases hv : req.get? item with
  | none => exact ⟨_, rfl⟩
  | some v =>
    obtain ⟨sup, hs⟩ := h v hv
    rw [hs]
    cases v with
    | str a =>
      simp only []
      split
      · exact ⟨_, rfl⟩
      · exact ⟨_, rfl⟩
    | _ => exact ⟨_, rfl⟩

theorem algsStep_ok {C : RegConf} {req : Dict Json} (h : WithinCapabilities C.providerInfo req) (ci : Cinfo) :
    ∃ c, algsStep C req ci = .ok c := by
  have h1 : ∀ item prov, (item, prov) ∈ preferences → ∀ v, req.get? item = some v → ∃ sup, C.providerInfo.get? prov = some sup := by
    intro item prov hm v hv
    obtain ⟨sup, hs, -⟩ := h item prov v hm hv
    exact ⟨sup, hs⟩
  unfold algsStep
  obtain ⟨c, hc⟩ := algStep_ok C req ci "id_token_signed_response_alg" "id_token_signing_alg_values_supported"
    (h1 _ _ (by decide))
  rw [hc]
  exact algStep_ok C req c "userinfo_signed_response_alg" "userinfo_signing_alg_values_supported" (h1 _ _ (by decide))

theorem loadKeys_iff (L : RegLib) (req : Dict Json) (ks : List KeySource) :
    loadKeys L req = .ok ks ↔
      ((∀ v, req.get? "jwks_uri" = some v → ∃ u, v = .str u) ∧
        (req.get? "jwks_uri" = none → ∀ j, req.get? "jwks" = some j → L.jwksOk j = true)) ∧ ks = broughtKeys req := by
  unfold loadKeys broughtKeys
  cases hs : strMember req "jwks_uri" with
  | error e =>
    obtain ⟨v, h1, h2⟩ := strMember_error hs
    simp only [reduceCtorEq, false_iff, not_and]
    rintro ⟨h3, -⟩
    obtain ⟨u, h4⟩ := h3 v h1
    exact absurd h4 (h2 u)
  | ok o =>
    cases o with
    | some u =>
      have hg := strMember_some.1 hs
      simp only [hg, Option.some.injEq, forall_eq', Json.str.injEq, exists_eq', reduceCtorEq, false_imp_iff, and_self, true_and]
      by_cases hu : u = ""
      · simp only [hu, if_true, Except.ok.injEq]; exact eq_comm
      · simp only [hu, if_false, Except.ok.injEq]; exact eq_comm
    | none =>
      have hg := strMember_none.1 hs
      simp only [hg, reduceCtorEq, false_imp_iff, implies_true, true_imp_iff, true_and]
      cases hj : req.get? "jwks" with
      | none =>
        simp only [Except.ok.injEq, reduceCtorEq, false_imp_iff, implies_true, true_and]; exact eq_comm
      | some j =>
        simp only [Option.some.injEq, forall_eq']
        by_cases hk : L.jwksOk j = true
        · simp only [hk, if_true, Except.ok.injEq, true_and]; exact eq_comm
        · simp [hk]

theorem pySplit_two (s : Str) :
    (pySplit ['#'] s).length = 2 ↔ ∃ b f : List Char, s = b ++ '#' :: f ∧ '#' ∉ b ∧ '#' ∉ f := by
  constructor
  · intro h
    have h1 := pyJoin_pySplit1 '#' s
    have h2 := pySplit1_free '#' s
    match hl : pySplit ['#'] s, h with
    | [b, f], _ =>
      rw [hl] at h1 h2
      refine ⟨b, f, ?_, h2 b (by simp), h2 f (by simp)⟩
      rw [← h1]
      simp [pyJoin]
  · rintro ⟨b, f, rfl, hb, hf⟩
    have := pySplit1_join '#' [b, f] (by simp) (by simp [hb, hf])
    simp only [pyJoin, List.append_assoc, List.cons_append, List.nil_append] at this
    rw [this]; rfl

theorem requestParts_two (L : RegLib) (u : String) : (requestParts L u).length = 2 ↔ OneFragment L u := by
  unfold requestParts OneFragment
  by_cases h : L.fragment u = ""
  · simp [h]
  · rw [if_pos h, List.length_map, pySplit_two]
    simp [h]

theorem combParts_ok (ps : List (List String)) : (∃ l, combParts ps = .ok l) ↔ ∀ p ∈ ps, p.length = 2 := by
  induction ps with
  | nil => simp [combParts]
  | cons p t ih =>
    match p with
    | [b, f] =>
      simp only [combParts, List.forall_mem_cons, List.length_cons, List.length_nil, true_and]
      rw [← ih]
      cases combParts t <;> simp
    | [] => simp [combParts]
    | [_] => simp [combParts]
    | _ :: _ :: _ :: _ => simp [combParts]

/-- The only entry with parts that a record may have, when there are these. -/
def PartsAre (o : Option (List (List String))) (ci : Cinfo) : Prop := ∀ k l, (k, RVal.parts l) ∈ ci → k = "request_uris" ∧ o = some l

theorem mem_dict_set {α : Type} {d : Dict α} {k : String} {v : α} {p : String × α} (h : p ∈ d.set k v) : p = (k, v) ∨ p ∈ d := by
  induction d with
  | nil => exact .inl (by simpa [Dict.set] using h)
  | cons x t ih =>
    obtain ⟨a, b⟩ := x
    unfold Dict.set at h
    split at h
    · rcases List.mem_cons.1 h with h | h
      · rename_i hk; exact .inl (by rw [h])
      · exact .inr (List.mem_cons_of_mem _ h)
    · rcases List.mem_cons.1 h with h | h
      · exact .inr (by rw [h]; exact List.mem_cons_self)
      · exact (ih h).imp id (List.mem_cons_of_mem _)

theorem PartsAre.set {o : Option (List (List String))} {ci : Cinfo} (h : PartsAre o ci) (k : String) (v : RVal)
    (hv : ∀ l, v ≠ .parts l) : PartsAre o (ci.set k v) := by
  intro k' l hm
  rcases mem_dict_set hm with he | hm
  · simp only [Prod.mk.injEq] at he; exact absurd he.2.symm (hv l)
  · exact h k' l hm

theorem mem_dict_erase {α : Type} {d : Dict α} {k : String} {p : String × α} (h : p ∈ d.erase k) : p ∈ d := by
  induction d with
  | nil => exact h
  | cons x t ih =>
    obtain ⟨a, b⟩ := x
    unfold Dict.erase at h
    split at h
    · first
      | exact List.mem_cons_of_mem _ (ih h)
      | exact List.mem_cons_of_mem _ h
    · rcases List.mem_cons.1 h with h | h
      · rw [h]; exact List.mem_cons_self
      · exact List.mem_cons_of_mem _ (ih h)

theorem PartsAre.erase {o : Option (List (List String))} {ci : Cinfo} (h : PartsAre o ci) (k : String) : PartsAre o (ci.erase k) :=
  fun k' l hm => h k' l (mem_dict_erase hm)

theorem PartsAre.update {o : Option (List (List String))} {ci : Cinfo} (h : PartsAre o ci) (d : Dict RVal)
    (hd : ∀ k l, (k, RVal.parts l) ∉ d) : PartsAre o (ci.update d) := by
  unfold Dict.update
  induction d generalizing ci with
  | nil => exact h
  | cons x t ih =>
    obtain ⟨a, b⟩ := x
    simp only [List.foldl_cons]
    refine ih (h.set a b ?_) (fun k l hm => hd k l (List.mem_cons_of_mem _ hm))
    rintro l rfl
    exact hd a l List.mem_cons_self

theorem initialRecord_parts (C : RegConf) (n ss : Bool) (d : RegDraw) (cid : String) :
    PartsAre none (initialRecord C n ss d cid) := by
  intro k l hm
  exfalso
  unfold initialRecord at hm
  simp only [List.mem_append] at hm
  rcases hm with ((hm | hm) | hm) | hm
  · simp at hm
  · cases hr : C.readPath <;> simp [hr] at hm
  · cases n <;> simp at hm
  · cases ss
    · simp at hm
    · simp only [if_true, List.mem_cons, Prod.mk.injEq, reduceCtorEq, and_false, false_or] at hm
      split at hm <;> simp at hm

theorem postLogoutStep_parts {L : RegLib} {req : Dict Json} {ci c : Cinfo} (h : postLogoutStep L req ci = .ok c)
    {o : Option (List (List String))} (hp : PartsAre o ci) : PartsAre o c := by
  unfold postLogoutStep at h
  split at h
  · cases h; exact hp
  · split at h
    · cases h; exact hp
    · split at h
      · cases h
      · cases h; exact hp.set _ _ (by intro l; simp)
  · split at h
    · cases h
    · cases h; exact hp

theorem algsStep_parts {C : RegConf} {req : Dict Json} {ci c : Cinfo} (h : algsStep C req ci = .ok c)
    {o : Option (List (List String))} (hp : PartsAre o ci) : PartsAre o c := by
  have one : ∀ {ci c : Cinfo} {item prov : String}, algStep C req ci item prov = .ok c → PartsAre o ci → PartsAre o c := by
    intro ci c item prov h hp
    unfold algStep at h
    split at h
    · cases h; exact hp
    · split at h
      · cases h
      · split at h
        · split at h
          · cases h; exact hp.erase _
          · cases h; exact hp
        · cases h; exact hp
  unfold algsStep at h
  split at h
  · cases h
  · rename_i c1 h1
    exact one h (one h1 hp)

theorem urlsStep_parts {L : RegLib} {req : Dict Json} {ci c : Cinfo} (h : urlsStep L req ci = .ok c)
    {o : Option (List (List String))} (hp : PartsAre o ci) : PartsAre o c := by
  have one : ∀ {ci c : Cinfo} {k : String}, urlStep L req ci k = .ok c → PartsAre o ci → PartsAre o c := by
    intro ci c k h hp
    rcases (urlStep_iff L req ci c k).1 h with ⟨-, rfl⟩ | ⟨u, rs, -, -, -, rfl⟩
    · exact hp
    · exact hp.set _ _ (by intro l; simp)
  unfold urlsStep at h
  split at h
  · cases h
  · rename_i c1 h1
    split at h
    · cases h
    · rename_i c2 h2
      exact one h (one h2 (one h1 hp))

/-- The places of request objects in the request, in parts. -/
def partsOf (L : RegLib) (req : Dict Json) : Option (List (List String)) :=
  match listMember req "request_uris" with
  | .ok (some us) => some (us.map (requestParts L))
  | _ => none

theorem requestUrisStep_parts {L : RegLib} {req : Dict Json} {ci c : Cinfo} (h : requestUrisStep L req ci = .ok c)
    (hp : PartsAre none ci) : PartsAre (partsOf L req) c := by
  rcases (requestUrisStep_iff L req ci c).1 h with ⟨-, rfl⟩ | ⟨us, h1, -, rfl⟩
  · intro k l hm; exact absurd (hp k l hm).2 (by simp)
  · intro k l hm
    rcases mem_dict_set hm with he | hm
    · simp only [Prod.mk.injEq, RVal.parts.injEq] at he
      refine ⟨he.1, ?_⟩
      unfold partsOf
      rw [listMember_some.2 h1, he.2]
    · exact absurd (hp k l hm).2 (by simp)

theorem redirectStep_parts {L : RegLib} {req : Dict Json} {ci c : Cinfo} (h : redirectStep L req ci = .ok c)
    {o : Option (List (List String))} (hp : PartsAre o ci) : PartsAre o c := by
  rcases redirectStep_get? h with ⟨-, rfl⟩ | ⟨us, -, rfl⟩
  · exact hp
  · exact hp.set _ _ (by intro l; simp)

theorem sectorStep_parts {L : RegLib} {req : Dict Json} {ci c : Cinfo} (h : sectorStep L req ci = .ok c)
    {o : Option (List (List String))} (hp : PartsAre o ci) : PartsAre o c := by
  unfold sectorStep at h
  split at h
  · cases h
  · cases h; exact hp
  · split at h
    · cases h
    · split at h
      · cases h
      · split at h
        · cases h
        · cases h
          exact (hp.set _ _ (by intro l; simp)).set _ _ (by intro l; simp)

theorem copyRequest_parts {ignore : List String} {req : Dict Json} {ci : Cinfo} (hp : PartsAre none ci) :
    PartsAre none (copyRequest ignore req ci) := by
  unfold copyRequest
  refine hp.update _ ?_
  intro k l hm
  simp only [List.mem_map, Prod.mk.injEq, reduceCtorEq, and_false, exists_false] at hm

theorem makeRecord_parts {C : RegConf} {req : Dict Json} {ci c : Cinfo} (h : makeRecord C req ci = .ok c)
    (hp : PartsAre none ci) : PartsAre (partsOf C.lib req) c := by
  obtain ⟨c1, c2, c3, c4, c5, h1, h2, h3, h4, h5, h6⟩ := makeRecord_steps h
  exact algsStep_parts h6 (urlsStep_parts h5 (sectorStep_parts h4 (requestUrisStep_parts h3
    (redirectStep_parts h2 (postLogoutStep_parts h1 (copyRequest_parts hp))))))

theorem makeRecord_request_uris {C : RegConf} {req : Dict Json} {ci c : Cinfo} (h : makeRecord C req ci = .ok c) {us : List String}
    (hu : req.get? "request_uris" = some (.arr (us.map .str))) :
    c.get? "request_uris" = some (.parts (us.map (requestParts C.lib))) := by
  obtain ⟨c1, c2, c3, c4, c5, h1, h2, h3, h4, h5, h6⟩ := makeRecord_steps h
  rw [algsStep_frame h6 (.inr (by decide)), urlsStep_frame h5 (.inr (by decide)),
    sectorStep_frame h4 (.inr (by decide))]
  rcases (requestUrisStep_iff _ _ _ _).1 h3 with ⟨h, -⟩ | ⟨us', h, -, rfl⟩
  · rw [hu] at h; cases h
  · rw [Dict.get?_set_self]
    have h7 := listMember_some.2 hu
    rw [listMember_some.2 h] at h7
    cases h7; rfl

theorem combAll_ok {L : UriLib} (ci : Cinfo) :
    (∃ d, combAll L ci = .ok d) ↔ ∀ k l, (k, RVal.parts l) ∈ ci → ∀ p ∈ l, p.length = 2 := by
  induction ci with
  | nil => simp [combAll]
  | cons x t ih =>
    obtain ⟨a, v⟩ := x
    unfold combAll
    have hv : (∃ j, combVal L v = .ok j) ↔ ∀ l, v = .parts l → ∀ p ∈ l, p.length = 2 := by
      unfold combVal
      cases v with
      | parts l =>
        simp only [RVal.parts.injEq, forall_eq']
        rw [← combParts_ok]
        cases combParts l <;> simp
      | _ => simp
    cases hc : combVal L v with
    | error e =>
      rw [hc] at hv
      simp only [reduceCtorEq, exists_false, false_iff] at hv ⊢
      intro h
      exact hv (fun l hl => h a l (by rw [hl]; exact List.mem_cons_self))
    | ok j =>
      simp only []
      have hv' := hv.1 ⟨j, hc⟩
      constructor
      · rintro ⟨d, hd⟩
        have ht : ∃ d, combAll L t = .ok d := by
          cases ht : combAll L t with
          | error e => rw [ht] at hd; cases hd
          | ok d => exact ⟨d, rfl⟩
        intro k l hm
        rcases List.mem_cons.1 hm with he | hm
        · simp only [Prod.mk.injEq] at he; exact hv' l he.2.symm
        · exact ih.1 ht k l hm
      · intro h
        obtain ⟨d, hd⟩ := ih.2 (fun k l hm => h k l (List.mem_cons_of_mem _ hm))
        rw [hd]; exact ⟨_, rfl⟩

/-- When the answer can be made. -/
theorem responseArgs_ok {C : RegConf} {req : Dict Json} {ci c : Cinfo} (h : makeRecord C req ci = .ok c)
    (hp : PartsAre none ci) :
    (∃ args, responseArgs C c = .ok args) ↔
      ("request_uris" ∈ C.respParams → ∀ us : List String, req.get? "request_uris" = some (.arr (us.map .str)) →
        ∀ u ∈ us, OneFragment C.lib u) := by
  unfold responseArgs
  rw [combAll_ok]
  constructor
  · intro hx hr us hu u hm
    have hg := makeRecord_request_uris h hu
    have hmem := Dict.get?_mem hg
    have := hx "request_uris" _ (List.mem_filter.2 ⟨hmem, by simpa using hr⟩) (requestParts C.lib u)
      (List.mem_map.2 ⟨u, hm, rfl⟩)
    exact (requestParts_two C.lib u).1 this
  · intro hx k l hm p hpl
    obtain ⟨h1, h2⟩ := List.mem_filter.1 hm
    obtain ⟨rfl, h3⟩ := makeRecord_parts h hp k l h1
    unfold partsOf at h3
    split at h3
    · rename_i us hus
      cases h3
      obtain ⟨u, hu, rfl⟩ := List.mem_map.1 hpl
      exact (requestParts_two C.lib u).2 (hx (by simpa using h2) us (listMember_some.1 hus) u hu)
    · cases h3

end OidcOp
