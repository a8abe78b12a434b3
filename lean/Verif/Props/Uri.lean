/-
C30-C32, C67: redirect URIs and response types.
-/
import Verif.Spec.Uri
import Verif.Lemmas.Split

namespace OidcOp
open Spec

theorem parts_spec (r : RegUri) : r.parts = (RegBase r, RegParams r) := by cases r <;> rfl

theorem valuesIn_iff (q : Dict (List String)) (k : String) (vals : List String) :
    valuesIn q k vals = true ↔ ∃ vs, q.get? k = some vs ∧ ∀ v ∈ vals, v ∈ vs := by
  unfold valuesIn
  cases q.get? k with
  | none => simp
  | some vs => simp

theorem isEmpty_get? {d : Dict (List String)} : d.isEmpty = true → ∀ k, d.get? k = none := by
  intro h k
  cases d with
  | nil => rfl
  | cons a r => cases h

theorem queryCheck_ok_same {q r : Dict (List String)} (h : queryCheck q r = .ok ()) : SameParams q r := by
  unfold queryCheck at h
  split at h
  · cases h
  · split at h
    · cases h
    · rename_i h2
      split at h
      · cases h
      · split at h
        · cases h
        · rename_i h4
          simp only [Bool.not_eq_true', Bool.not_eq_false] at h2 h4
          intro k
          cases hq : q.get? k with
          | none =>
            left
            refine ⟨rfl, ?_⟩
            cases hr : r.get? k with
            | none => rfl
            | some ws =>
              exfalso
              obtain ⟨vs, h5, -⟩ := (valuesIn_iff _ _ _).1 (List.all_eq_true.1 h2 _ (Dict.get?_mem hr))
              simp only [] at h5
              rw [hq] at h5; cases h5
          | some vs =>
            right
            obtain ⟨ws, h5, h6⟩ := (valuesIn_iff _ _ _).1 (List.all_eq_true.1 h4 _ (Dict.get?_mem hq))
            simp only [] at h5 h6
            obtain ⟨vs', h7, h8⟩ := (valuesIn_iff _ _ _).1 (List.all_eq_true.1 h2 _ (Dict.get?_mem h5))
            simp only [hq, Option.some.injEq] at h7 h8
            subst h7
            exact ⟨vs, ws, rfl, h5, fun v => ⟨h6 v, h8 v⟩⟩

theorem mem_get?_of_nodup {d : Dict (List String)} (hd : d.keys.Nodup) {k : String} {v : List String} (h : (k, v) ∈ d) :
    d.get? k = some v := by
  induction d with
  | nil => cases h
  | cons a r ih =>
    obtain ⟨k', v'⟩ := a
    simp only [Dict.keys, List.map_cons, List.nodup_cons] at hd
    rw [Dict.get?_cons]
    rcases List.mem_cons.1 h with h1 | h1
    · cases h1; simp
    · have : k' ≠ k := by
        rintro rfl
        exact hd.1 (List.mem_map.2 ⟨_, h1, rfl⟩)
      rw [if_neg this]
      exact ih hd.2 h1

theorem queryCheck_same_ok {q r : Dict (List String)} (hq : q.keys.Nodup) (hr : r.keys.Nodup) (h : SameParams q r) :
    queryCheck q r = .ok () := by
  have hA : r.all (fun p => valuesIn q p.1 p.2) = true := by
    rw [List.all_eq_true]
    rintro ⟨k, ws⟩ hm
    rw [valuesIn_iff]
    have h1 := mem_get?_of_nodup hr hm
    rcases h k with ⟨-, h2⟩ | ⟨vs, ws', h2, h3, h4⟩
    · rw [h1] at h2; cases h2
    · rw [h1] at h3; cases h3
      exact ⟨vs, h2, fun v hv => (h4 v).2 hv⟩
  have hB : q.all (fun p => valuesIn r p.1 p.2) = true := by
    rw [List.all_eq_true]
    rintro ⟨k, vs⟩ hm
    rw [valuesIn_iff]
    have h1 := mem_get?_of_nodup hq hm
    rcases h k with ⟨h2, -⟩ | ⟨vs', ws, h2, h3, h4⟩
    · rw [h1] at h2; cases h2
    · rw [h1] at h2; cases h2
      exact ⟨ws, h3, fun v hv => (h4 v).1 hv⟩
  have hE : q.isEmpty = r.isEmpty := by
    cases q with
    | nil =>
      cases r with
      | nil => rfl
      | cons a r' =>
        rcases h a.1 with ⟨-, h2⟩ | ⟨vs, ws, h2, -⟩
        · rw [mem_get?_of_nodup hr (v := a.2) List.mem_cons_self] at h2; cases h2
        · cases h2
    | cons a q' =>
      cases r with
      | cons _ _ => rfl
      | nil =>
        rcases h a.1 with ⟨h2, -⟩ | ⟨vs, ws, -, h2, -⟩
        · rw [mem_get?_of_nodup hq (v := a.2) List.mem_cons_self] at h2; cases h2
        · cases h2
  unfold queryCheck
  rw [hA, hB, hE]
  cases r.isEmpty <;> rfl

theorem matchUris_ok {base : String} {q : Dict (List String)} {regs : List RegUri} (h : matchUris base q regs = .ok ()) :
    ∃ r ∈ regs, base = RegBase r ∧ SameParams q (RegParams r) := by
  induction regs with
  | nil => cases h
  | cons r rest ih =>
    rw [matchUris, parts_spec] at h
    simp only [] at h
    split at h
    · rename_i hb
      exact ⟨r, List.mem_cons_self, hb, queryCheck_ok_same h⟩
    · obtain ⟨r', h1, h2⟩ := ih h
      exact ⟨r', List.mem_cons_of_mem _ h1, h2⟩

/-- C30.  A request passes the verification only if its redirect URI matches a registered one of the client exactly. -/
theorem C30_redirect_uri_exact (L : UriLib) (cdb : Dict (Option (List RegUri))) (cid uri : Option String)
    (h : verifyUri L cdb cid uri = .ok ()) :
    ∃ c u regs r, cid = some c ∧ uri = some u ∧ cdb.get? c = some (some regs) ∧ r ∈ regs ∧ Matches L u r := by
  unfold verifyUri at h
  split at h
  · cases h
  · cases h
  · rename_i c _
    split at h
    · cases h
    · rename_i u
      simp only [] at h
      split at h
      · cases h
      · rename_i hf
        split at h
        · cases h
        · cases h
        · rename_i regs hg
          obtain ⟨r, h1, h2, h3⟩ := matchUris_ok h
          exact ⟨c, u, regs, r, rfl, rfl, hg, h1, by simpa using hf, h2, h3⟩

/-- C30.  The decision in full: among the registered URIs with the same base only the first one counts, and it must have
the same query parameters. -/
theorem C30_first_base_decides (L : UriLib) (cdb : Dict (Option (List RegUri))) (c u : String) (hc : c ≠ "")
    (pre post : List RegUri) (r : RegUri) (hg : cdb.get? c = some (some (pre ++ r :: post)))
    (hq : (L.split (L.unquote u)).2.keys.Nodup) (hr : WellFormedReg r)
    (hpre : ∀ x ∈ pre, RegBase x ≠ (L.split (L.unquote u)).1) (hb : RegBase r = (L.split (L.unquote u)).1) :
    verifyUri L cdb (some c) (some u) = .ok () ↔ Matches L u r := by
  have hm : matchUris (L.split (L.unquote u)).1 (L.split (L.unquote u)).2 (pre ++ r :: post) =
      queryCheck (L.split (L.unquote u)).2 (RegParams r) := by
    clear hg
    induction pre with
    | nil => rw [List.nil_append, matchUris, parts_spec]; simp [hb]
    | cons x xs ih =>
      rw [List.cons_append, matchUris, parts_spec, if_neg (fun e => hpre x List.mem_cons_self e.symm)]
      exact ih (fun y hy => hpre y (List.mem_cons_of_mem _ hy))
  have hv : verifyUri L cdb (some c) (some u) = if L.fragment (L.unquote u) ≠ "" then .error (.other "URIError")
      else queryCheck (L.split (L.unquote u)).2 (RegParams r) := by
    unfold verifyUri
    split
    · rename_i h; cases h
    · rename_i h; simp only [Option.some.injEq] at h; exact absurd h hc
    · rename_i c' _ h
      simp only [Option.some.injEq] at h
      subst h
      simp only [hg, hm]
  rw [hv]
  unfold Matches
  constructor
  · intro h
    split at h
    · cases h
    · rename_i hf
      exact ⟨by simpa using hf, hb.symm, queryCheck_ok_same h⟩
  · rintro ⟨h1, -, h3⟩
    rw [if_neg (by simpa using h1)]
    exact queryCheck_same_ok hq hr h3

/-- C30, for the URI that the endpoint goes on with: it is the one of the request, which matches a registered one, or the
only registered one if the request has none. -/
theorem C30_used_uri (L : UriLib) (cdb : Dict (Option (List RegUri))) (cid uri : Option String) (used : String)
    (h : getUri L cdb cid uri = .ok used) :
    (uri = some used ∧ ∃ c regs r, cid = some c ∧ cdb.get? c = some (some regs) ∧ r ∈ regs ∧ Matches L used r) ∨
    (uri = none ∧ ∃ c b q, cid = some c ∧ cdb.get? c = some (some [.pair b q]) ∧
      (used = b ∧ q = [] ∨ used = b ++ "?" ++ L.urlencode q)) := by
  unfold getUri at h
  split at h
  · rename_i u
    split at h
    · rename_i x hv
      cases h
      obtain ⟨c, u', regs, r, h1, h2, h3⟩ := C30_redirect_uri_exact L cdb cid _ hv
      cases h2
      exact .inl ⟨rfl, c, regs, r, h1, h3⟩
    · cases h
  · split at h
    · cases h
    · rename_i c
      split at h
      all_goals first
        | (cases h; done)
        | skip
      rename_i b q hg
      cases h
      refine .inr ⟨rfl, c, b, q, rfl, hg, ?_⟩
      unfold joinQuery
      cases q with
      | nil => exact .inl ⟨rfl, rfl⟩
      | cons a r => exact .inr rfl

/-- C31, the part that holds.  A registered redirect URI passes if it is not changed by percent-decoding, has no fragment
and no other registered URI has the same base.  Missing from C31: the other registered URIs, see the refutations. -/
theorem C31_registered_usable_partial (L : UriLib) (cdb : Dict (Option (List RegUri))) (c : String) (hc : c ≠ "")
    (uris : List String) (hnd : (uris.map (fun u => (L.split u).1)).Nodup)
    (hg : cdb.get? c = some (some (uris.map (registeredForm L false)))) (u : String) (hu : u ∈ uris)
    (hdec : L.unquote u = u) (hfrag : L.fragment u = "") (hwf : ∀ x, (L.split x).2.keys.Nodup) :
    verifyUri L cdb (some c) (some u) = .ok () := by
  obtain ⟨pre, post, rfl⟩ := List.append_of_mem hu
  have hg' : cdb.get? c = some (some (pre.map (registeredForm L false) ++ registeredForm L false u :: post.map (registeredForm L false))) := by
    rw [hg]; simp
  refine (C30_first_base_decides L cdb c u hc _ _ _ hg' (hwf _) (hwf _) ?_ ?_).2 ⟨?_, ?_, ?_⟩
  · intro x hx
    obtain ⟨y, hy, rfl⟩ := List.mem_map.1 hx
    rw [hdec]
    simp only [List.map_append, List.map_cons] at hnd
    intro he
    have := (List.nodup_append.1 hnd).2.2
    exact this (L.split y).1 (List.mem_map.2 ⟨y, hy, rfl⟩) (L.split u).1 List.mem_cons_self he
  · rw [hdec]; rfl
  · rw [hdec]; exact hfrag
  · rw [hdec]; rfl
  · rw [hdec]
    intro k
    show _ ∨ ∃ vs ws, _ ∧ (L.split u).2.get? k = some ws ∧ _
    cases hk : (L.split u).2.get? k with
    | none => exact .inl ⟨rfl, hk⟩
    | some vs => exact .inr ⟨vs, vs, rfl, rfl, fun _ => Iff.rfl⟩

/-! ### Response types -/

theorem words_unique {r : String} {ws : List String} (h : Words r ws) :
    (pySplit [' '] r.toList).map String.ofList = ws := by
  obtain ⟨h1, h2, h3⟩ := h
  rw [h3, pySplit1_join ' ' _ (by simpa using h1) (by
    intro w hw
    obtain ⟨x, hx, rfl⟩ := List.mem_map.1 hw
    exact h2 x hx), List.map_map]
  have : (String.ofList ∘ String.toList) = id := by funext s; simp
  rw [this, List.map_id]

theorem words_exists (r : String) : Words r ((pySplit [' '] r.toList).map String.ofList) := by
  refine ⟨by simpa using pySplit1_ne_nil ' ' r.toList, ?_, ?_⟩
  · intro w hw
    obtain ⟨x, hx, rfl⟩ := List.mem_map.1 hw
    simpa using pySplit1_free ' ' _ x hx
  · rw [List.map_map]
    have : (String.toList ∘ String.ofList) = id := by funext s; simp
    rw [this, List.map_id, pyJoin_pySplit1]

/-- C32.  A response type is accepted exactly if it is, as a set, the set of words of a registered response type, or {code}
if the client has registered none. -/
theorem C32_response_type_registered (registered rt : List String) :
    verifyResponseType registered rt = true ↔
      (registered = [] ∧ SameSet rt ["code"]) ∨ ∃ r ∈ registered, ∃ ws, Words r ws ∧ SameSet rt ws := by
  have hset : ∀ s : List String, (s.all (fun x => rt.contains x) && rt.all (fun x => s.contains x)) = true ↔ SameSet rt s := by
    intro s
    simp only [Bool.and_eq_true, List.all_eq_true, List.contains_eq_mem, decide_eq_true_eq]
    exact ⟨fun h x => ⟨h.2 x, h.1 x⟩, fun h => ⟨fun x => (h x).2, fun x => (h x).1⟩⟩
  unfold verifyResponseType
  simp only []
  cases registered with
  | nil =>
    simp only [List.map_nil, List.isEmpty_nil, if_true, List.any_cons, List.any_nil, Bool.or_false, hset]
    simp
  | cons a r =>
    rw [if_neg (by simp), List.any_eq_true]
    constructor
    · rintro ⟨s, h1, h2⟩
      obtain ⟨x, hx, rfl⟩ := List.mem_map.1 h1
      exact .inr ⟨x, hx, _, words_exists x, (hset _).1 h2⟩
    · rintro (⟨h, -⟩ | ⟨x, hx, ws, h1, h2⟩)
      · cases h
      · refine ⟨_, List.mem_map.2 ⟨x, hx, rfl⟩, (hset _).2 ?_⟩
        rw [words_unique h1]; exact h2

/-- The order of the words does not matter; an unregistered combination is refused. -/
example : verifyResponseType ["code", "id_token token"] ["token", "id_token"] = true ∧
    verifyResponseType ["code", "id_token token"] ["token"] = false ∧ verifyResponseType [] ["code"] = true ∧
    verifyResponseType [] ["token"] = false := by decide +kernel

namespace Ex

/-- Registered redirect URIs of two clients. -/
def uriDb : Dict (Option (List RegUri)) :=
  [("c1", some (["https://rp/cb", "https://rp/cb2?foo=bar&foo=2", "https://rp/a%20b"].map (registeredForm simpleUri false))),
   ("c2", some (["https://rp/cb?a=1", "https://rp/cb?a=2"].map (registeredForm simpleUri false)))]

/-- C30, C31: requests that pass, in another order of the parameters too, and requests that do not. -/
example : verifyUri simpleUri uriDb (some "c1") (some "https://rp/cb") = .ok () ∧
    verifyUri simpleUri uriDb (some "c1") (some "https://rp/cb2?foo=2&foo=bar") = .ok () ∧
    verifyUri simpleUri uriDb (some "c1") (some "https://rp/cb2?foo=bar") = .error .valueError ∧
    verifyUri simpleUri uriDb (some "c1") (some "https://rp/cb?x=1") = .error .valueError ∧
    verifyUri simpleUri uriDb (some "c1") (some "https://rp/cb/x") = .error (.other "RedirectURIError") ∧
    verifyUri simpleUri uriDb (some "c1") (some "https://rp/cb#f") = .error (.other "URIError") := by
  decide +kernel

/-- C31 does not hold: of two registered URIs with the same base and different queries the second one is refused. -/
theorem C31_same_base_refuted :
    ¬ (∀ (L : UriLib) (cdb : Dict (Option (List RegUri))) (c : String) (uris : List String),
      cdb.get? c = some (some (uris.map (registeredForm L false))) → ∀ u ∈ uris, L.fragment u = "" →
        verifyUri L cdb (some c) (some u) = .ok ()) := by
  intro H
  have h := H simpleUri uriDb "c2" ["https://rp/cb?a=1", "https://rp/cb?a=2"] (by decide +kernel) "https://rp/cb?a=2" (by decide +kernel)
    (by decide +kernel)
  revert h
  decide +kernel

/-- C31 does not hold: a registered URI with percent-encoding is refused, the registered form is not decoded. -/
theorem C31_percent_refuted :
    ¬ (∀ (L : UriLib) (cdb : Dict (Option (List RegUri))) (c : String) (uris : List String),
      (uris.map (fun u => (L.split u).1)).Nodup →
      cdb.get? c = some (some (uris.map (registeredForm L false))) → ∀ u ∈ uris, L.fragment u = "" →
        verifyUri L cdb (some c) (some u) = .ok ()) := by
  intro H
  have h := H simpleUri uriDb "c1" ["https://rp/cb", "https://rp/cb2?foo=bar&foo=2", "https://rp/a%20b"] (by decide +kernel)
    (by decide +kernel) "https://rp/a%20b" (by decide +kernel) (by decide +kernel)
  revert h
  decide +kernel

/-- C67 does not hold: the URI that passed is used as it stands in the request, and its base is not a registered one;
here the percent-encoded slash makes it a URI of another host. -/
theorem C67_used_uri_registered_refuted :
    ¬ (∀ (L : UriLib) (cdb : Dict (Option (List RegUri))) (c u used : String) (regs : List RegUri),
      getUri L cdb (some c) (some u) = .ok used → cdb.get? c = some (some regs) →
      ∃ r ∈ regs, (L.split used).1 = RegBase r) := by
  intro H
  obtain ⟨r, h1, h2⟩ := H simpleUri uriDb "c1" "https://rp%2Fcb" "https://rp%2Fcb" _ (by decide +kernel) rfl
  simp only [List.map_cons, List.map_nil, List.mem_cons, List.not_mem_nil, or_false] at h1
  rcases h1 with rfl | rfl | rfl <;> (revert h2; decide +kernel)

end Ex

/-- C67, the part that holds: a URI that percent-decoding does not change is used only if its base and query parameters are
those of a registered one. -/
theorem C67_used_uri_registered_partial (L : UriLib) (cdb : Dict (Option (List RegUri))) (c u used : String)
    (h : getUri L cdb (some c) (some u) = .ok used) (hdec : L.unquote u = u) :
    ∃ regs r, cdb.get? c = some (some regs) ∧ r ∈ regs ∧ L.fragment used = "" ∧ (L.split used).1 = RegBase r ∧
      SameParams (L.split used).2 (RegParams r) := by
  rcases C30_used_uri L cdb _ _ used h with ⟨h1, c', regs, r, h2, h3, h4, h5, h6, h7⟩ | ⟨h1, -⟩
  · cases h1; cases h2
    rw [hdec] at h5 h6 h7
    exact ⟨regs, r, h3, h4, h5, h6, h7⟩
  · cases h1

end OidcOp
