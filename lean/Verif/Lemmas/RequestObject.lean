/-
Lemmas about request objects.
-/
import Verif.Spec.RequestObject
import Verif.Lemmas.Provider

namespace OidcOp
open Spec

theorem strIn_iff (a b : Str) : strIn a b = true ↔ ∃ x y, b = x ++ a ++ y := by
  induction b with
  | nil =>
    unfold strIn
    constructor
    · intro h
      exact ⟨[], [], by simpa using (List.isEmpty_iff.1 h).symm⟩
    · rintro ⟨x, y, h⟩
      have := congrArg List.length h
      simp only [List.length_nil, List.length_append] at this
      exact List.isEmpty_iff.2 (List.length_eq_zero_iff.1 (by omega))
  | cons c b ih =>
    unfold strIn
    rw [Bool.or_eq_true, ih]
    constructor
    · rintro (h | ⟨x, y, h⟩)
      · obtain ⟨y, hy⟩ := List.isPrefixOf_iff_prefix.1 h
        exact ⟨[], y, hy.symm⟩
      · exact ⟨c :: x, y, by rw [h]; rfl⟩
    · rintro ⟨x, y, h⟩
      cases x with
      | nil => exact .inl (List.isPrefixOf_iff_prefix.2 ⟨y, h.symm⟩)
      | cons d x =>
        simp only [List.cons_append, List.cons.injEq] at h
        exact .inr ⟨x, y, h.2⟩

theorem splitFirst_some {c : Char} {s a b : Str} (h : splitFirst c s = some (a, b)) : c ∉ a ∧ s = a ++ c :: b := by
  induction s generalizing a b with
  | nil => simp [splitFirst] at h
  | cons x xs ih =>
    simp only [splitFirst] at h
    split at h
    · rename_i hx
      cases h
      exact ⟨by simp, by simp [hx]⟩
    · rename_i hx
      cases hq : splitFirst c xs with
      | none => rw [hq] at h; cases h
      | some p =>
        obtain ⟨u, v⟩ := p
        rw [hq] at h
        cases h
        obtain ⟨h1, h2⟩ := ih hq
        refine ⟨?_, by rw [h2]; rfl⟩
        intro hc
        rcases List.mem_cons.1 hc with rfl | hc
        · exact hx (by simp)
        · exact h1 hc

theorem splitFirst_none {c : Char} {s : Str} (h : splitFirst c s = none) : c ∉ s := by
  induction s with
  | nil => simp
  | cons x xs ih =>
    simp only [splitFirst] at h
    split at h
    · cases h
    · rename_i hx
      cases hq : splitFirst c xs with
      | some p => rw [hq] at h; cases h
      | none =>
        intro hc
        rcases List.mem_cons.1 hc with rfl | hc
        · exact hx (by simp)
        · exact ih hq hc

/-- The text before the first '#' is the base. -/
theorem baseOf_iff (uri b : String) : BaseOf uri b ↔ b = String.ofList (cutAt '#' uri.toList).1 := by
  unfold BaseOf cutAt
  cases hq : splitFirst '#' uri.toList with
  | none =>
    have hn := splitFirst_none hq
    show _ ↔ b = String.ofList uri.toList
    rw [String.ofList_toList]
    constructor
    · rintro ⟨_, rfl | ⟨f, rfl⟩⟩
      · rfl
      · exact absurd (by simp) hn
    · rintro rfl
      exact ⟨hn, .inl rfl⟩
  | some q =>
    obtain ⟨u, v⟩ := q
    obtain ⟨h1, h2⟩ := splitFirst_some hq
    show _ ↔ b = String.ofList u
    constructor
    · rintro ⟨hb, rfl | ⟨f, rfl⟩⟩
      · exact absurd (by rw [h2]; simp) hb
      · have h3 : splitFirst '#' (b.toList ++ '#' :: f.toList) = some (b.toList, f.toList) := splitFirst_of_not_mem hb
        have h4 : (b ++ "#" ++ f).toList = b.toList ++ '#' :: f.toList := by simp
        rw [h4, h3] at hq
        cases hq
        simp
    · rintro rfl
      refine ⟨by simpa using h1, .inr ⟨String.ofList v, ?_⟩⟩
      rw [← String.toList_inj, h2]
      simp

theorem algIn_ok {F : ObjectLib} {client : String} {a : String} {use : AlgUse}
    (hp : ∀ s, (F.registered client use = some (.one s) ∨ F.supported use = some (.one s)) →
      (∃ x y, s.toList = x ++ a.toList ++ y) → a = s) :
    allowedAlgorithm F client (some a) use = .ok () ↔ MayUse F client a use := by
  have key : ∀ x : Algs, (∀ s, x = .one s → (∃ u v, s.toList = u ++ a.toList ++ v) → a = s) →
      (algIn (some a) (some x) = .ok true ↔ Algs.Has x a) ∧ ∃ b, algIn (some a) (some x) = .ok b := by
    intro x hx
    cases x with
    | many l =>
      refine ⟨?_, _, rfl⟩
      show (Except.ok (l.contains a) : Except Exc Bool) = _ ↔ a ∈ l
      constructor
      · intro h
        exact List.contains_iff_mem.1 (Except.ok.inj h)
      · intro h
        rw [List.contains_iff_mem.2 h]
    | one s =>
      refine ⟨?_, _, rfl⟩
      show (Except.ok (strIn a.toList s.toList) : Except Exc Bool) = _ ↔ a = s
      constructor
      · intro h
        exact hx s rfl ((strIn_iff _ _).1 (Except.ok.inj h))
      · rintro rfl
        rw [(strIn_iff _ _).2 ⟨[], [], by simp⟩]
  unfold allowedAlgorithm MayUse
  cases hr : F.registered client use with
  | some x =>
    obtain ⟨h1, b, h2⟩ := key x (fun s e => hp s (.inl (by rw [hr, e])))
    simp only [h2] at h1 ⊢
    cases b <;> simp_all
  | none =>
    cases hs : F.supported use with
    | none => simp [algIn]
    | some x =>
      obtain ⟨h1, b, h2⟩ := key x (fun s e => hp s (.inr (by rw [hs, e])))
      simp only [h2] at h1 ⊢
      cases b <;> simp_all

theorem algIn_none {F : ObjectLib} {client : String} {use : AlgUse} : allowedAlgorithm F client none use ≠ .ok () := by
  unfold allowedAlgorithm
  cases F.registered client use with
  | some x => cases x <;> simp [algIn]
  | none =>
    cases F.supported use with
    | none => simp [algIn]
    | some x => cases x <;> simp [algIn]

theorem allowed_opt {F : ObjectLib} {client : String} {o : Option String} {use : AlgUse}
    (hp : ∀ a, o = some a → ∀ s, (F.registered client use = some (.one s) ∨ F.supported use = some (.one s)) →
      (∃ x y, s.toList = x ++ a.toList ++ y) → a = s) :
    allowedAlgorithm F client o use = .ok () ↔ ∃ a, o = some a ∧ MayUse F client a use := by
  cases o with
  | none => simp [algIn_none]
  | some a => rw [algIn_ok (hp a rfl)]; simp

/-- When an object is taken in. -/
theorem fetchObject_iff {F : ObjectLib} {client uri : String} (hpl : PlainAlgs F client) (req r : AuthzReq) :
    fetchObject F client uri req = .ok r ↔
      ∃ o, GoodObject F client uri o ∧ (o.jwe = true → OddlyEncrypted F client o) ∧ r = req.overwrite o.says := by
  unfold fetchObject GoodObject
  cases hg : F.get uri with
  | error e => simp
  | ok q =>
    obtain ⟨st, text⟩ := q
    by_cases hst : st = 200
    · subst hst
      simp only [if_pos]
      cases hf : F.fromJwt client text with
      | error e =>
        constructor
        · intro h; cases h
        · rintro ⟨o, ⟨t, h, h1, h2, _⟩, _⟩
          cases h1
          rw [hf] at h2; cases h2
      | ok o =>
        have hch : checkObject F client o = .ok () ↔
            (∃ h, o.jws = some h ∧ MayUse F client (h.alg.getD "RS256") .sign) ∧ (o.jwe = true → OddlyEncrypted F client o) := by
          unfold checkObject OddlyEncrypted
          cases hj : o.jws with
          | none => simp
          | some h =>
            have hp := hpl text o h hf hj
            have hs : allowedAlgorithm F client (some (h.alg.getD "RS256")) .sign = .ok () ↔
                MayUse F client (h.alg.getD "RS256") .sign := by
              refine algIn_ok (hp _ ?_ .sign)
              cases h.alg with
              | none => exact .inr (.inr rfl)
              | some a => exact .inl rfl
            have ha := allowed_opt (F := F) (client := client) (o := h.alg) (use := .encAlg) (fun a e => hp a (.inl e) .encAlg)
            have he := allowed_opt (F := F) (client := client) (o := h.enc) (use := .encEnc) (fun a e => hp a (.inr (.inl e)) .encEnc)
            simp only []
            cases hq : allowedAlgorithm F client (some (h.alg.getD "RS256")) .sign with
            | error e =>
              simp only [hq] at hs
              constructor
              · intro h; cases h
              · rintro ⟨⟨h', e1, h2⟩, _⟩
                cases e1
                cases hs.2 h2
            | ok u =>
              have h2 := hs.1 hq
              simp only []
              by_cases hw : o.jwe = true
              · rw [if_pos hw]
                cases hqa : allowedAlgorithm F client h.alg .encAlg with
                | error e =>
                  simp only [hqa] at ha
                  constructor
                  · intro h; cases h
                  · rintro ⟨_, h3⟩
                    obtain ⟨h', a, e', e1, e2, e3, _⟩ := h3 hw
                    cases e1
                    cases ha.2 ⟨a, e2, e3⟩
                | ok u =>
                  simp only []
                  obtain ⟨a, e2, e3⟩ := ha.1 hqa
                  rw [he]
                  constructor
                  · rintro ⟨e', e4, e5⟩
                    exact ⟨⟨h, rfl, h2⟩, fun _ => ⟨h, a, e', rfl, e2, e3, e4, e5⟩⟩
                  · rintro ⟨_, h3⟩
                    obtain ⟨h', a', e', e1, _, _, e4, e5⟩ := h3 hw
                    cases e1
                    exact ⟨e', e4, e5⟩
              · rw [if_neg hw]
                exact ⟨fun _ => ⟨⟨h, rfl, h2⟩, fun h => absurd h hw⟩, fun _ => rfl⟩
        cases hc : checkObject F client o with
        | error e =>
          simp only [hc]
          constructor
          · intro h; cases h
          · rintro ⟨o', ⟨t, h, h1, h2, h3, h4, _⟩, h5, _⟩
            cases h1
            rw [hf] at h2
            cases h2
            rw [hch.2 ⟨⟨h, h3, h4⟩, h5⟩] at hc
            cases hc
        | ok u =>
          obtain ⟨⟨h, h3, h4⟩, h5⟩ := hch.1 hc
          simp only [hc]
          constructor
          · intro hr
            refine ⟨o, ⟨text, h, rfl, hf, h3, h4, F.fromJwt_verified hf h3⟩, h5, (Except.ok.inj hr).symm⟩
          · rintro ⟨o', ⟨t, h', h1, h2, _⟩, _, rfl⟩
            cases h1
            rw [hf] at h2
            cases h2
            rfl
    · simp only [if_neg hst]
      constructor
      · intro h; cases h
      · rintro ⟨o, ⟨t, h, h1, _⟩, _⟩
        cases h1
        exact absurd rfl hst

theorem urnPrefix_iff (uri : String) : "urn:uuid:".toList.isPrefixOf uri.toList = true ↔ ∃ x, uri = "urn:uuid:" ++ x := by
  rw [List.isPrefixOf_iff_prefix]
  constructor
  · rintro ⟨t, ht⟩
    refine ⟨String.ofList t, ?_⟩
    rw [← String.toList_inj, ← ht]
    simp
  · rintro ⟨x, rfl⟩
    exact ⟨x.toList, by simp⟩

/-- A reference to an object is fetched if the place is right. -/
theorem doRequestUri_refers {p : Prov} {F : ObjectLib} {client uri : String} {req : AuthzReq} (s : PState)
    (href : RefersTo p req uri) :
    (doRequestUri (p.withObjects F) client req s).2 = s ∧
    ((FetchesFrom p client uri ∧ (doRequestUri (p.withObjects F) client req s).1 = fetchObject F client uri req) ∨
     (¬ FetchesFrom p client uri ∧ ∃ e, (doRequestUri (p.withObjects F) client req s).1 = .error e)) := by
  obtain ⟨h1, h2, h3⟩ := href
  have ht : truthyStr req.requestUri = some uri := by rw [h1]; simp [truthyStr, h2]
  have hu : (p.hasPar && "urn:uuid:".toList.isPrefixOf uri.toList) = false := by
    rcases h3 with h3 | h3
    · rw [h3]; rfl
    · rw [Bool.and_eq_false_iff]
      exact .inr (by rw [Bool.eq_false_iff]; intro hc; exact h3 ((urnPrefix_iff uri).1 hc))
  unfold doRequestUri FetchesFrom Prov.withObjects
  rw [ht]
  simp only [hu, Bool.false_eq_true, if_false]
  by_cases hs : p.requestUriSupported = false
  · rw [if_pos hs]
    exact ⟨rfl, .inr ⟨fun hc => by rw [hs] at hc; exact absurd hc.1 (by decide), _, rfl⟩⟩
  · rw [if_neg hs]
    have hs' : p.requestUriSupported = true := by simpa using hs
    cases hc : p.clients.get? client with
    | none => exact ⟨rfl, .inr ⟨(fun hx => by obtain ⟨_, cl, e, _⟩ := hx; cases e), _, rfl⟩⟩
    | some cl =>
      simp only []
      cases hr : cl.requestUris with
      | none =>
        exact ⟨rfl, .inl ⟨⟨hs', cl, rfl, fun l e => by rw [hr] at e; cases e⟩, rfl⟩⟩
      | some l =>
        simp only []
        split
        · rename_i hb
          rw [Bool.and_eq_true] at hb
          obtain ⟨hb1, hb2⟩ := hb
          refine ⟨rfl, .inr ⟨?_, _, rfl⟩⟩
          rintro ⟨_, cl', e, hl⟩
          cases e
          obtain ⟨b, hm, hbo⟩ := hl l hr (by intro e; subst e; simp at hb1)
          rw [baseOf_iff] at hbo
          subst hbo
          rw [List.contains_iff_mem.2 hm] at hb2
          cases hb2
        · rename_i hb
          refine ⟨rfl, .inl ⟨⟨hs', cl, rfl, ?_⟩, rfl⟩⟩
          intro l' e hne
          rw [hr] at e
          cases e
          have hle : l.isEmpty = false := by cases l with | nil => exact absurd rfl hne | cons => rfl
          rw [hle] at hb
          have hin : l.contains (String.ofList (cutAt '#' uri.toList).1) = true := by simpa using hb
          exact ⟨_, List.contains_iff_mem.1 hin, (baseOf_iff _ _).2 rfl⟩

/-! ### Overwriting -/

theorem or_some {α : Type} {a b : Option α} {v : α} (h : a = some v) : a.or b = some v := by rw [h]; rfl
theorem or_none {α : Type} {a b : Option α} (h : a = none) : a.or b = b := by rw [h]; rfl

theorem overwrite_carries (req o : AuthzReq) : Carries o (req.overwrite o) := by
  constructor <;> first
    | (intro v h; exact or_some h)
    | (intro h; show (if _ then _ else _) = _; rw [if_neg (by simpa using h)])
    | (intro h; show (_ || _) = true; rw [h]; rfl)
    | (intro hn k v h; show (req.other.update o.other).get? k = _; rw [Dict.get?_update, Dict.get?_reverse_of_nodup hn, h])

theorem overwrite_completes (req o : AuthzReq) : Completes o req (req.overwrite o) := by
  constructor <;> first
    | (intro v h hr; exact (or_none h).trans hr)
    | (intro h; exact or_none h)
    | (intro h; show (if _ then _ else _) = _; rw [if_pos (by simpa using h)])
    | (intro h; show (o.upmAnswer || _) = _; rw [h]; rfl)
    | (intro hn k h; show (req.other.update o.other).get? k = _; rw [Dict.get?_update, Dict.get?_reverse_of_nodup hn, h])

/-- Members other than the redirect URI and the challenge method are the same, and these two are if they were there. -/
structure Settled (a b : AuthzReq) : Prop where
  redirectUri : ∀ v, a.redirectUri = some v → b.redirectUri = some v
  method : ∀ v, a.codeChallengeMethod = some v → b.codeChallengeMethod = some v
  rest : ∃ x y, b = { a with redirectUri := x, codeChallengeMethod := y }

theorem Settled.refl (a : AuthzReq) : Settled a a := ⟨fun _ h => h, fun _ h => h, _, _, rfl⟩

theorem Settled.carries {o a b : AuthzReq} (h : Settled a b) (hc : Carries o a) : Carries o b := by
  obtain ⟨h1, h2, x, y, rfl⟩ := h
  obtain ⟨c1, c2, c3, c4, c5, c6, c7, c8, c9, c10, c11, c12, c13, c14, c15, c16⟩ := hc
  exact ⟨c1, fun v e => h1 v (c2 v e), c3, c4, c5, c6, c7, c8, c9, c10, c11, c12, fun v e => h2 v (c13 v e), c14, c15, c16⟩

theorem Settled.completes {o q a b : AuthzReq} (h : Settled a b) (hc : Completes o q a) : Completes o q b := by
  obtain ⟨h1, h2, x, y, rfl⟩ := h
  obtain ⟨c2, c3, c4, c5, c6, c7, c8, c9, c10, c11, c12, c13, c14, c15, c16⟩ := hc
  exact ⟨fun v e e' => h1 v (c2 v e e'), c3, c4, c5, c6, c7, c8, c9, c10, c11, c12, fun v e e' => h2 v (c13 v e e'), c14, c15, c16⟩

theorem completes_trans {o q q' r : AuthzReq} (h : Completes o q q') (h' : Completes o q' r) : Completes o q r := by
  obtain ⟨a2, a3, a4, a5, a6, a7, a8, a9, a10, a11, a12, a13, a14, a15, a16⟩ := h
  obtain ⟨c2, c3, c4, c5, c6, c7, c8, c9, c10, c11, c12, c13, c14, c15, c16⟩ := h'
  exact ⟨fun v e e' => c2 v e (a2 v e e'), fun e => (c3 e).trans (a3 e), fun e => (c4 e).trans (a4 e),
    fun e => (c5 e).trans (a5 e), fun e => (c6 e).trans (a6 e), fun e => (c7 e).trans (a7 e), fun e => (c8 e).trans (a8 e),
    fun e => (c9 e).trans (a9 e), fun e => (c10 e).trans (a10 e), fun e => (c11 e).trans (a11 e), fun e => (c12 e).trans (a12 e),
    fun v e e' => c13 v e (a13 v e e'), fun e => (c14 e).trans (a14 e), fun e => (c15 e).trans (a15 e),
    fun hn k e => (c16 hn k e).trans (a16 hn k e)⟩

theorem postParse_settled {p : Prov} {client : String} {req r : AuthzReq} (h : postParseAuthz p client req = .ok (.req r)) :
    Settled req r := by
  unfold postParseAuthz at h
  split at h
  · cases h
  · split at h
    · cases h
    · split at h
      · rename_i u hu
        cases h
        refine ⟨?_, fun _ e => e, _, _, rfl⟩
        intro v hv
        rcases C30_used_uri _ _ _ _ _ hu with ⟨e, _⟩ | ⟨e, _⟩
        · rw [hv] at e; rw [Option.some.inj e]
        · rw [hv] at e; cases e
      · split at h <;> cases h

theorem parsePkce_settled {p : Prov} {client : String} {req r : AuthzReq} (h : parsePkce p client req = .ok (.req r)) :
    Settled req r := by
  unfold parsePkce at h
  split at h
  · cases h; exact .refl _
  · unfold pkceAuthnParse at h
    split at h
    · cases h
    · split at h
      · cases h
      · simp only [] at h
        split at h
        · cases h
        · cases h
          exact ⟨fun _ e => e, fun v e => by simp [e], _, _, rfl⟩

/-- One round takes in the object. -/
theorem parseRound_object {p : Prov} {F : ObjectLib} {client uri : String} {req r : AuthzReq} {s s' : PState}
    (hpl : PlainAlgs F client) (href : RefersTo p req uri)
    (h : parseRound (p.withObjects F) client req s = (.ok (.req r), s')) :
    FetchesFrom p client uri ∧ ∃ o, GoodObject F client uri o ∧ (o.jwe = true → OddlyEncrypted F client o) ∧
      Settled (req.overwrite o.says) r := by
  unfold parseRound at h
  obtain ⟨_, hd⟩ := doRequestUri_refers (F := F) (client := client) s href
  split at h
  · cases h
  · rename_i q s1 hq
    simp only [Prod.mk.injEq] at h
    rw [hq] at hd
    rcases hd with ⟨h1, h2⟩ | ⟨_, e, h2⟩
    · obtain ⟨o, k1, k2, rfl⟩ := (fetchObject_iff hpl req q).1 h2.symm
      exact ⟨h1, o, k1, k2, postParse_settled h.1⟩
    · cases h2

theorem good_unique {F : ObjectLib} {client uri : String} {o o' : ReqObject} (h : GoodObject F client uri o)
    (h' : GoodObject F client uri o') : o = o' := by
  obtain ⟨t, x, h1, h2, _⟩ := h
  obtain ⟨t', x', h1', h2', _⟩ := h'
  rw [h1] at h1'
  cases h1'
  rw [h2] at h2'
  cases h2'
  rfl

end OidcOp
