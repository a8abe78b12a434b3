/-
Lemmas about tokens, minting and revocation.
-/
import Verif.Spec.Token
import Verif.Model.TokenEndpoint

namespace OidcOp
open Spec

theorem isActive_iff (i : Item) (clock now : Int) :
    i.isActive clock now = true ↔ ItemActive i (if now = 0 then clock else now) := by
  unfold Item.isActive Item.maxUsageReached ItemActive
  cases hm : i.maxUsage with
  | none =>
    cases hr : i.revoked <;> by_cases hn : now = 0 <;> simp [hn] <;> grind
  | some m =>
    cases hr : i.revoked <;> by_cases hn : now = 0 <;> simp [hn] <;> grind

theorem isActive_clock_iff (i : Item) (clock : Int) :
    i.isActive clock = true ↔ ItemActive i clock := by
  have := isActive_iff i clock 0
  simpa using this

theorem isActive_false_iff (i : Item) (clock : Int) :
    i.isActive clock = false ↔ ¬ ItemActive i clock := by
  rw [← isActive_clock_iff]; simp

theorem supportsMintingOf_iff (t : Token) (c : TokenClass) :
    t.supportsMintingOf c = true ↔ MayMint t c := by
  unfold Token.supportsMintingOf MayMint
  cases t.rules.supportsMinting <;> simp

/-- Everything about a successful `mintToken`. -/
theorem mintToken_some {g g' : Grant} {clock : Int} {c : TokenClass} {basedOn : Option Token}
    {rules : Option UsageRules} {scope : Option (List String)} {tt : String} {h : Except Exc String}
    {t : Token} (hm : g.mintToken clock c basedOn rules scope tt h = (.ok (some t), g')) :
    ItemActive g.item clock ∧
    (∀ b, basedOn = some b → ItemActive b.item clock ∧ MayMint b c) ∧
    c.known = true ∧
    (∃ v sc ty, h = .ok v ∧
      (match scope with
        | some s => sc = s
        | none => match basedOn with
          | some b => g.findScopeTok b = .ok sc
          | none => sc = g.scope) ∧
      t = newToken clock c v (basedOn.map Token.value) (rules.or (g.rulesFor c)) sc ty) ∧
    g' = { g with issuedToken := g.issuedToken ++ [t], used := g.used + 1 } := by
  unfold Grant.mintToken at hm
  split at hm
  · simp at hm
  rename_i hact
  have hact' : ItemActive g.item clock := by
    rw [← isActive_clock_iff]; simpa [Grant.isActive] using hact
  refine ⟨hact', ?_⟩
  simp only [] at hm
  split at hm
  · simp at hm
  rename_i ref hguard
  have hpar : (∀ b, basedOn = some b → ItemActive b.item clock ∧ MayMint b c) ∧
      ref = basedOn.map Token.value := by
    cases basedOn with
    | none => simp at hguard; simp [← hguard]
    | some b =>
      simp only [] at hguard
      split at hguard
      · simp at hguard
      rename_i hs
      split at hguard
      · simp at hguard
      rename_i hb
      simp only [Except.ok.injEq] at hguard
      subst hguard
      refine ⟨?_, rfl⟩
      intro b' hb'
      cases hb'
      refine ⟨?_, ?_⟩
      · rw [← isActive_clock_iff]; simpa [Token.isActive] using hb
      · rw [← supportsMintingOf_iff]; simpa using hs
  obtain ⟨hpar, rfl⟩ := hpar
  refine ⟨hpar, ?_⟩
  split at hm
  · simp at hm
  rename_i hk
  refine ⟨by simpa using hk, ?_⟩
  split at hm
  · simp at hm
  rename_i sc hsc
  split at hm
  · simp at hm
  rename_i v
  simp only [Prod.mk.injEq, Except.ok.injEq, Option.some.injEq] at hm
  obtain ⟨rfl, rfl⟩ := hm
  refine ⟨⟨v, sc, _, rfl, ?_, rfl⟩, rfl⟩
  cases scope with
  | some s => simpa using hsc.symm
  | none =>
    cases basedOn with
    | none => simpa using hsc.symm
    | some b => simpa using hsc

/-- When `mintToken` does not return a token the grant is unchanged. -/
theorem mintToken_not_some (g : Grant) (clock : Int) (c : TokenClass)
    (basedOn : Option Token) (rules : Option UsageRules) (scope : Option (List String)) (tt : String)
    (h : Except Exc String)
    (hm : ∀ t, (g.mintToken clock c basedOn rules scope tt h).1 ≠ .ok (some t)) :
    (g.mintToken clock c basedOn rules scope tt h).2 = g := by
  revert hm
  unfold Grant.mintToken
  split
  · simp
  · simp only []
    split
    · simp
    · split
      · simp
      · split
        · simp
        · split
          · simp
          · simp

/-! ### getToken, modifyFirst -/

theorem getToken_mem {g : Grant} {v : String} {t : Token} (h : g.getToken v = some t) :
    t ∈ g.issuedToken ∧ t.value = v := by
  unfold Grant.getToken at h
  exact ⟨List.mem_of_find?_eq_some h, by simpa using List.find?_some h⟩

theorem nodup_value_inj {ts : List Token} (h : (ts.map Token.value).Nodup) {t u : Token}
    (ht : t ∈ ts) (hu : u ∈ ts) (he : t.value = u.value) : t = u := by
  induction ts with
  | nil => simp at ht
  | cons a r ih =>
    simp only [List.map_cons, List.nodup_cons, List.mem_map, not_exists, not_and] at h
    rcases List.mem_cons.1 ht with rfl | ht' <;> rcases List.mem_cons.1 hu with rfl | hu'
    · rfl
    · exact absurd he.symm (h.1 u hu')
    · exact absurd he (h.1 t ht')
    · exact ih h.2 ht' hu'

theorem nodup_value_idx {ts : List Token} (h : (ts.map Token.value).Nodup) {i j : Nat} {t u : Token}
    (ht : ts[i]? = some t) (hu : ts[j]? = some u) (he : t.value = u.value) : i = j := by
  have hi : (ts.map Token.value)[i]? = some t.value := by simp [ht]
  have hj : (ts.map Token.value)[j]? = some t.value := by simp [hu, he]
  have hlt : i < (ts.map Token.value).length := by
    rcases List.getElem?_eq_some_iff.1 hi with ⟨h1, _⟩; exact h1
  exact (List.getElem?_inj hlt h).1 (hi.trans hj.symm)

theorem getToken_eq_some_iff {g : Grant} (h : (g.issuedToken.map Token.value).Nodup) (v : String)
    (t : Token) : g.getToken v = some t ↔ t ∈ g.issuedToken ∧ t.value = v := by
  constructor
  · exact getToken_mem
  · rintro ⟨hm, hv⟩
    cases hg : g.getToken v with
    | none =>
      unfold Grant.getToken at hg
      rw [List.find?_eq_none] at hg
      exact absurd hv (by simpa using hg t hm)
    | some u =>
      have hu := getToken_mem hg
      rw [nodup_value_inj h hu.1 hm (hu.2.trans hv.symm)]

/-! ### marking positions -/

open Classical in
/-- Revoke the tokens at the positions in `P`. -/
noncomputable def markBy (P : Nat → Prop) (ts : List Token) : List Token :=
  ts.mapIdx (fun k t => if P k then t.revoke else t)

theorem markBy_length (P : Nat → Prop) (ts : List Token) : (markBy P ts).length = ts.length := by
  simp [markBy]

open Classical in
theorem markBy_getElem? (P : Nat → Prop) (ts : List Token) (i : Nat) :
    (markBy P ts)[i]? = (ts[i]?).map (fun t => if P i then t.revoke else t) := by
  simp [markBy, List.getElem?_mapIdx]

theorem markBy_markBy (P Q : Nat → Prop) (ts : List Token) :
    markBy P (markBy Q ts) = markBy (fun k => Q k ∨ P k) ts := by
  apply List.ext_getElem?
  intro i
  simp only [markBy_getElem?, Option.map_map]
  congr 1
  funext t
  by_cases h1 : P i <;> by_cases h2 : Q i <;> simp [h1, h2, Token.revoke]

theorem markBy_congr {P Q : Nat → Prop} (h : ∀ k, P k ↔ Q k) (ts : List Token) :
    markBy P ts = markBy Q ts := by
  have : P = Q := by funext k; exact propext (h k)
  rw [this]

theorem markBy_false (ts : List Token) : markBy (fun _ => False) ts = ts := by
  apply List.ext_getElem?; intro i; simp [markBy_getElem?]

theorem markAt_eq (ts : List Token) (i : Nat) : markAt ts i = markBy (fun k => k = i) ts := by
  apply List.ext_getElem?
  intro k
  simp only [markAt, markBy_getElem?, List.getElem?_modify]
  by_cases h : k = i
  · subst h; simp
  · have : ¬ i = k := fun e => h e.symm
    simp [h, this]

/-- Two lists of tokens differ only in their `revoked` flags. -/
def SameStatic (a b : List Token) : Prop :=
  a.map (fun t => { t with revoked := false }) = b.map (fun t => { t with revoked := false })

theorem SameStatic.refl (a : List Token) : SameStatic a a := rfl

theorem SameStatic.trans {a b c : List Token} (h : SameStatic a b) (h' : SameStatic b c) :
    SameStatic a c := Eq.trans h h'

theorem SameStatic.symm {a b : List Token} (h : SameStatic a b) : SameStatic b a := Eq.symm h

theorem SameStatic.length {a b : List Token} (h : SameStatic a b) : a.length = b.length := by
  have := congrArg List.length h; simpa using this

theorem SameStatic.get {a b : List Token} (h : SameStatic a b) {i : Nat} {t : Token}
    (ht : a[i]? = some t) : ∃ u, b[i]? = some u ∧
      { t with revoked := false } = { u with revoked := false } := by
  have h1 := congrArg (fun l => l[i]?) h
  simp only [List.getElem?_map, ht, Option.map_some] at h1
  cases hb : b[i]? with
  | none => simp [hb] at h1
  | some u => simp only [hb, Option.map_some, Option.some.injEq] at h1; exact ⟨u, rfl, h1⟩

theorem SameStatic.get' {a b : List Token} (h : SameStatic a b) {i : Nat} {t : Token}
    (ht : a[i]? = some t) : ∃ u, b[i]? = some u ∧ u.value = t.value ∧ u.basedOn = t.basedOn := by
  obtain ⟨u, hu, he⟩ := h.get ht
  refine ⟨u, hu, ?_, ?_⟩
  · have := congrArg Token.value he; simpa using this.symm
  · have := congrArg Token.basedOn he; simpa using this.symm

theorem sameStatic_markBy (P : Nat → Prop) (ts : List Token) : SameStatic (markBy P ts) ts := by
  unfold SameStatic
  apply List.ext_getElem?
  intro i
  simp only [List.getElem?_map, markBy_getElem?, Option.map_map]
  congr 1
  funext t
  by_cases h : P i <;> simp [h, Token.revoke]

theorem derivedFrom_static {a b : List Token} (h : SameStatic a b) {v : String} {i : Nat}
    (hd : DerivedFrom a v i) : DerivedFrom b v i := by
  induction hd with
  | child ht hb =>
    obtain ⟨u, hu, _, hb'⟩ := h.get' ht
    exact .child hu (hb'.trans hb)
  | step _ hp ht hb ih =>
    obtain ⟨p', hp', hv', _⟩ := h.get' hp
    obtain ⟨u, hu, _, hb'⟩ := h.get' ht
    exact .step ih hp' hu (by rw [hb', hb, hv'])

theorem derivedFrom_static_iff {a b : List Token} (h : SameStatic a b) (v : String) (i : Nat) :
    DerivedFrom a v i ↔ DerivedFrom b v i := ⟨derivedFrom_static h, derivedFrom_static h.symm⟩

theorem derivedFrom_lt {ts : List Token} {v : String} {i : Nat} (h : DerivedFrom ts v i) :
    i < ts.length := by
  cases h with
  | child ht _ => exact (List.getElem?_eq_some_iff.1 ht).1
  | step _ _ ht _ => exact (List.getElem?_eq_some_iff.1 ht).1

/-- `DerivedFrom` read from the root: through one of the children of `v`. -/
theorem derivedFrom_iff_child (ts : List Token) (v : String) (i : Nat) :
    DerivedFrom ts v i ↔
      ∃ j p, ts[j]? = some p ∧ p.basedOn = some v ∧ (i = j ∨ DerivedFrom ts p.value i) := by
  constructor
  · intro h
    induction h with
    | child ht hb => exact ⟨_, _, ht, hb, .inl rfl⟩
    | step _ hp ht hb ih =>
      obtain ⟨j', p', hj', hb', hor⟩ := ih
      refine ⟨j', p', hj', hb', .inr ?_⟩
      rcases hor with rfl | hd
      · rw [hp] at hj'; cases hj'; exact .child ht hb
      · exact .step hd hp ht hb
  · rintro ⟨j, p, hj, hb, hor⟩
    rcases hor with rfl | hd
    · exact .child hj hb
    · induction hd with
      | child ht hb' => exact .step (.child hj hb) hj ht hb'
      | step _ hp ht hb' ih => exact .step ih hp ht hb'

theorem ancestry_static {a b : List Token} (h : SameStatic a b) (ha : Ancestry a) : Ancestry b := by
  have hv : a.map Token.value = b.map Token.value := by
    have := congrArg (List.map Token.value) h
    simpa [List.map_map, Function.comp_def] using this
  refine ⟨?_, hv ▸ ha.distinct, ?_⟩
  · intro t ht
    have : t.value ∈ b.map Token.value := List.mem_map_of_mem ht
    rw [← hv] at this
    obtain ⟨u, hu, he⟩ := List.mem_map.1 this
    rw [← he]; exact ha.nonempty u hu
  · intro i t v ht hb
    obtain ⟨u, hu, _, hb'⟩ := h.symm.get' ht
    obtain ⟨j, p, hj, hp, hpv⟩ := ha.earlier i u v hu (hb'.trans hb)
    obtain ⟨p', hp', hv', _⟩ := h.get' hp
    exact ⟨j, p', hj, hp', hv'.trans hpv⟩

/-- In an ancestry in order, a token is based on an earlier position. -/
theorem ancestry_lt {ts : List Token} (h : Ancestry ts) {i j : Nat} {p t : Token}
    (hp : ts[j]? = some p) (ht : ts[i]? = some t) (hb : t.basedOn = some p.value) : j < i := by
  obtain ⟨k, q, hk, hq, hv⟩ := h.earlier i t _ ht hb
  have : k = j := nodup_value_idx h.distinct hq hp hv
  omega

/-! ### the fold -/

theorem foldlM_markBy (base : List Token) (f : List Token → Nat → Except Exc (List Token))
    (Q : Nat → Nat → Prop) (l : List Nat)
    (hf : ∀ acc i, i ∈ l → SameStatic acc base → f acc i = .ok (markBy (Q i) acc)) (acc : List Token)
    (hacc : SameStatic acc base) :
    l.foldlM f acc = .ok (markBy (fun k => ∃ i ∈ l, Q i k) acc) := by
  induction l generalizing acc with
  | nil => simp [markBy_false]; rfl
  | cons i r ih =>
    rw [List.foldlM_cons, hf acc i (by simp) hacc]
    have h1 : SameStatic (markBy (Q i) acc) base := (sameStatic_markBy _ _).trans hacc
    have h2 := ih (fun acc' j hj hs => hf acc' j (List.mem_cons_of_mem _ hj) hs) _ h1
    show (r.foldlM f (markBy (Q i) acc)) = _
    rw [h2, markBy_markBy]
    congr 1
    apply markBy_congr
    intro k
    simp

theorem revokeTokensFuel_basedOn (base : List Token) (hanc : Ancestry base) (fuel : Nat) (v : String)
    (hv : v ≠ "")
    (hfuel : ∀ i t, base[i]? = some t → t.basedOn = some v → base.length - i < fuel) (hpos : 0 < fuel)
    (acc : List Token) (hacc : SameStatic acc base) :
    revokeTokensFuel fuel "" v true acc = .ok (markBy (DerivedFrom base v) acc) := by
  induction fuel generalizing v acc with
  | zero => omega
  | succ fuel ih =>
    unfold revokeTokensFuel
    have key := foldlM_markBy base
      (fun acc' i =>
        match acc[i]? with
        | none => .ok acc'
        | some t =>
          if "" = "" ∧ v = "" then .ok (markAt acc' i)
          else if "" ≠ "" ∧ v ≠ "" then
            if "" = t.value ∧ t.basedOn = some v then .ok (markAt acc' i) else .ok acc'
          else if "" ≠ "" ∧ t.value = "" then
            if true then revokeTokensFuel fuel "" t.value true (markAt acc' i)
            else .ok (markAt acc' i)
          else if v ≠ "" ∧ t.basedOn = some v then
            if true then revokeTokensFuel fuel "" t.value true (markAt acc' i)
            else .ok (markAt acc' i)
          else .ok acc')
      (fun i k => ∃ t, base[i]? = some t ∧ t.basedOn = some v ∧ (k = i ∨ DerivedFrom base t.value k))
      (List.range acc.length) ?_ acc hacc
    · refine key.trans ?_
      congr 1
      apply markBy_congr
      intro k
      rw [derivedFrom_iff_child]
      constructor
      · rintro ⟨i, _, t, h⟩; exact ⟨i, t, h⟩
      · rintro ⟨i, t, h⟩
        refine ⟨i, ?_, t, h⟩
        rw [List.mem_range, hacc.length]
        exact (List.getElem?_eq_some_iff.1 h.1).1
    · intro acc' i hi hs
      simp only []
      rw [List.mem_range] at hi
      have hai : acc[i]? = some acc[i] := List.getElem?_eq_getElem hi
      obtain ⟨u, hu, huv, hub⟩ := hacc.get' hai
      rw [hai]
      simp only [hv, and_false, if_false, ne_eq, not_true_eq_false, false_and, not_false_eq_true,
        true_and, if_true]
      by_cases hb : acc[i].basedOn = some v
      · rw [if_pos hb]
        have hbu : u.basedOn = some v := hub.trans hb
        have hlt := hfuel i u hu hbu
        have hilt : i < base.length := (List.getElem?_eq_some_iff.1 hu).1
        have hne : acc[i].value ≠ "" := by
          rw [← huv]; exact hanc.nonempty u (List.mem_of_getElem? hu)
        rw [ih acc[i].value hne ?_ (by omega) (markAt acc' i)
          (by rw [markAt_eq]; exact (sameStatic_markBy _ _).trans hs)]
        · rw [markAt_eq, markBy_markBy]
          congr 1
          apply markBy_congr
          intro k
          constructor
          · intro h; exact ⟨u, hu, hbu, by rw [huv]; exact h⟩
          · rintro ⟨t, ht, _, h⟩
            rw [hu] at ht; cases ht; rw [← huv]; exact h
        · intro k t hk hkb
          have hik : i < k := ancestry_lt hanc hu hk (by rw [hkb, huv])
          have hkl : k < base.length := (List.getElem?_eq_some_iff.1 hk).1
          omega
      · rw [if_neg hb]
        congr 1
        rw [markBy_congr (Q := fun _ => False), markBy_false]
        intro k
        constructor
        · rintro ⟨t, ht, htb, _⟩
          rw [hu] at ht; cases ht
          exact hb (hub.symm.trans htb)
        · exact False.elim

theorem foldlM_range_markAt (ts : List Token) (P : Token → Prop) [DecidablePred P] :
    (List.range ts.length).foldlM (fun acc i =>
      match ts[i]? with
      | none => (Except.ok acc : Except Exc (List Token))
      | some t => if P t then .ok (markAt acc i) else .ok acc) ts =
      .ok (markBy (fun k => ∃ t, ts[k]? = some t ∧ P t) ts) := by
  have key := foldlM_markBy ts
    (fun acc i =>
      match ts[i]? with
      | none => (Except.ok acc : Except Exc (List Token))
      | some t => if P t then .ok (markAt acc i) else .ok acc)
    (fun i k => k = i ∧ ∃ t, ts[i]? = some t ∧ P t) (List.range ts.length) ?_ ts (SameStatic.refl ts)
  · refine key.trans ?_
    congr 1
    apply markBy_congr
    intro k
    constructor
    · rintro ⟨i, _, rfl, h⟩; exact h
    · rintro ⟨t, ht, h⟩
      exact ⟨k, by rw [List.mem_range]; exact (List.getElem?_eq_some_iff.1 ht).1, rfl, t, ht, h⟩
  · intro acc i hi _
    rw [List.mem_range] at hi
    have hai : ts[i]? = some ts[i] := List.getElem?_eq_getElem hi
    simp only [hai]
    by_cases h : P ts[i]
    · rw [if_pos h, markAt_eq]
      congr 1; apply markBy_congr; intro k; simp [h]
    · rw [if_neg h]
      congr 1
      rw [markBy_congr (Q := fun _ => False), markBy_false]
      intro k; simp [h]

theorem revokeTokensFuel_value (ts : List Token) (hanc : Ancestry ts) (v : String) (hv : v ≠ "") :
    revokeTokensFuel (ts.length + 1) v "" true ts =
      .ok (markBy (fun k => (∃ t, ts[k]? = some t ∧ t.value = v) ∨ DerivedFrom ts v k) ts) := by
  unfold revokeTokensFuel
  have key := foldlM_markBy ts
    (fun acc' i =>
      match ts[i]? with
      | none => .ok acc'
      | some t =>
        if v = "" ∧ "" = "" then .ok (markAt acc' i)
        else if v ≠ "" ∧ "" ≠ "" then
          if v = t.value ∧ t.basedOn = some "" then .ok (markAt acc' i) else .ok acc'
        else if v ≠ "" ∧ t.value = v then
          if true then revokeTokensFuel ts.length "" t.value true (markAt acc' i)
          else .ok (markAt acc' i)
        else if "" ≠ "" ∧ t.basedOn = some "" then
          if true then revokeTokensFuel ts.length "" t.value true (markAt acc' i)
          else .ok (markAt acc' i)
        else .ok acc')
    (fun i k => ∃ t, ts[i]? = some t ∧ t.value = v ∧ (k = i ∨ DerivedFrom ts v k))
    (List.range ts.length) ?_ ts (SameStatic.refl ts)
  · refine key.trans ?_
    congr 1
    apply markBy_congr
    intro k
    constructor
    · rintro ⟨i, _, t, ht, htv, rfl | h⟩
      · exact .inl ⟨t, ht, htv⟩
      · exact .inr h
    · rintro (⟨t, ht, htv⟩ | h)
      · exact ⟨k, by rw [List.mem_range]; exact (List.getElem?_eq_some_iff.1 ht).1, t, ht, htv, .inl rfl⟩
      · -- the root itself is in the list
        have : ∃ (i : Nat) (t : Token), ts[i]? = some t ∧ t.value = v := by
          obtain ⟨j, p, hj, hb, _⟩ := (derivedFrom_iff_child ts v k).1 h
          obtain ⟨i, q, _, hq, hqv⟩ := hanc.earlier j p v hj hb
          exact ⟨i, q, hq, hqv⟩
        obtain ⟨i, t, ht, htv⟩ := this
        exact ⟨i, by rw [List.mem_range]; exact (List.getElem?_eq_some_iff.1 ht).1, t, ht, htv, .inr h⟩
  · intro acc' i hi hs
    simp only []
    rw [List.mem_range] at hi
    have hai : ts[i]? = some ts[i] := List.getElem?_eq_getElem hi
    rw [hai]
    simp only [hv, false_and, if_false, ne_eq, not_true_eq_false, and_false, not_false_eq_true,
      true_and, if_true]
    by_cases hb : ts[i].value = v
    · rw [if_pos hb, hb, revokeTokensFuel_basedOn ts hanc ts.length v hv ?_ (by omega) (markAt acc' i)
        (by rw [markAt_eq]; exact (sameStatic_markBy _ _).trans hs)]
      · rw [markAt_eq, markBy_markBy]
        congr 1
        apply markBy_congr
        intro k
        simp [hb]
      · intro k t hk hkb
        have hik : i < k := ancestry_lt hanc hai hk (by rw [hkb, hb])
        have hkl : k < ts.length := (List.getElem?_eq_some_iff.1 hk).1
        omega
    · rw [if_neg hb]
      congr 1
      rw [markBy_congr (Q := fun _ => False), markBy_false]
      intro k; simp [hb]

theorem revokeTokensFuel_value_nonrec (ts : List Token) (fuel : Nat) (v : String) (hv : v ≠ "") :
    revokeTokensFuel (fuel + 1) v "" false ts =
      .ok (markBy (fun k => ∃ t, ts[k]? = some t ∧ t.value = v) ts) := by
  rw [← foldlM_range_markAt ts (fun t => t.value = v)]
  unfold revokeTokensFuel
  simp [hv]
  congr 1

theorem revokeTokensFuel_based_nonrec (ts : List Token) (fuel : Nat) (v : String) (hv : v ≠ "") :
    revokeTokensFuel (fuel + 1) "" v false ts =
      .ok (markBy (fun k => ∃ t, ts[k]? = some t ∧ t.basedOn = some v) ts) := by
  rw [← foldlM_range_markAt ts (fun t => t.basedOn = some v)]
  unfold revokeTokensFuel
  simp [hv]
  congr 1

theorem revokeTokensFuel_both (ts : List Token) (fuel : Nat) (v b : String) (hv : v ≠ "") (hb : b ≠ "")
    (r : Bool) :
    revokeTokensFuel (fuel + 1) v b r ts =
      .ok (markBy (fun k => ∃ t, ts[k]? = some t ∧ v = t.value ∧ t.basedOn = some b) ts) := by
  rw [← foldlM_range_markAt ts (fun t => v = t.value ∧ t.basedOn = some b)]
  unfold revokeTokensFuel
  simp [hv, hb]
  congr 1

theorem revokeTokensFuel_all (ts : List Token) (fuel : Nat) (r : Bool) :
    revokeTokensFuel (fuel + 1) "" "" r ts = .ok (markBy (fun k => ∃ t, ts[k]? = some t ∧ True) ts) := by
  rw [← foldlM_range_markAt ts (fun _ => True)]
  unfold revokeTokensFuel
  simp
  congr 1

theorem revokedExactly_markBy (S : Nat → Prop) (ts : List Token) : RevokedExactly S ts (markBy S ts) := by
  refine ⟨markBy_length _ _, ?_⟩
  intro i t ht
  by_cases h : S i
  · exact ⟨true, by simp [markBy_getElem?, ht, h, Token.revoke], by simp [h]⟩
  · exact ⟨t.revoked, by simp [markBy_getElem?, ht, h], by simp [h]⟩

theorem revokedExactly_congr {S S' : Nat → Prop} {ts ts' : List Token}
    (h : ∀ i, i < ts.length → (S i ↔ S' i)) (hr : RevokedExactly S ts ts') : RevokedExactly S' ts ts' := by
  refine ⟨hr.1, fun i t ht => ?_⟩
  obtain ⟨r, h1, h2⟩ := hr.2 i t ht
  exact ⟨r, h1, by rw [h2, h i (List.getElem?_eq_some_iff.1 ht).1]⟩

theorem revokeDependentFuel_eq (base : List Token) (hanc : Ancestry base) (fuel : Nat) (v : String)
    (hfuel : ∀ i t, base[i]? = some t → t.basedOn = some v → base.length - i < fuel) (hpos : 0 < fuel)
    (acc : List Token) (hacc : SameStatic acc base) :
    revokeDependentFuel fuel v acc = .ok (markBy (DerivedFrom base v) acc) := by
  induction fuel generalizing v acc with
  | zero => omega
  | succ fuel ih =>
    unfold revokeDependentFuel
    have key := foldlM_markBy base
      (fun acc' i =>
        match acc[i]? with
        | none => .ok acc'
        | some t =>
          if t.basedOn = some v then revokeDependentFuel fuel t.value (markAt acc' i) else .ok acc')
      (fun i k => ∃ t, base[i]? = some t ∧ t.basedOn = some v ∧ (k = i ∨ DerivedFrom base t.value k))
      (List.range acc.length) ?_ acc hacc
    · refine key.trans ?_
      congr 1
      apply markBy_congr
      intro k
      rw [derivedFrom_iff_child]
      constructor
      · rintro ⟨i, _, t, h⟩; exact ⟨i, t, h⟩
      · rintro ⟨i, t, h⟩
        refine ⟨i, ?_, t, h⟩
        rw [List.mem_range, hacc.length]
        exact (List.getElem?_eq_some_iff.1 h.1).1
    · intro acc' i hi hs
      rw [List.mem_range] at hi
      have hai : acc[i]? = some acc[i] := List.getElem?_eq_getElem hi
      obtain ⟨u, hu, huv, hub⟩ := hacc.get' hai
      simp only [hai]
      by_cases hb : acc[i].basedOn = some v
      · rw [if_pos hb]
        have hbu : u.basedOn = some v := hub.trans hb
        have hlt := hfuel i u hu hbu
        have hilt : i < base.length := (List.getElem?_eq_some_iff.1 hu).1
        rw [ih acc[i].value ?_ (by omega) (markAt acc' i)
          (by rw [markAt_eq]; exact (sameStatic_markBy _ _).trans hs)]
        · rw [markAt_eq, markBy_markBy]
          congr 1
          apply markBy_congr
          intro k
          constructor
          · intro h; exact ⟨u, hu, hbu, by rw [huv]; exact h⟩
          · rintro ⟨t, ht, _, h⟩
            rw [hu] at ht; cases ht; rw [← huv]; exact h
        · intro k t hk hkb
          have hik : i < k := ancestry_lt hanc hu hk (by rw [hkb, huv])
          have hkl : k < base.length := (List.getElem?_eq_some_iff.1 hk).1
          omega
      · rw [if_neg hb]
        congr 1
        rw [markBy_congr (Q := fun _ => False), markBy_false]
        intro k
        constructor
        · rintro ⟨t, ht, htb, _⟩
          rw [hu] at ht; cases ht
          exact hb (hub.symm.trans htb)
        · exact False.elim

end OidcOp
