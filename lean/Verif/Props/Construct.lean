/-
Published algorithms: C65.
-/
import Verif.Spec.Construct

namespace OidcOp
open Spec

theorem isInfix_iff (x s : List Char) : isInfix x s = true ↔ ∃ a b, s = a ++ x ++ b := by
  induction s with
  | nil =>
    unfold isInfix
    cases x with
    | nil => simp
    | cons c cs => simp
  | cons c cs ih =>
    unfold isInfix
    rw [Bool.or_eq_true, ih, List.isPrefixOf_iff_prefix]
    constructor
    · rintro (⟨t, h⟩ | ⟨a, b, h⟩)
      · exact ⟨[], t, by simpa using h.symm⟩
      · exact ⟨c :: a, b, by rw [h]; rfl⟩
    · rintro ⟨a, b, h⟩
      cases a with
      | nil => exact .inl ⟨b, by simpa using h.symm⟩
      | cons d a =>
        simp only [List.cons_append, List.cons.injEq] at h
        exact .inr ⟨a, b, by rw [h.2]⟩

theorem occursIn_iff (sub s : String) : isInfix sub.toList s.toList = true ↔ OccursIn sub s := isInfix_iff _ _

/-! ### the order of signing algorithms -/

theorem algRank_ok {a : String} : (∃ n, algRank a = .ok n) ↔ KnownAlg a := by
  unfold KnownAlg Prefix2
  have two : ∀ {x y : Char} {l : List Char}, l.take 2 = [x, y] ↔ ∃ r, l = x :: y :: r := by
    intro x y l
    match l with
    | [] => simp
    | [c] => simp
    | c :: d :: r => simp
  constructor
  · rintro ⟨n, h⟩
    unfold algRank at h
    split at h
    · rename_i e; obtain ⟨r, hr⟩ := two.1 e; exact .inl ⟨r, hr, rfl⟩
    · rename_i e; obtain ⟨r, hr⟩ := two.1 e; exact .inr (.inl ⟨r, hr, rfl⟩)
    · rename_i e; obtain ⟨r, hr⟩ := two.1 e; exact .inr (.inr (.inl ⟨r, hr, rfl⟩))
    · rename_i e; obtain ⟨r, hr⟩ := two.1 e; exact .inr (.inr (.inr (.inl ⟨r, hr, rfl⟩)))
    · rename_i e; obtain ⟨r, hr⟩ := two.1 e; exact .inr (.inr (.inr (.inr ⟨r, hr, rfl⟩)))
    · cases h
  · rintro (⟨r, h, _⟩ | ⟨r, h, _⟩ | ⟨r, h, _⟩ | ⟨r, h, _⟩ | ⟨r, h, _⟩)
    · exact ⟨0, by unfold algRank; rw [h]; rfl⟩
    · exact ⟨1, by unfold algRank; rw [h]; rfl⟩
    · exact ⟨2, by unfold algRank; rw [h]; rfl⟩
    · exact ⟨3, by unfold algRank; rw [h]; rfl⟩
    · exact ⟨4, by unfold algRank; rw [h]; rfl⟩

theorem algRank_rs {a : String} : algRank a = .ok 0 ↔ Prefix2 "RS" a := by
  constructor
  · intro h
    unfold algRank at h
    split at h
    · rename_i e
      match hl : a.toList with
      | [] => rw [hl] at e; cases e
      | [c] => rw [hl] at e; cases e
      | c :: d :: r =>
        rw [hl] at e
        simp only [List.take_succ_cons, List.take_zero, List.cons.injEq, and_true] at e
        exact ⟨r, by rw [hl, e.1, e.2]; rfl, rfl⟩
    all_goals cases h
  · rintro ⟨r, h, _⟩
    unfold algRank
    rw [h]
    rfl

theorem string_tri (a b : String) : a < b ∨ b < a ∨ a = b := by
  by_cases h : a < b
  · exact .inl h
  · by_cases h' : b < a
    · exact .inr (.inl h')
    · exact .inr (.inr (String.le_antisymm (String.not_lt.1 h') (String.not_lt.1 h)))

theorem before_iff {a b : String} {m n : Nat} (ha : algRank a = .ok m) (hb : algRank b = .ok n) :
    Before a b ↔ m < n ∨ (m = n ∧ a ≤ b) := by
  unfold Before sortSignAlg
  rw [ha, hb]
  simp only []
  by_cases h1 : m < n
  · simp [h1]
  · by_cases h2 : n < m
    · have : m ≠ n := by omega
      simp [h1, h2, this]
    · have : m = n := by omega
      subst this
      simp only [Nat.lt_irrefl, if_false, gt_iff_lt]
      by_cases h3 : a < b
      · have := String.not_lt.1 (fun h => String.lt_irrefl a (String.lt_trans h3 h))
        simp [h3, this]
      · by_cases h4 : b < a
        · simp [h3, h4, String.not_le.2 h4]
        · simp [h3, h4, String.not_lt.1 h4]

theorem after_iff {a b : String} {m n : Nat} (ha : algRank a = .ok m) (hb : algRank b = .ok n) :
    sortSignAlg a b = .ok 1 ↔ ¬ Before a b := by
  rw [before_iff ha hb]
  unfold sortSignAlg
  rw [ha, hb]
  simp only []
  by_cases h1 : m < n
  · simp [h1]
  · by_cases h2 : n < m
    · have : m ≠ n := by omega
      simp [h1, h2, this]
    · have : m = n := by omega
      subst this
      simp only [Nat.lt_irrefl, if_false, gt_iff_lt]
      by_cases h3 : a < b
      · have := String.not_lt.1 (fun h => String.lt_irrefl a (String.lt_trans h3 h))
        simp [h3, this]
      · by_cases h4 : b < a
        · simp [h3, h4, String.not_le.2 h4]
        · simp [h3, h4, String.not_lt.1 h4]

/-- C65.  `sort_sign_alg` is a total order on the known algorithms, and RS comes before all others.  For other names it
fails. -/
theorem C65_order :
    (∀ a b, KnownAlg a → KnownAlg b → Before a b ∨ Before b a) ∧
    (∀ a b, Before a b → Before b a → a = b) ∧
    (∀ a b c, Before a b → Before b c → Before a c) ∧
    (∀ a b, Prefix2 "RS" a → KnownAlg b → ¬ Prefix2 "RS" b → sortSignAlg a b = .ok (-1)) ∧
    (∀ a b, ¬ (KnownAlg a ∧ KnownAlg b) → sortSignAlg a b = .error .keyError) := by
  have known : ∀ {a b}, Before a b → (∃ m, algRank a = .ok m) ∧ ∃ n, algRank b = .ok n := by
    intro a b h
    unfold Before sortSignAlg at h
    cases ha : algRank a <;> cases hb : algRank b <;> rw [ha, hb] at h <;> simp at h ⊢
  refine ⟨?_, ?_, ?_, ?_, ?_⟩
  · intro a b ha hb
    obtain ⟨m, hm⟩ := algRank_ok.2 ha
    obtain ⟨n, hn⟩ := algRank_ok.2 hb
    rw [before_iff hm hn, before_iff hn hm]
    rcases Nat.lt_trichotomy m n with h | h | h
    · exact .inl (.inl h)
    · rcases String.le_total a b with h' | h'
      · exact .inl (.inr ⟨h, h'⟩)
      · exact .inr (.inr ⟨h.symm, h'⟩)
    · exact .inr (.inl h)
  · intro a b h h'
    obtain ⟨⟨m, hm⟩, n, hn⟩ := known h
    rw [before_iff hm hn] at h
    rw [before_iff hn hm] at h'
    rcases h with h | ⟨_, h⟩ <;> rcases h' with h' | ⟨_, h'⟩ <;> first | omega | skip
    exact String.le_antisymm h h'
  · intro a b c h h'
    obtain ⟨⟨m, hm⟩, n, hn⟩ := known h
    obtain ⟨_, k, hk⟩ := known h'
    rw [before_iff hm hn] at h
    rw [before_iff hn hk] at h'
    rw [before_iff hm hk]
    rcases h with h | ⟨e, h⟩ <;> rcases h' with h' | ⟨e', h'⟩
    · exact .inl (by omega)
    · exact .inl (by omega)
    · exact .inl (by omega)
    · exact .inr ⟨by omega, String.le_trans h h'⟩
  · intro a b ha hb hnb
    have hm := algRank_rs.2 ha
    obtain ⟨n, hn⟩ := algRank_ok.2 hb
    have : 0 < n := by
      rcases Nat.eq_zero_or_pos n with rfl | h
      · exact absurd (algRank_rs.1 hn) hnb
      · exact h
    unfold sortSignAlg
    rw [hm, hn]
    simp [this]
  · intro a b h
    unfold sortSignAlg
    cases ha : algRank a with
    | error e => simp
    | ok m =>
      cases hb : algRank b with
      | error e => simp
      | ok n => exact absurd ⟨algRank_ok.1 ⟨m, ha⟩, algRank_ok.1 ⟨n, hb⟩⟩ h

theorem insertAlg_perm (x : String) (l : List String) : (insertAlg x l).Perm (x :: l) := by
  induction l with
  | nil => exact List.Perm.refl _
  | cons y ys ih =>
    unfold insertAlg
    split
    · exact (ih.cons y).trans (List.Perm.swap _ _ _)
    · exact List.Perm.refl _

theorem insertAlg_sorted {x : String} {l : List String} (hx : KnownAlg x) (hl : ∀ y ∈ l, KnownAlg y)
    (h : l.Pairwise Before) : (insertAlg x l).Pairwise Before := by
  obtain ⟨m, hm⟩ := algRank_ok.2 hx
  induction l with
  | nil => exact List.pairwise_singleton _ _
  | cons y ys ih =>
    obtain ⟨n, hn⟩ := algRank_ok.2 (hl y List.mem_cons_self)
    obtain ⟨h1, h2⟩ := List.pairwise_cons.1 h
    unfold insertAlg
    split
    · rename_i ha
      refine List.pairwise_cons.2 ⟨fun z hz => ?_, ih (fun z hz => hl z (List.mem_cons_of_mem _ hz)) h2⟩
      rcases List.mem_cons.1 ((insertAlg_perm x ys).mem_iff.1 hz) with rfl | hz
      · rcases C65_order.1 z y hx (hl y List.mem_cons_self) with hb | hb
        · exact absurd hb ((after_iff hm hn).1 ha)
        · exact hb
      · exact h1 z hz
    · rename_i ha
      have hb : Before x y := Classical.byContradiction (fun hb => ha ((after_iff hm hn).2 hb))
      refine List.pairwise_cons.2 ⟨fun z hz => ?_, h⟩
      rcases List.mem_cons.1 hz with rfl | hz
      · exact hb
      · exact C65_order.2.2.1 _ _ _ hb (h1 z hz)

theorem sortedAlgs_perm {algs l : List String} (h : sortedAlgs algs = .ok l) : l.Perm algs := by
  have fold : ∀ as : List String, (as.foldr insertAlg []).Perm as := by
    intro as
    induction as with
    | nil => exact List.Perm.refl _
    | cons a as ih => exact (insertAlg_perm a _).trans (ih.cons a)
  unfold sortedAlgs at h
  split at h
  · cases h; exact List.Perm.refl _
  · cases h; exact List.Perm.refl _
  · split at h
    · cases h; exact fold _
    · cases h

/-- C65.  The signing algorithms are published in order: the same algorithms, none before one that should precede it; in
particular no RS algorithm comes after another kind. -/
theorem C65_sorted (lib : CryptoAlgs) (l : List String) (h : assignAlgorithms lib .signing = .ok l) :
    l.Perm lib.sign ∧ l.Pairwise Before ∧ l.Pairwise (fun a b => Prefix2 "RS" b → Prefix2 "RS" a ∨ ¬ KnownAlg a) := by
  have h' : sortedAlgs lib.sign = .ok l := h
  have hp := sortedAlgs_perm h'
  have hs : l.Pairwise Before := by
    unfold sortedAlgs at h'
    split at h'
    · cases h'; exact .nil
    · cases h'; exact List.pairwise_singleton _ _
    · rename_i algs _ _
      split at h'
      · rename_i hall
        cases h'
        have hk : ∀ a ∈ lib.sign, KnownAlg a := by
          intro a ha
          have := List.all_eq_true.1 hall a ha
          cases hr : algRank a with
          | ok n => exact algRank_ok.1 ⟨n, hr⟩
          | error e => rw [hr] at this; cases this
        clear hall hp h
        have : ∀ as : List String, (∀ a ∈ as, KnownAlg a) → (as.foldr insertAlg []).Pairwise Before ∧ ∀ a ∈ as.foldr insertAlg [], KnownAlg a := by
          intro as
          induction as with
          | nil => intro _; exact ⟨.nil, fun _ h => by cases h⟩
          | cons a as ih =>
            intro hk
            obtain ⟨h1, h2⟩ := ih (fun x hx => hk x (List.mem_cons_of_mem _ hx))
            refine ⟨insertAlg_sorted (hk a List.mem_cons_self) h2 h1, fun x hx => ?_⟩
            rcases List.mem_cons.1 ((insertAlg_perm a _).mem_iff.1 hx) with rfl | hx
            · exact hk x List.mem_cons_self
            · exact h2 x hx
        exact (this _ hk).1
      · cases h'
  refine ⟨hp, hs, hs.imp ?_⟩
  intro a b hab hb
  by_cases ha : Prefix2 "RS" a
  · exact .inl ha
  · refine .inr (fun hk => ?_)
    have := C65_order.2.2.2.1 b a hb hk ha
    have e := C65_order.2.1 a b hab (.inl this)
    exact ha (e ▸ hb)

/-! ### what is published -/

theorem about_kind {lib : CryptoAlgs} {attr : String} {algs : List String} (h : AlgsAbout lib attr algs) :
    ∃ k, algKind attr = some k ∧ ∀ l, assignAlgorithms lib k = .ok l → l.Perm algs := by
  unfold algKind
  cases h with
  | sign h =>
    rw [if_pos ((occursIn_iff _ _).2 h)]
    exact ⟨_, rfl, fun l hl => sortedAlgs_perm hl⟩
  | alg h1 h2 =>
    rw [if_neg (fun e => h1 ((occursIn_iff _ _).1 e)), if_pos ((occursIn_iff _ _).2 h2)]
    exact ⟨_, rfl, fun l hl => by cases hl; exact List.Perm.refl _⟩
  | enc h1 h2 h3 =>
    rw [if_neg (fun e => h1 ((occursIn_iff _ _).1 e)), if_neg (fun e => h2 ((occursIn_iff _ _).1 e)),
      if_pos ((occursIn_iff _ _).2 h3)]
    exact ⟨_, rfl, fun l hl => by cases hl; exact List.Perm.refl _⟩

theorem allFrom_of_within {permitted : List String} {v : Json} (h : withinPermitted permitted v = .ok true) :
    AllFrom permitted v := by
  unfold withinPermitted at h
  cases he : elements v with
  | error e => rw [he] at h; cases h
  | ok l =>
    rw [he] at h
    simp only [] at h
    split at h
    · cases h
    · simp only [Except.ok.injEq] at h
      have key : ∀ x ∈ l, ∃ a ∈ permitted, x = .str a := by
        intro x hx
        have := List.all_eq_true.1 h x hx
        obtain ⟨a, ha, hd⟩ := List.any_eq_true.1 this
        exact ⟨a, ha, of_decide_eq_true hd⟩
      unfold elements at he
      split at he
      · cases he; exact key
      · rename_i s
        cases he
        intro c hc
        obtain ⟨a, ha, e⟩ := key (.str (String.ofList [c])) (List.mem_map_of_mem hc)
        cases e; exact ha
      · rename_i d
        cases he
        intro p hp
        obtain ⟨a, ha, e⟩ := key (.str p.1) (List.mem_map_of_mem (f := fun p : String × Json => Json.str p.1) hp)
        cases e; exact ha
      · cases he

theorem allFrom_perm {l l' : List String} {v : Json} (h : AllFrom l v) (hp : l.Perm l') : AllFrom l' v := by
  cases v with
  | arr a => exact fun x hx => let ⟨b, hb, e⟩ := h x hx; ⟨b, hp.mem_iff.1 hb, e⟩
  | obj d => exact fun p hpp => hp.mem_iff.1 (h p hpp)
  | str s => exact fun c hc => hp.mem_iff.1 (h c hc)
  | _ => exact h

theorem loop_mem {lib : CryptoAlgs} {kwargs caps : Dict Json} {info out : Dict Json} {attr : String} {v : Json}
    (h : endpointInfoLoop lib kwargs caps info = .ok out) (hv : out.get? attr = some v) :
    info.get? attr = some v ∨ ∃ d, (attr, d) ∈ caps ∧ endpointAttr lib kwargs attr d = .ok (some v) := by
  induction caps generalizing info with
  | nil => cases h; exact .inl hv
  | cons p rest ih =>
    obtain ⟨a, d⟩ := p
    unfold endpointInfoLoop at h
    cases he : endpointAttr lib kwargs a d with
    | error e => rw [he] at h; cases h
    | ok o =>
      rw [he] at h
      cases o with
      | none =>
        rcases ih h with h1 | ⟨d', h1, h2⟩
        · exact .inl h1
        · exact .inr ⟨d', List.mem_cons_of_mem _ h1, h2⟩
      | some x =>
        rcases ih h with h1 | ⟨d', h1, h2⟩
        · rw [Dict.get?_set] at h1
          split at h1
          · rename_i e
            subst e
            cases h1
            exact .inr ⟨d, List.mem_cons_self, he⟩
          · exact .inl h1
        · exact .inr ⟨d', List.mem_cons_of_mem _ h1, h2⟩

/-- The value of an attribute came about in one of two ways. -/
theorem endpointAttr_some {lib : CryptoAlgs} {kwargs : Dict Json} {attr : String} {d v : Json}
    (h : endpointAttr lib kwargs attr d = .ok (some v)) :
    (∃ x, kwargs.get? attr = some x ∧ proposed lib attr x = .ok v) ∨
    (kwargs.get? attr = none ∧ defaultFor lib attr d = .ok (some v)) := by
  unfold endpointAttr at h
  cases hk : kwargs.get? attr with
  | some x =>
    rw [hk] at h
    simp only [] at h
    cases hp : proposed lib attr x with
    | error e => rw [hp] at h; cases h
    | ok y =>
      rw [hp] at h
      simp only [] at h
      split at h
      · cases h; exact .inl ⟨x, rfl, hp⟩
      · cases h
  | none =>
    rw [hk] at h
    simp only [] at h
    cases hp : defaultFor lib attr d with
    | error e => rw [hp] at h; cases h
    | ok y =>
      rw [hp] at h
      simp only [] at h
      split at h
      · cases h; exact .inr ⟨rfl, rfl⟩
      · cases h

/-- C65.  Whatever is configured, if the information about an endpoint can be constructed at all, the algorithms published
are ones the library supports; unless the endpoint class itself comes with another value and nothing is configured. -/
theorem C65_permitted (lib : CryptoAlgs) (hs : lib.sign ≠ []) (ha : lib.alg ≠ []) (he : lib.enc ≠ []) (caps kwargs info : Dict Json)
    (h : constructEndpointInfo lib caps kwargs = .ok info) (attr : String) (algs : List String) (hab : AlgsAbout lib attr algs)
    (v : Json) (hv : info.get? attr = some v) :
    AllFrom algs v ∨ (kwargs.get? attr = none ∧ v ≠ .null ∧ (attr, v) ∈ caps) := by
  rcases loop_mem h hv with h1 | ⟨d, hd, h1⟩
  · cases h1
  obtain ⟨k, hk, hperm⟩ := about_kind hab
  have hne : algs ≠ [] := by cases hab <;> assumption
  rcases endpointAttr_some h1 with ⟨x, hx, hp⟩ | ⟨hx, hp⟩
  · left
    unfold proposed at hp
    rw [hk] at hp
    simp only [] at hp
    split at hp
    · cases hp
    · rename_i hl
      have := (hperm _ hl).length_eq
      cases algs with
      | nil => exact absurd rfl hne
      | cons => simp at this
    · rename_i l hn hl
      split at hp
      · cases hp
      · rename_i hw
        cases hp
        exact allFrom_perm (allFrom_of_within hw) (hperm _ hl)
      · cases hp
  · unfold defaultFor at hp
    split at hp
    · rename_i hd0
      cases hp
      exact .inr ⟨hx, hd0, hd⟩
    · left
      rw [hk] at hp
      cases k with
      | signing =>
        simp only [] at hp
        split at hp
        · cases hp
        · rename_i l hl
          cases hp
          intro x hxx
          obtain ⟨a, haa, rfl⟩ := List.mem_map.1 hxx
          exact ⟨a, (hperm _ hl).mem_iff.1 (List.mem_of_mem_erase haa), rfl⟩
      | encAlg =>
        cases hp
        intro x hxx
        obtain ⟨a, haa, rfl⟩ := List.mem_map.1 hxx
        exact ⟨a, (hperm _ rfl).mem_iff.1 ((List.mem_filter.1 haa).1), rfl⟩
      | encEnc =>
        cases hp
        intro x hxx
        obtain ⟨a, haa, rfl⟩ := List.mem_map.1 hxx
        exact ⟨a, (hperm _ rfl).mem_iff.1 haa, rfl⟩

/-- C65.  A proposal with a value that is not supported is refused: nothing is published. -/
theorem C65_refused (lib : CryptoAlgs) (hs : lib.sign ≠ []) (ha : lib.alg ≠ []) (he : lib.enc ≠ []) (caps kwargs : Dict Json)
    (attr : String) (d : Json) (hc : (attr, d) ∈ caps) (algs : List String) (hab : AlgsAbout lib attr algs)
    (x : Json) (hx : kwargs.get? attr = some x) (hn : ¬ AllFrom algs x) :
    ∃ e, constructEndpointInfo lib caps kwargs = .error e := by
  have fail : ∀ info, ∃ e, endpointInfoLoop lib kwargs caps info = .error e := by
    induction caps with
    | nil => cases hc
    | cons p rest ih =>
      obtain ⟨a, d'⟩ := p
      intro info
      unfold endpointInfoLoop
      cases hat : endpointAttr lib kwargs a d' with
      | error e => exact ⟨e, rfl⟩
      | ok o =>
        rcases List.mem_cons.1 hc with e | hc'
        · cases e
          exfalso
          apply hn
          cases o with
          | none =>
            unfold endpointAttr at hat
            rw [hx] at hat
            simp only [] at hat
            cases hp : proposed lib attr x with
            | error e => rw [hp] at hat; cases hat
            | ok y => rw [hp] at hat; simp only [] at hat; split at hat <;> cases hat
          | some v =>
            have h1 : constructEndpointInfo lib [(attr, d)] kwargs = .ok (Dict.set [] attr v) := by
              unfold constructEndpointInfo endpointInfoLoop
              rw [hat]
              rfl
            have := C65_permitted lib hs ha he _ _ _ h1 attr algs hab v (by rw [Dict.get?_set, if_pos rfl])
            rcases this with h2 | ⟨h2, _⟩
            · rcases endpointAttr_some hat with ⟨y, hy, hp⟩ | ⟨hy, _⟩
              · rw [hx] at hy; cases hy
                have : v = x := by
                  unfold proposed at hp
                  repeat' split at hp
                  all_goals first | cases hp | skip
                  all_goals rfl
                rw [← this]; exact h2
              · rw [hx] at hy; cases hy
            · rw [hx] at h2; cases h2
        · cases o <;> exact ih hc' _
  exact fail []

/-- C65.  What is not configured comes without "none" and, among the key management algorithms, without RSA1_5. -/
theorem C65_no_weak_default (lib : CryptoAlgs) (hnd : lib.sign.Nodup) (caps kwargs info : Dict Json)
    (h : constructEndpointInfo lib caps kwargs = .ok info) (attr : String) (hk : kwargs.get? attr = none)
    (hcap : ∀ d, (attr, d) ∈ caps → d = .null) (v : Json) (hv : info.get? attr = some v) :
    (OccursIn "signing_alg_values_supported" attr → ∃ l : List String, v = .arr (l.map .str) ∧ "none" ∉ l) ∧
    (¬ OccursIn "signing_alg_values_supported" attr → OccursIn "encryption_alg_values_supported" attr →
      ∃ l : List String, v = .arr (l.map .str) ∧ "none" ∉ l ∧ "RSA1_5" ∉ l) := by
  rcases loop_mem h hv with h1 | ⟨d, hd, h1⟩
  · cases h1
  rcases endpointAttr_some h1 with ⟨x, hx, _⟩ | ⟨_, hp⟩
  · rw [hk] at hx; cases hx
  rw [hcap d hd] at hp
  unfold defaultFor at hp
  simp only [ne_eq, not_true_eq_false, if_false] at hp
  constructor
  · intro ho
    have : algKind attr = some .signing := by unfold algKind; rw [if_pos ((occursIn_iff _ _).2 ho)]
    rw [this] at hp
    simp only [] at hp
    split at hp
    · cases hp
    · rename_i l hl
      cases hp
      refine ⟨_, rfl, ?_⟩
      exact ((sortedAlgs_perm hl).nodup_iff.2 hnd).not_mem_erase
  · intro hno ho
    have : algKind attr = some .encAlg := by
      unfold algKind
      rw [if_neg (fun e => hno ((occursIn_iff _ _).1 e)), if_pos ((occursIn_iff _ _).2 ho)]
    rw [this] at hp
    cases hp
    refine ⟨_, rfl, ?_, ?_⟩
    · intro hm
      have := List.mem_filter.1 hm
      exact absurd this.2 (by decide)
    · intro hm
      have := List.mem_filter.1 hm
      exact absurd this.2 (by decide)

namespace Ex

def cryptoLib : CryptoAlgs :=
  { sign := ["HS256", "none", "RS512", "ES256", "RS256"], alg := ["RSA1_5", "RSA-OAEP"], enc := ["A128GCM"] }

def sampleCaps : Dict Json :=
  [("userinfo_signing_alg_values_supported", .null), ("userinfo_encryption_alg_values_supported", .null),
   ("claims_parameter_supported", .bool true)]

example : constructEndpointInfo cryptoLib sampleCaps [] = .ok
    [("userinfo_signing_alg_values_supported", .arr [.str "RS256", .str "RS512", .str "ES256", .str "HS256"]),
     ("userinfo_encryption_alg_values_supported", .arr [.str "RSA-OAEP"]), ("claims_parameter_supported", .bool true)] := by
  decide +kernel

/-- A weak algorithm can be configured. -/
example : constructEndpointInfo cryptoLib sampleCaps [("userinfo_signing_alg_values_supported", .arr [.str "none", .str "ES256"])] = .ok
    [("userinfo_signing_alg_values_supported", .arr [.str "none", .str "ES256"]),
     ("userinfo_encryption_alg_values_supported", .arr [.str "RSA-OAEP"]), ("claims_parameter_supported", .bool true)] := by
  decide +kernel

/-- An unknown one cannot, nor can a value that is not a list. -/
example : constructEndpointInfo cryptoLib sampleCaps [("userinfo_signing_alg_values_supported", .arr [.str "XX256"])] = .error .valueError ∧
    constructEndpointInfo cryptoLib sampleCaps [("userinfo_signing_alg_values_supported", .str "RS256")] = .error .valueError ∧
    constructEndpointInfo cryptoLib sampleCaps [("userinfo_signing_alg_values_supported", .null)] = .error .typeError := by
  decide +kernel

example : AlgsAbout cryptoLib "userinfo_signing_alg_values_supported" cryptoLib.sign :=
  .sign ⟨"userinfo_".toList, [], by decide⟩

example : KnownAlg "RS256" ∧ KnownAlg "none" ∧ sortSignAlg "RS256" "none" = .ok (-1) := by
  refine ⟨.inl ⟨"256".toList, rfl, rfl⟩, .inr (.inr (.inr (.inr ⟨"ne".toList, rfl, rfl⟩))), by decide⟩

end Ex
end OidcOp
