/-
C126: a pushed authorization request is used once, also by requests that are served at the same time.
C127: the same for client assertions, as far as it goes.
-/
import Verif.Spec.Concurrent

namespace OidcOp
open Spec

theorem countP_set {α : Type} (f : α → Bool) (l : List α) {i : Nat} {x y : α} (h : l[i]? = some x) :
    (l.set i y).countP f + (f x).toNat = l.countP f + (f y).toNat := by
  induction l generalizing i with
  | nil => simp at h
  | cons a r ih =>
    cases i with
    | zero =>
      simp at h
      subst h
      simp only [List.set_cons_zero, List.countP_cons]
      cases f a <;> cases f y <;> simp
    | succ i =>
      simp at h
      have := ih h
      simp only [List.set_cons_succ, List.countP_cons]
      omega

/-- What holds of the threads and of what they share. -/
structure PushInv (urn : Nat → String) (s : ParWorld) (rs : List AuthzReq) : Prop where
  len : s.pushes = rs.length
  one : ∀ k, k < s.pushes → s.threads.countP (wentOn (urn k)) + (s.par.has (urn k)).toNat = 1
  none : ∀ uri, (∀ k, k < s.pushes → uri ≠ urn k) → s.threads.countP (wentOn uri) + (s.par.has uri).toNat = 0
  kept : ∀ uri r, s.par.get? uri = some r → ∃ k, uri = urn k ∧ rs[k]? = some r
  held : ∀ t ∈ s.threads, ∀ r, t.2 = .drop r ∨ t.2 = .goesOn r → ∃ k, t.1 = urn k ∧ rs[k]? = some r

theorem pushInv_step {urn : Nat → String} (hu : ∀ i j, urn i = urn j → i = j) {s : ParWorld} {rs : List AuthzReq} (h : PushInv urn s rs)
    (op : ParOp) : PushInv urn (parStep urn s op) (rs ++ pushedIn [op]) := by
  cases op with
  | push r =>
    have hnew : ∀ k, k < s.pushes → urn s.pushes ≠ urn k := fun k hk he => by have := hu _ _ he; omega
    have h0 := h.none (urn s.pushes) hnew
    refine ⟨by simp [parStep, pushedIn, h.len], ?_, ?_, ?_, ?_⟩
    · intro k hk
      show s.threads.countP _ + ((s.par.set (urn s.pushes) r).has (urn k)).toNat = 1
      rw [Dict.has_set]
      replace hk : k < s.pushes + 1 := hk
      by_cases he : k = s.pushes
      · subst he
        have hz : s.threads.countP (wentOn (urn s.pushes)) = 0 := by omega
        rw [hz]
        simp
      · have h1 := h.one k (by omega)
        have hne : urn s.pushes ≠ urn k := fun e => he (hu _ _ e).symm
        simp [hne]
        exact h1
    · intro uri hk
      show s.threads.countP _ + ((s.par.set (urn s.pushes) r).has uri).toNat = 0
      rw [Dict.has_set]
      have h1 := h.none uri (fun k hk' => hk k (Nat.lt_succ_of_lt hk'))
      have hne : uri ≠ urn s.pushes := hk _ (Nat.lt_succ_self _)
      simp [hne.symm]
      simpa using h1
    · intro uri r' hg
      have hg' : (s.par.set (urn s.pushes) r).get? uri = some r' := hg
      rw [Dict.get?_set] at hg'
      by_cases he : urn s.pushes = uri
      · rw [if_pos (by first | exact he | exact he.symm)] at hg'
        cases hg'
        exact ⟨s.pushes, he.symm, by simp [pushedIn, h.len]⟩
      · rw [if_neg (by first | exact he | exact fun e => he e.symm)] at hg'
        obtain ⟨k, h1, h2⟩ := h.kept uri r' hg'
        exact ⟨k, h1, by rw [List.getElem?_append_left (List.getElem?_eq_some_iff.1 h2).1]; exact h2⟩
    · intro t ht r' hr
      obtain ⟨k, h1, h2⟩ := h.held t ht r' hr
      exact ⟨k, h1, by rw [List.getElem?_append_left (List.getElem?_eq_some_iff.1 h2).1]; exact h2⟩
  | comes uri =>
    have hp : rs ++ pushedIn [.comes uri] = rs := by simp [pushedIn]
    rw [hp]
    have hc : ∀ x, (s.threads ++ [(uri, ParAt.look)]).countP (wentOn x) = s.threads.countP (wentOn x) := by
      intro x
      rw [List.countP_append]
      simp [wentOn]
    refine ⟨h.len, fun k hk => ?_, fun x hk => ?_, h.kept, ?_⟩
    · show (s.threads ++ [(uri, ParAt.look)]).countP _ + _ = 1
      rw [hc]; exact h.one k hk
    · show (s.threads ++ [(uri, ParAt.look)]).countP _ + _ = 0
      rw [hc]; exact h.none x hk
    · intro t ht r hr
      rcases List.mem_append.1 ht with ht | ht
      · exact h.held t ht r hr
      · simp at ht
        subst ht
        rcases hr with hr | hr <;> cases hr
  | go i =>
    have hp : rs ++ pushedIn [.go i] = rs := by simp [pushedIn]
    rw [hp]
    cases hi : s.threads[i]? with
    | none => simp only [parStep, hi]; exact h
    | some ta =>
      obtain ⟨uri, a⟩ := ta
      simp only [parStep, hi]
      have hmem := List.mem_of_getElem? hi
      have hcnt := fun x => countP_set (wentOn x) s.threads (y := (uri, (parGo s.par uri a).2)) hi
      have hkey : ∀ x, (s.threads.set i (uri, (parGo s.par uri a).2)).countP (wentOn x) + ((parGo s.par uri a).1.has x).toNat =
          s.threads.countP (wentOn x) + (s.par.has x).toNat := by
        intro x
        have hx := hcnt x
        revert hx
        cases a with
        | look =>
          unfold parGo
          cases hq : s.par.get? uri with
          | none => intro hx; simp [wentOn] at hx ⊢; omega
          | some r => intro hx; simp [wentOn] at hx ⊢; omega
        | drop r =>
          unfold parGo
          by_cases hh : s.par.has uri = true
          · simp only [hh, if_true]
            intro hx
            rw [Dict.has_erase]
            by_cases he : uri = x
            · subst he
              simp [wentOn] at hx ⊢
              rw [hh]
              simpa using hx
            · simp [wentOn, he] at hx ⊢
              omega
          · simp only [hh]
            intro hx
            simp [wentOn] at hx ⊢
            omega
        | goesOn r => unfold parGo; intro hx; simp only [] at hx ⊢; omega
        | failed => unfold parGo; intro hx; simp only [] at hx ⊢; omega
      refine ⟨h.len, fun k hk => ?_, fun x hk => ?_, ?_, ?_⟩
      · exact (hkey _).trans (h.one k hk)
      · exact (hkey _).trans (h.none x hk)
      · intro x r hg
        refine h.kept x r ?_
        revert hg
        cases a with
        | look => unfold parGo; cases s.par.get? uri <;> exact id
        | drop r' =>
          unfold parGo
          by_cases hh : s.par.has uri = true
          · simp only [hh, if_true]
            intro hg
            rw [Dict.get?_erase] at hg
            split at hg
            · cases hg
            · exact hg
          · simp only [hh]; exact id
        | goesOn r' => exact id
        | failed => exact id
      · intro t ht r hr
        rcases List.mem_or_eq_of_mem_set ht with ht | rfl
        · exact h.held t ht r hr
        · simp only [] at hr ⊢
          revert hr
          cases a with
          | look =>
            unfold parGo
            cases hq : s.par.get? uri with
            | none => intro hr; rcases hr with hr | hr <;> cases hr
            | some r' =>
              intro hr
              rcases hr with hr | hr
              · cases hr; exact h.kept uri r hq
              · cases hr
          | drop r' =>
            unfold parGo
            by_cases hh : s.par.has uri = true
            · simp only [hh, if_true]
              intro hr
              rcases hr with hr | hr
              · cases hr
              · cases hr; exact h.held _ hmem _ (.inl rfl)
            · simp only [hh]
              intro hr; rcases hr with hr | hr <;> cases hr
          | goesOn r' =>
            intro hr
            rcases hr with hr | hr
            · cases hr
            · cases hr; exact h.held _ hmem _ (.inr rfl)
          | failed => intro hr; rcases hr with hr | hr <;> cases hr

theorem pushInv_run {urn : Nat → String} (hu : ∀ i j, urn i = urn j → i = j) (ops : List ParOp) :
    PushInv urn (parRun urn ops) (pushedIn ops) := by
  unfold parRun
  have gen : ∀ (s : ParWorld) rs, PushInv urn s rs → PushInv urn (ops.foldl (parStep urn) s) (rs ++ pushedIn ops) := by
    induction ops with
    | nil => intro s rs h; simpa [pushedIn] using h
    | cons op ops ih =>
      intro s rs h
      have := ih _ _ (pushInv_step hu h op)
      rw [List.append_assoc] at this
      have he : pushedIn [op] ++ pushedIn ops = pushedIn (op :: ops) := by
        unfold pushedIn
        rw [← List.filterMap_append]; rfl
      rw [he] at this
      exact this
  have := gen {} [] ⟨rfl, fun k hk => (by cases hk), fun _ _ => rfl, fun _ _ h => (by cases h), fun _ h => (by cases h)⟩
  simpa using this

/-- C126.  However many requests with the URN of a pushed request are served at the same time, and in whatever order their threads take
turns, at most one of them goes on with it. -/
theorem C126_at_most_one (urn : Nat → String) (hu : ∀ i j, urn i = urn j → i = j) (ops : List ParOp) (uri : String) :
    (parRun urn ops).threads.countP (wentOn uri) ≤ 1 := by
  have h := pushInv_run hu ops
  by_cases hk : ∃ k, k < (parRun urn ops).pushes ∧ uri = urn k
  · obtain ⟨k, h1, rfl⟩ := hk
    have := h.one k h1
    omega
  · have := h.none uri (fun k hk' he => hk ⟨k, hk', he⟩)
    omega

/-- C126.  A thread that goes on does so with the request that was pushed under the URN it was asked for. -/
theorem C126_as_pushed (urn : Nat → String) (hu : ∀ i j, urn i = urn j → i = j) (ops : List ParOp) (uri : String) (r : AuthzReq)
    (h : (uri, ParAt.goesOn r) ∈ (parRun urn ops).threads) : ∃ k, uri = urn k ∧ (pushedIn ops)[k]? = some r :=
  (pushInv_run hu ops).held _ h r (.inr rfl)

/-- C126.  A request that was pushed is not lost: until one thread goes on with it, it is there for the next one that comes. -/
theorem C126_not_lost (urn : Nat → String) (hu : ∀ i j, urn i = urn j → i = j) (ops : List ParOp) (k : Nat) (r : AuthzReq)
    (hk : (pushedIn ops)[k]? = some r) :
    (parRun urn ops).threads.countP (wentOn (urn k)) = 1 ∨ (parRun urn ops).par.get? (urn k) = some r := by
  have h := pushInv_run hu ops
  have hlt : k < (parRun urn ops).pushes := by rw [h.len]; exact (List.getElem?_eq_some_iff.1 hk).1
  have h1 := h.one k hlt
  cases hg : (parRun urn ops).par.get? (urn k) with
  | none =>
    left
    have : (parRun urn ops).par.has (urn k) = false := by unfold Dict.has; rw [hg]; rfl
    rw [this] at h1
    simpa using h1
  | some r' =>
    right
    obtain ⟨k', e1, e2⟩ := h.kept _ _ hg
    cases hu _ _ e1
    rw [hk] at e2
    exact e2.symm

/-- The two steps together are what the model of the authorization endpoint has as one. -/
theorem C126_alone (p : Prov) (client : String) (req : AuthzReq) (s : PState) (uri : String) (h1 : req.requestUri = some uri)
    (hpar : p.hasPar = true) (hurn : "urn:uuid:".toList.isPrefixOf uri.toList = true) :
    ∃ a, (parGo (parGo s.par uri .look).1 uri (parGo s.par uri .look).2) = ((doRequestUri p client req s).2.par, a) ∧
      (∀ r, a = .goesOn r ↔ (doRequestUri p client req s).1 = .ok r) ∧ (a = .failed ∨ ∃ r, a = .goesOn r) := by
  have hne : uri ≠ "" := by
    rintro rfl
    revert hurn; decide
  unfold doRequestUri
  rw [h1]
  simp only [truthyStr, if_neg hne, hpar, hurn, Bool.and_self, if_true]
  cases hq : s.par.get? uri with
  | none =>
    simp only [parGo, hq]
    exact ⟨.failed, rfl, fun r => by simp, .inl rfl⟩
  | some r =>
    have hh : s.par.has uri = true := by unfold Dict.has; rw [hq]; rfl
    simp only [parGo, hq, hh, if_true]
    exact ⟨.goesOn r, rfl, fun r' => by simp, .inr ⟨r, rfl⟩⟩

namespace Ex

/-- A request that is pushed; two requests with its URN come in and look it up before either takes it away. -/
def parBoth (r : AuthzReq) : List ParOp := [.push r, .comes "urn:uuid:0", .comes "urn:uuid:0", .go 0, .go 1, .go 1, .go 0]

end Ex

/-- Both found the request; the one that was faster goes on, the other has failed. -/
example : (parRun (fun n => "urn:uuid:" ++ toString n) (Ex.parBoth { clientId := "c1" })).threads =
    [("urn:uuid:0", .failed), ("urn:uuid:0", .goesOn { clientId := "c1" })] := by decide +kernel

/-! ### C127 -/

/-- C127 is not true: two requests with the same client assertion, served at the same time, can both be accepted. -/
theorem C127_refuted : ∃ (iss jti : String) (ops : List JtiOp), 2 ≤ (jtiRun {} ops).threads.countP (acceptedAs iss jti) :=
  ⟨"c1", "j1", [.comes "c1" "j1", .comes "c1" "j1", .go 0, .go 1, .go 0, .go 1], by decide +kernel⟩

/-- What one step does not undo. -/
theorem jtiStep_seen {s : JtiWorld} {k : String} (h : k ∈ s.seen) (op : JtiOp) : k ∈ (jtiStep s op).seen := by
  cases op with
  | comes iss jti => exact h
  | go i =>
    simp only [jtiStep]
    cases hi : s.threads[i]? with
    | none => exact h
    | some t =>
      obtain ⟨k', a⟩ := t
      cases a with
      | look => simp only [jtiGo]; split <;> exact h
      | note => exact List.mem_cons_of_mem _ h
      | accepted => exact h
      | refused => exact h

/-- Every key that was noted belongs to an assertion that was accepted, and the other way round; who was refused had a key that was
noted. -/
structure JtiInv (s : JtiWorld) : Prop where
  byOne : ∀ k ∈ s.seen, (k, JtiAt.accepted) ∈ s.threads
  noted : ∀ t ∈ s.threads, t.2 = .accepted ∨ t.2 = .refused → t.1 ∈ s.seen

theorem jtiInv_step {s : JtiWorld} (h : JtiInv s) (op : JtiOp) : JtiInv (jtiStep s op) := by
  have hmono := fun k (hk : k ∈ s.seen) => jtiStep_seen hk op
  cases op with
  | comes iss jti =>
    refine ⟨fun k hk => List.mem_append_left _ (h.byOne k hk), fun t ht hq => ?_⟩
    rcases List.mem_append.1 ht with ht | ht
    · exact h.noted t ht hq
    · simp at ht; subst ht; rcases hq with hq | hq <;> cases hq
  | go i =>
    cases hi : s.threads[i]? with
    | none => simp only [jtiStep, hi]; exact h
    | some t =>
      obtain ⟨k', a⟩ := t
      have hmem := List.mem_of_getElem? hi
      have hlt := (List.getElem?_eq_some_iff.1 hi).1
      have keep : ∀ (a' : JtiAt) k, (k, JtiAt.accepted) ∈ s.threads → (a = .accepted → a' = .accepted) →
          (k, JtiAt.accepted) ∈ s.threads.set i (k', a') := by
        intro a' k hk ha
        obtain ⟨j, hj⟩ := List.getElem?_of_mem hk
        by_cases hij : i = j
        · subst hij
          rw [hi] at hj
          cases hj
          rw [ha rfl]
          exact List.mem_of_getElem? (i := i) (by simp [hlt])
        · exact List.mem_of_getElem? (i := j) (by rw [List.getElem?_set_ne hij]; exact hj)
      have hnew : ∀ a', (k', a') ∈ s.threads.set i (k', a') := fun a' => List.mem_of_getElem? (i := i) (by simp [hlt])
      simp only [jtiStep, hi] at hmono ⊢
      refine ⟨fun k hk => ?_, fun t ht hq => ?_⟩
      · revert hk
        cases a with
        | look =>
          simp only [jtiGo]
          split <;> exact fun hk => keep _ k (h.byOne k hk) (fun e => (by cases e))
        | note =>
          intro hk
          rcases List.mem_cons.1 hk with rfl | hk
          · exact hnew _
          · exact keep _ k (h.byOne k hk) (fun _ => rfl)
        | accepted => exact fun hk => keep _ k (h.byOne k hk) (fun _ => rfl)
        | refused => exact fun hk => keep _ k (h.byOne k hk) (fun e => (by cases e))
      · rcases List.mem_or_eq_of_mem_set ht with ht | rfl
        · exact hmono _ (h.noted t ht hq)
        · revert hq
          cases a with
          | look =>
            simp only [jtiGo]
            split
            · intro _; assumption
            · intro hq; rcases hq with hq | hq <;> cases hq
          | note => intro _; exact List.mem_cons_self
          | accepted => intro _; exact h.noted _ hmem (.inl rfl)
          | refused => intro _; exact h.noted _ hmem (.inr rfl)

theorem jtiInv_run (ops : List JtiOp) : JtiInv (jtiRun {} ops) := by
  unfold jtiRun
  have gen : ∀ s : JtiWorld, JtiInv s → JtiInv (ops.foldl jtiStep s) := by
    induction ops with
    | nil => exact fun s h => h
    | cons op ops ih => exact fun s h => ih _ (jtiInv_step h op)
  exact gen {} ⟨fun _ h => (by cases h), fun _ h => (by cases h)⟩

/-- What holds of the threads that came once a key was noted. -/
theorem jtiLater_step {s : JtiWorld} {k : String} {n : Nat} (h : k ∈ s.seen) (hn : n ≤ s.threads.length)
    (hl : ∀ i, n ≤ i → ∀ a, s.threads[i]? = some (k, a) → a = .look ∨ a = .refused) (op : JtiOp) :
    n ≤ (jtiStep s op).threads.length ∧ ∀ i, n ≤ i → ∀ a, (jtiStep s op).threads[i]? = some (k, a) → a = .look ∨ a = .refused := by
  cases op with
  | comes iss jti =>
    refine ⟨by simp only [jtiStep, List.length_append]; omega, fun i hi a ha => ?_⟩
    simp only [jtiStep] at ha
    by_cases hlt : i < s.threads.length
    · rw [List.getElem?_append_left hlt] at ha; exact hl i hi a ha
    · have := List.mem_of_getElem? ha
      rw [List.getElem?_append_right (by omega)] at ha
      have := List.mem_of_getElem? ha
      simp at this
      exact .inl this.2
  | go j =>
    cases hj : s.threads[j]? with
    | none => simp only [jtiStep, hj]; exact ⟨hn, hl⟩
    | some t =>
      obtain ⟨k', b⟩ := t
      simp only [jtiStep, hj]
      refine ⟨by simpa using hn, fun i hi a ha => ?_⟩
      by_cases hij : j = i
      · subst hij
        rw [List.getElem?_set_self (List.getElem?_eq_some_iff.1 hj).1] at ha
        simp only [Option.some.injEq, Prod.mk.injEq] at ha
        obtain ⟨rfl, rfl⟩ := ha
        rcases hl j hi b hj with rfl | rfl
        · right; simp only [jtiGo]; rw [if_pos h]
        · right; rfl
      · rw [List.getElem?_set_ne hij] at ha
        exact hl i hi a ha

/-- C127, what is true of it: once an assertion has been accepted, no request that comes in later is accepted with the same one,
however the threads take turns. -/
theorem C127_later_partial (iss jti : String) (ops later : List JtiOp)
    (h : (jtiKey iss jti, JtiAt.accepted) ∈ (jtiRun {} ops).threads) :
    ((jtiRun (jtiRun {} ops) later).threads.drop (jtiRun {} ops).threads.length).countP (acceptedAs iss jti) = 0 := by
  have hs : jtiKey iss jti ∈ (jtiRun {} ops).seen := (jtiInv_run ops).noted _ h (.inl rfl)
  generalize jtiRun {} ops = s at hs
  have gen : ∀ (n : Nat) (s' : JtiWorld), jtiKey iss jti ∈ s'.seen → n ≤ s'.threads.length →
      (∀ i, n ≤ i → ∀ a, s'.threads[i]? = some (jtiKey iss jti, a) → a = .look ∨ a = .refused) →
      ∀ i, n ≤ i → ∀ a, (jtiRun s' later).threads[i]? = some (jtiKey iss jti, a) → a = .look ∨ a = .refused := by
    intro n
    induction later with
    | nil => exact fun s' _ _ h3 => h3
    | cons op ops ih =>
      intro s' h1 h2 h3
      have := jtiLater_step h1 h2 h3 op
      exact ih _ (jtiStep_seen h1 op) this.1 this.2
  have := gen s.threads.length s hs (Nat.le_refl _) (fun i hi a ha => by
    have := (List.getElem?_eq_some_iff.1 ha).1; omega)
  rw [List.countP_eq_zero]
  intro t ht hacc
  obtain ⟨i, hi⟩ := List.getElem?_of_mem ht
  rw [List.getElem?_drop] at hi
  have ht' : t = (jtiKey iss jti, .accepted) := by simpa [acceptedAs] using hacc
  subst ht'
  rcases this _ (Nat.le_add_right _ _) _ hi with e | e <;> cases e

/-- C127, what is true of it: a request is refused for its assertion only if another one was accepted with it. -/
theorem C127_refused_partial (iss jti : String) (ops : List JtiOp)
    (h : (jtiKey iss jti, JtiAt.refused) ∈ (jtiRun {} ops).threads) :
    1 ≤ (jtiRun {} ops).threads.countP (acceptedAs iss jti) := by
  have hi := jtiInv_run ops
  have := hi.byOne _ (hi.noted _ h (.inr rfl))
  exact List.countP_pos_iff.2 ⟨_, this, by simp [acceptedAs]⟩

/-- C127: the two steps together are what the model of client authentication has as one. -/
theorem C127_alone (method : String) (A : Assertion) (seen : List String) (iss jti : String) (h1 : A.iss = some iss)
    (h2 : A.jti = some jti) (hne : jti ≠ "") :
    let first := jtiGo seen (jtiKey iss jti) .look
    let second := jtiGo first.1 (jtiKey iss jti) first.2
    second.1 = (jtiCheck method A seen).2 ∧
      (second.2 = .accepted ↔ (jtiCheck method A seen).1.isSome = true) ∧ (second.2 = .accepted ∨ second.2 = .refused) := by
  simp only [jtiCheck, h1, h2, truthyStr, if_neg hne, jtiGo]
  by_cases hm : jtiKey iss jti ∈ seen
  · simp [hm]
  · simp [hm]

/-- An assertion is accepted; it comes twice more, at the same time, and is refused both times. -/
example : (jtiRun {} [.comes "c1" "j1", .go 0, .go 0]).threads = [("c1:j1", .accepted)] ∧
    (jtiRun (jtiRun {} [.comes "c1" "j1", .go 0, .go 0]) [.comes "c1" "j1", .comes "c1" "j1", .go 1, .go 2, .go 2, .go 1]).threads =
      [("c1:j1", .accepted), ("c1:j1", .refused), ("c1:j1", .refused)] := by decide +kernel

end OidcOp
