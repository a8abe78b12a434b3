/-
Lemmas about the start of a server: when its parts can be made.
-/
import Verif.Spec.Startup
import Verif.Lemmas.Metadata
import Verif.Props.Construct
import Verif.Props.EndpointAuth
import Verif.Props.TokenFactory

namespace OidcOp
open Spec

theorem ebind_ok {α β : Type} {x : Except Exc α} {f : α → Except Exc β} {b : β} (h : x >>= f = .ok b) :
    ∃ a, x = .ok a ∧ f a = .ok b := by
  cases x with
  | error e => cases h
  | ok a => exact ⟨a, rfl, h⟩

/-! ### what endpoints publish -/

theorem kind_about {attr : String} {k : AlgKind} (lib : CryptoAlgs) (h : algKind attr = some k) : ∃ l, AlgsAbout lib attr l := by
  unfold algKind at h
  split at h
  · rename_i h1
    exact ⟨_, .sign ((occursIn_iff _ _).1 h1)⟩
  · rename_i h1
    have n1 : ¬ OccursIn "signing_alg_values_supported" attr := fun e => h1 ((occursIn_iff _ _).2 e)
    split at h
    · rename_i h2
      exact ⟨_, .alg n1 ((occursIn_iff _ _).1 h2)⟩
    · rename_i h2
      split at h
      · rename_i h3
        exact ⟨_, .enc n1 (fun e => h2 ((occursIn_iff _ _).2 e)) ((occursIn_iff _ _).1 h3)⟩
      · cases h

theorem sorted_ok {l : List String} (h : ∀ a ∈ l, KnownAlg a) : ∃ r, sortedAlgs l = .ok r := by
  unfold sortedAlgs
  split
  · exact ⟨_, rfl⟩
  · exact ⟨_, rfl⟩
  · rw [if_pos]
    · exact ⟨_, rfl⟩
    · rw [List.all_eq_true]
      intro a ha
      obtain ⟨n, hn⟩ := algRank_ok.2 (h a ha)
      rw [hn]

theorem assign_ok {lib : CryptoAlgs} (h : Sortable lib) (k : AlgKind) : ∃ l, assignAlgorithms lib k = .ok l := by
  cases k with
  | signing => exact sorted_ok h
  | encAlg => exact ⟨_, rfl⟩
  | encEnc => exact ⟨_, rfl⟩

theorem elements_of_allFrom {algs : List String} {v : Json} (h : AllFrom algs v) :
    ∃ l, elements v = .ok l ∧ ∀ x ∈ l, ∃ a ∈ algs, x = .str a := by
  cases v with
  | arr l => exact ⟨l, rfl, h⟩
  | obj d =>
    refine ⟨_, rfl, fun x hx => ?_⟩
    obtain ⟨p, hp, rfl⟩ := List.mem_map.1 hx
    exact ⟨p.1, h p hp, rfl⟩
  | str s =>
    refine ⟨_, rfl, fun x hx => ?_⟩
    obtain ⟨c, hc, rfl⟩ := List.mem_map.1 hx
    exact ⟨_, h c hc, rfl⟩
  | _ => exact h.elim

theorem within_of_allFrom {permitted : List String} {v : Json} (h : AllFrom permitted v) :
    withinPermitted permitted v = .ok true := by
  obtain ⟨l, hl, hm⟩ := elements_of_allFrom h
  unfold withinPermitted
  rw [hl]
  simp only []
  rw [if_neg]
  · congr 1
    rw [List.all_eq_true]
    intro x hx
    obtain ⟨a, ha, rfl⟩ := hm x hx
    exact List.any_eq_true.2 ⟨a, ha, by simp⟩
  · intro hany
    obtain ⟨x, hx, hh⟩ := List.any_eq_true.1 hany
    obtain ⟨a, -, rfl⟩ := hm x hx
    simp [Json.hashable] at hh

/-- The names that are looked at for weak algorithms. -/
def looksWeak (attr : String) : Bool :=
  infixThen "alg".toList "_values_supported".toList attr.toList ||
    infixThen "enc".toList "_values_supported".toList attr.toList

theorem weakCheck_ok {attr : String} {v : Option Json} (h : looksWeak attr = false ∨ ∃ x l, v = some x ∧ elements x = .ok l) :
    weakCheck attr v = .ok () := by
  unfold weakCheck
  rcases h with h | ⟨x, l, rfl, hl⟩
  · unfold looksWeak at h
    rw [if_neg (by rw [h]; decide)]
  · split
    · simp only [hl]
    · rfl

theorem attr_ok {lib : CryptoAlgs} (hs : Sortable lib) {kwargs : Dict Json} {attr : String} {d : Json}
    (ha : ∀ algs, AlgsAbout lib attr algs → ∀ v, kwargs.get? attr = some v → AllFrom algs v)
    (hw : looksWeak attr = true → algKind attr ≠ none) (hd : algKind attr ≠ none → d = .null) :
    ∃ r, endpointAttr lib kwargs attr d = .ok r := by
  have weak : ∀ {v}, algKind attr = none → weakCheck attr v = .ok () := by
    intro v hk
    apply weakCheck_ok
    left
    cases h : looksWeak attr with
    | false => rfl
    | true => exact absurd hk (hw h)
  unfold endpointAttr
  cases hk : kwargs.get? attr with
  | some x =>
    simp only []
    cases hkd : algKind attr with
    | none =>
      have : proposed lib attr x = .ok x := by unfold proposed; rw [hkd]
      rw [this]
      simp only []
      rw [weak hkd]
      exact ⟨_, rfl⟩
    | some k =>
      obtain ⟨algs, hab⟩ := kind_about lib hkd
      have hall := ha algs hab x hk
      obtain ⟨k', hk', hperm⟩ := about_kind hab
      have : k' = k := by rw [hkd] at hk'; cases hk'; rfl
      subst this
      obtain ⟨l, hl⟩ := assign_ok hs k'
      have hp : proposed lib attr x = .ok x := by
        unfold proposed
        rw [hkd]
        simp only []
        rw [hl]
        cases l with
        | nil => rfl
        | cons y ys =>
          simp only []
          rw [within_of_allFrom (allFrom_perm hall (hperm _ hl).symm)]
      rw [hp]
      simp only []
      obtain ⟨es, hes, -⟩ := elements_of_allFrom hall
      rw [weakCheck_ok (.inr ⟨x, es, rfl, hes⟩)]
      exact ⟨_, rfl⟩
  | none =>
    simp only []
    cases hkd : algKind attr with
    | none =>
      have : ∃ r, defaultFor lib attr d = .ok r := by
        unfold defaultFor
        split
        · exact ⟨_, rfl⟩
        · rw [hkd]; exact ⟨_, rfl⟩
      obtain ⟨r, hr⟩ := this
      rw [hr]
      simp only []
      rw [weak hkd]
      exact ⟨_, rfl⟩
    | some k =>
      have hnull := hd (by rw [hkd]; simp)
      have : ∃ l, defaultFor lib attr d = .ok (some (.arr l)) := by
        unfold defaultFor
        rw [if_neg (by rw [hnull]; simp), hkd]
        cases k with
        | signing =>
          obtain ⟨l, hl⟩ := assign_ok hs .signing
          simp only [hl]
          exact ⟨_, rfl⟩
        | encAlg => exact ⟨_, rfl⟩
        | encEnc => exact ⟨_, rfl⟩
      obtain ⟨l, hr⟩ := this
      rw [hr]
      simp only []
      rw [weakCheck_ok (.inr ⟨_, l, rfl, rfl⟩)]
      exact ⟨_, rfl⟩

/-- The names of algorithms are without default, and all that is looked at is one. -/
def Tidy (caps : Dict Json) : Prop := ∀ p ∈ caps, (looksWeak p.1 = true → algKind p.1 ≠ none) ∧ (algKind p.1 ≠ none → p.2 = .null)

theorem construct_ok {lib : CryptoAlgs} (hs : Sortable lib) {caps kwargs : Dict Json} (ha : OnlySupported lib caps kwargs)
    (ht : Tidy caps) : ∃ info, constructEndpointInfo lib caps kwargs = .ok info := by
  unfold constructEndpointInfo
  have gen : ∀ (l info : Dict Json), (∀ p ∈ l, p ∈ caps) → ∃ out, endpointInfoLoop lib kwargs l info = .ok out := by
    intro l
    induction l with
    | nil => intro info _; exact ⟨info, rfl⟩
    | cons p r ih =>
      intro info hm
      obtain ⟨a, d⟩ := p
      have hp := hm (a, d) List.mem_cons_self
      obtain ⟨o, ho⟩ := attr_ok (d := d) hs (fun algs hab v hv => ha a (List.mem_map.2 ⟨_, hp, rfl⟩) algs hab v hv)
        (ht _ hp).1 (ht _ hp).2
      unfold endpointInfoLoop
      rw [ho]
      cases o <;> exact ih _ (fun q hq => hm q (List.mem_cons_of_mem _ hq))
  exact gen caps [] (fun _ h => h)

theorem tidy_shipped : ∀ c ∈ shippedClasses, Tidy (c.caps.getD []) := by
  unfold Tidy
  decide +kernel

theorem tidy_idToken : Tidy idTokenCaps := by
  unfold Tidy
  decide +kernel

theorem info_ok {lib : CryptoAlgs} (hs : Sortable lib) {c : EndpConf} (hc : c.cls ∈ shippedClasses)
    (ha : OnlySupported lib (c.cls.caps.getD []) c.kwargs) : ∃ i, c.cls.info lib c.kwargs = .ok i := by
  unfold EndpClass.info
  have ht := tidy_shipped _ hc
  cases hcaps : c.cls.caps with
  | none => exact ⟨_, rfl⟩
  | some d =>
    rw [hcaps] at ha ht
    obtain ⟨i, hi⟩ := construct_ok (caps := d) hs ha ht
    simp only []
    rw [hi]
    exact ⟨_, rfl⟩

theorem build_ok {lib : CryptoAlgs} {issuer : String} {cs : List EndpConf} (acc : Dict Endp)
    (h : ∀ c ∈ cs, ∃ i, c.cls.info lib c.kwargs = .ok i) : ∃ endps, buildEndpoints lib issuer cs acc = .ok endps := by
  induction cs generalizing acc with
  | nil => exact ⟨acc, rfl⟩
  | cons c cs ih =>
    obtain ⟨i, hi⟩ := h c List.mem_cons_self
    unfold buildEndpoints buildOne
    rw [hi]
    exact ih _ (fun d hd => h d (List.mem_cons_of_mem _ hd))

theorem build_all {lib : CryptoAlgs} {issuer : String} {cs : List EndpConf} {acc endps : Dict Endp}
    (h : buildEndpoints lib issuer cs acc = .ok endps) : ∀ c ∈ cs, ∃ i, c.cls.info lib c.kwargs = .ok i := by
  induction cs generalizing acc with
  | nil => intro c hc; cases hc
  | cons c cs ih =>
    unfold buildEndpoints at h
    cases hb : buildOne lib issuer c with
    | error e => rw [hb] at h; cases h
    | ok e =>
      rw [hb] at h
      intro d hd
      rcases List.mem_cons.1 hd with rfl | hd
      · unfold buildOne at hb
        cases hi : d.cls.info lib d.kwargs with
        | error e => rw [hi] at hb; cases hb
        | ok i => exact ⟨i, rfl⟩
      · exact ih h d hd

/-! ### ways to authenticate -/

theorem known_named {n : String} (h : n ∈ knownWays) : ∃ m, methodNamed n = .ok m := by
  have : ∀ n ∈ knownWays, ∃ m, methodNamed n = .ok m := by
    intro n hn
    simp only [knownWays, List.mem_cons, List.not_mem_nil, or_false] at hn
    rcases hn with rfl | rfl | rfl | rfl | rfl | rfl | rfl
    · exact ⟨.basic, rfl⟩
    · exact ⟨.post, rfl⟩
    · exact ⟨.bearerHeader, rfl⟩
    · exact ⟨.bearerBody, rfl⟩
    · exact ⟨.secretJwt, rfl⟩
    · exact ⟨.privateKeyJwt, rfl⟩
    · exact ⟨.requestParam, rfl⟩
  exact this n h

theorem named_known {n : String} {m : CAuthn} (h : methodNamed n = .ok m) : n ∈ knownWays := by
  have e := methodNamed_ok h
  subst e
  cases m <;> first | decide | cases h

theorem setup_known {l : List String} (h : ∀ n ∈ l, n ∈ knownWays ∨ NoneName n) : ∃ ms, setupAll (l.map .str) = .ok ms := by
  induction l with
  | nil => exact ⟨[], rfl⟩
  | cons n l ih =>
    obtain ⟨ms, hms⟩ := ih (fun x hx => h x (List.mem_cons_of_mem _ hx))
    have : ∃ o, setupOne (.str n) = .ok o := by
      unfold setupOne
      simp only []
      split
      · exact ⟨_, rfl⟩
      · rename_i hn
        rcases h n List.mem_cons_self with hk | hk
        · obtain ⟨m, hm⟩ := known_named hk
          rw [hm]
          exact ⟨_, rfl⟩
        · exact absurd hk hn
    obtain ⟨o, ho⟩ := this
    rw [List.map_cons]
    unfold setupAll
    rw [ho]
    simp only []
    rw [hms]
    exact ⟨_, rfl⟩

theorem classMethods_ok : ∀ c ∈ shippedClasses, ∃ ms, classMethods c = .ok ms := by
  have : ∀ c ∈ shippedClasses, (match classMethods c with | .ok _ => true | .error _ => false) = true := by decide +kernel
  intro c hc
  have := this c hc
  cases h : classMethods c with
  | ok ms => exact ⟨ms, rfl⟩
  | error e => rw [h] at this; cases this

theorem methods_ok {lib : CryptoAlgs} {c : EndpConf} (h : EndpointInOrder lib c) : ∃ ms, endpointMethods c = .ok ms := by
  unfold endpointMethods
  rcases h.ways with hw | ⟨l, hl, hk⟩
  · rw [hw]
    exact classMethods_ok _ h.shipped
  · rw [hl]
    simp only []
    split
    · unfold authSetup elements strs
      exact setup_known hk
    · split
      · rename_i e; cases e
      · exact ⟨_, rfl⟩

theorem methods_known {c : EndpConf} {ms : List (Option CAuthn)} (h : endpointMethods c = .ok ms) {l : List String}
    (hl : c.kwargs.get? "client_authn_method" = some (strs l)) : ∀ n ∈ l, n ∈ knownWays ∨ NoneName n := by
  intro n hn
  unfold endpointMethods at h
  rw [hl] at h
  simp only [] at h
  have ht : (strs l).truthy = true := by
    cases l with
    | nil => cases hn
    | cons a l => rfl
  rw [if_pos ht] at h
  unfold authSetup elements strs at h
  obtain ⟨o, -, ho⟩ := (setupAll_mem h).2 (.str n) (List.mem_map.2 ⟨n, hn, rfl⟩)
  unfold setupOne at ho
  simp only [] at ho
  split at ho
  · rename_i e; exact .inr e
  · cases hm : methodNamed n with
    | error e => rw [hm] at ho; cases ho
    | ok m => exact .inl (named_known hm)

theorem allMethods_ok {cs : List EndpConf} (acc : Dict (List (Option CAuthn))) (h : ∀ c ∈ cs, ∃ ms, endpointMethods c = .ok ms) :
    ∃ d, allMethods cs acc = .ok d := by
  induction cs generalizing acc with
  | nil => exact ⟨acc, rfl⟩
  | cons c cs ih =>
    obtain ⟨ms, hm⟩ := h c List.mem_cons_self
    unfold allMethods
    rw [hm]
    exact ih _ (fun d hd => h d (List.mem_cons_of_mem _ hd))

theorem allMethods_get {cs : List EndpConf} {acc d : Dict (List (Option CAuthn))} (h : allMethods cs acc = .ok d) :
    (∀ c ∈ cs, ∃ ms, endpointMethods c = .ok ms) ∧
    (∀ n, (∀ c ∈ cs, c.cls.name ≠ n) → d.get? n = acc.get? n) ∧
    ((cs.map (·.cls.name)).Nodup → ∀ c ∈ cs, ∃ ms, endpointMethods c = .ok ms ∧ d.get? c.cls.name = some ms) := by
  induction cs generalizing acc with
  | nil => cases h; exact ⟨fun c hc => absurd hc List.not_mem_nil, fun _ _ => rfl, fun _ c hc => absurd hc List.not_mem_nil⟩
  | cons c cs ih =>
    unfold allMethods at h
    cases hm : endpointMethods c with
    | error e => rw [hm] at h; cases h
    | ok ms =>
      rw [hm] at h
      obtain ⟨h0, h1, h2⟩ := ih h
      refine ⟨fun c' hc' => ?_, fun n hn => ?_, fun hnd c' hc' => ?_⟩
      · rcases List.mem_cons.1 hc' with rfl | hc'
        · exact ⟨ms, hm⟩
        · exact h0 c' hc'
      · rw [h1 n (fun x hx => hn x (List.mem_cons_of_mem _ hx)), Dict.get?_set_ne _ _ (hn c List.mem_cons_self)]
      · rw [List.map_cons, List.nodup_cons] at hnd
        rcases List.mem_cons.1 hc' with rfl | hc'
        · refine ⟨ms, hm, ?_⟩
          rw [h1 _ (fun x hx e => hnd.1 (List.mem_map.2 ⟨x, hx, e⟩)), Dict.get?_set_self]
        · exact h2 hnd.2 c' hc'

/-! ### authentication methods -/

/-- One step of `populateBroker`. -/
def brokerStep (r : Except Exc Broker) (x : String × BrokerInfo) : Except Exc Broker :=
  match r with
  | .error e => .error e
  | .ok b =>
    match Broker.setItem x.1 x.2 b with
    | (.error e, _) => .error e
    | (.ok _, b') => .ok b'

theorem populate_fold (l : Dict BrokerInfo) : populateBroker l = l.foldl brokerStep (.ok {}) := rfl

theorem brokerStep_error (l : Dict BrokerInfo) (e : Exc) : l.foldl brokerStep (.error e) = .error e := by
  induction l with
  | nil => rfl
  | cons x t ih => exact ih

theorem broker_fold {l : Dict BrokerInfo} {b b' : Broker} (h : l.foldl brokerStep (.ok b) = .ok b') :
    (∀ x ∈ l, x.2.acr ≠ none ∧ x.2.method ≠ none) ∧
    (∀ n, n ∉ l.map (·.1) → b'.db.get? n = b.db.get? n) ∧
    ((l.map (·.1)).Nodup → ∀ n i, (n, i) ∈ l → ∃ m, b'.db.get? n = some m ∧ some m.acr = i.acr ∧ some m.id = i.method) := by
  induction l generalizing b with
  | nil => cases h; exact ⟨fun x hx => absurd hx List.not_mem_nil, fun _ _ => rfl, fun _ n i hi => absurd hi List.not_mem_nil⟩
  | cons x t ih =>
    obtain ⟨k, i⟩ := x
    rw [List.foldl_cons] at h
    cases ha : i.acr with
    | none =>
      have : brokerStep (.ok b) (k, i) = .error .valueError := by simp [brokerStep, Broker.setItem, ha]
      rw [this, brokerStep_error] at h; cases h
    | some a =>
      cases hm : i.method with
      | none =>
        have : brokerStep (.ok b) (k, i) = .error .valueError := by simp [brokerStep, Broker.setItem, ha, hm]
        rw [this, brokerStep_error] at h; cases h
      | some m =>
        have : brokerStep (.ok b) (k, i) =
            .ok { db := b.db.set k { id := m, acr := a, expiresIn := i.expiresIn }
                  acr2id := b.acr2id.set a (((b.acr2id.get? a).getD []) ++ [k]) } := by
          simp [brokerStep, Broker.setItem, ha, hm]
        rw [this] at h
        obtain ⟨h1, h2, h3⟩ := ih h
        refine ⟨fun x hx => ?_, fun n hn => ?_, fun hnd n j hj => ?_⟩
        · rcases List.mem_cons.1 hx with rfl | hx
          · simp [ha, hm]
          · exact h1 x hx
        · rw [List.map_cons, List.mem_cons, not_or] at hn
          rw [h2 n hn.2]
          exact Dict.get?_set_ne _ _ (Ne.symm hn.1)
        · rw [List.map_cons, List.nodup_cons] at hnd
          rcases List.mem_cons.1 hj with e | hj
          · cases e
            refine ⟨_, by rw [h2 _ hnd.1]; exact Dict.get?_set_self .., ?_, ?_⟩
            · rw [ha]
            · rw [hm]
          · exact h3 hnd.2 n j hj

theorem broker_ok {l : Dict BrokerInfo} (b : Broker) (h : ∀ x ∈ l, x.2.acr ≠ none ∧ x.2.method ≠ none) :
    ∃ b', l.foldl brokerStep (.ok b) = .ok b' := by
  induction l generalizing b with
  | nil => exact ⟨b, rfl⟩
  | cons x t ih =>
    obtain ⟨h1, h2⟩ := h x List.mem_cons_self
    obtain ⟨a, ha⟩ := Option.ne_none_iff_exists'.1 h1
    obtain ⟨m, hm⟩ := Option.ne_none_iff_exists'.1 h2
    rw [List.foldl_cons]
    have : ∃ b1, brokerStep (.ok b) x = .ok b1 := by
      simp [brokerStep, Broker.setItem, ha, hm]
    obtain ⟨b1, hb⟩ := this
    rw [hb]
    exact ih b1 (fun y hy => h y (List.mem_cons_of_mem _ hy))

/-! ### token handlers -/

theorem lifetime_number {s : Dict Json} (h : ∃ lt, Lifetime s 0 lt) : argLifetime s = none ∨ ∃ n, argLifetime s = some (.num n) := by
  have nt : NoTopLifetime s → argLifetime s = (kwargsOf s).get? "lifetime" := by
    intro hn
    unfold argLifetime
    rcases hn with hn | hn <;> rw [hn] <;> rfl
  obtain ⟨lt, h⟩ := h
  cases h with
  | top h1 h2 =>
    right
    refine ⟨lt, ?_⟩
    unfold argLifetime
    rw [h1]
    simp [Json.truthy, h2]
  | kwargs h1 h2 => exact .inr ⟨lt, by rw [nt h1, h2]⟩
  | default h1 h2 => exact .inl (by rw [nt h1, h2])

theorem lifetimeArg_ok {s args : Dict Json} (ha : args.get? "lifetime" = argLifetime s) (h : ∃ lt, Lifetime s 0 lt) (d : Int) :
    ∃ lt, lifetimeArg d args = .ok lt := by
  unfold lifetimeArg
  rw [ha]
  rcases lifetime_number h with h | ⟨n, h⟩ <;> rw [h] <;> exact ⟨_, rfl⟩

theorem has_of_get {α : Type} {d : Dict α} {k : String} (h : d.get? k = none) : d.has k = false := by
  unfold Dict.has
  rw [h]
  rfl

theorem free_args {s args : Dict Json} (h : SettingsInOrder s)
    (ha : ∀ k, k ≠ "lifetime" → k ≠ "password" → args.get? k = (kwargsOf s).get? k) :
    (args.has "token_class" || args.has "server_get") = false := by
  rw [has_of_get, has_of_get]
  · rfl
  · rw [ha _ (by decide) (by decide)]; exact h.free.2
  · rw [ha _ (by decide) (by decide)]; exact h.free.1

theorem makeDflt_ok {lib : FactoryLib} {cls p : String} {s args : Dict Json} (h : SettingsInOrder s)
    (hl : args.get? "lifetime" = argLifetime s)
    (ha : ∀ k, k ≠ "lifetime" → k ≠ "password" → args.get? k = (kwargsOf s).get? k)
    (hp : args.get? "password" = some (.str p)) : ∃ m, makeHandler lib .dflt cls args = .ok m := by
  unfold makeHandler
  rw [free_args h ha]
  obtain ⟨lt, hlt⟩ := lifetimeArg_ok hl h.lifetime 300
  simp only [Bool.false_eq_true, if_false]
  unfold makeDefault
  rw [hp]
  simp only []
  rw [hlt]
  exact ⟨_, rfl⟩

theorem makeClass_enc {lib : FactoryLib} {conf : FactoryConf} {n cls : String} {s : Dict Json} (h : SettingsInOrder s)
    (he : Encrypted s) (hp : s.get? "password" = none) (hc : s.get? "class" ≠ none → s.get? "kwargs" ≠ none)
    (hk : factoryKey lib conf n ≠ none) : ∃ m, makeClass lib conf n cls s = .ok m := by
  obtain ⟨pw, hpw⟩ := Option.ne_none_iff_exists'.1 hk
  unfold makeClass
  rw [if_pos ((isDefaultSpec_iff s).2 he), hpw]
  obtain ⟨kw, k1, k2, k3⟩ := specKwargs_ok h.grouped
  -- the settings with the key
  cases hkw : s.get? "kwargs" with
  | none =>
    have hcn : s.get? "class" = none := Classical.byContradiction (fun e => hc e hkw)
    have e1 : addPasswd (some pw) s = .ok (s.set "password" (.str pw)) := by unfold addPasswd; rw [hkw]
    rw [e1]
    simp only []
    have hg' : Grouped (s.set "password" (.str pw)) := .inl (by rw [Dict.get?_set_ne _ _ (by decide)]; exact hkw)
    obtain ⟨kw', k1', k2', k3'⟩ := specKwargs_ok hg'
    have hal : argLifetime (s.set "password" (.str pw)) = argLifetime s := by
      unfold argLifetime kwargsOf
      rw [Dict.get?_set_ne _ _ (by decide), Dict.get?_set_ne _ _ (by decide)]
    have hkws : kwargsOf (s.set "password" (.str pw)) = kwargsOf s := by
      unfold kwargsOf
      rw [Dict.get?_set_ne _ _ (by decide)]
    unfold initHandler
    rw [k1', Dict.get?_set_ne _ _ (by decide), hcn, Dict.get?_set_self]
    simp only [kwSet, Option.getD_some]
    apply makeDflt_ok h (p := pw)
    · rw [Dict.get?_set_ne _ _ (by decide), k2', hal]
    · intro k hk1 hk2
      rw [Dict.get?_set_ne _ _ (Ne.symm hk2), k3' k hk1, hkws]
    · rw [Dict.get?_set_self]
  | some v =>
    obtain ⟨d, rfl⟩ : ∃ d, v = .obj d := by
      rcases h.grouped with e | ⟨d, e⟩
      · rw [e] at hkw; cases hkw
      · rw [e] at hkw; cases hkw; exact ⟨d, rfl⟩
    have e1 : addPasswd (some pw) s = .ok (s.set "kwargs" (.obj (Dict.set d "password" (.str pw)))) := by
      unfold addPasswd; rw [hkw]
    rw [e1]
    simp only []
    have hkd : kwargsOf s = d := by unfold kwargsOf; rw [hkw]
    generalize hs' : s.set "kwargs" (.obj (Dict.set d "password" (.str pw))) = s'
    have hne : ∀ k, k ≠ "kwargs" → s'.get? k = s.get? k := by
      intro k hk; rw [← hs', Dict.get?_set_ne _ _ (Ne.symm hk)]
    have hkd' : kwargsOf s' = Dict.set d "password" (.str pw) := by
      unfold kwargsOf; rw [← hs', Dict.get?_set_self]
    have hg' : Grouped s' := .inr ⟨_, by rw [← hs', Dict.get?_set_self]⟩
    obtain ⟨kw', k1', k2', k3'⟩ := specKwargs_ok hg'
    have hal : argLifetime s' = argLifetime s := by
      unfold argLifetime
      rw [hne _ (by decide), hkd', hkd, Dict.get?_set_ne _ _ (by decide)]
    have fin : ∃ m, makeHandler lib .dflt cls kw' = .ok m := by
      apply makeDflt_ok h (p := pw)
      · rw [k2', hal]
      · intro k hk1 hk2
        rw [k3' k hk1, hkd', hkd, Dict.get?_set_ne _ _ (Ne.symm hk2)]
      · rw [k3' _ (by decide), hkd', Dict.get?_set_self]
    unfold initHandler
    rw [k1', hne _ (by decide)]
    rcases he with e | e
    · rw [e, hne _ (by decide), hp]
      exact fin
    · rw [e]
      simp only []
      have : handlerKind (.str "oidcop.token.DefaultToken") = .ok .dflt := by decide
      rw [this]
      exact fin

theorem makeClass_sig {lib : FactoryLib} {conf : FactoryConf} {n cls : String} {s : Dict Json} (h : SettingsInOrder s)
    (hs : Signed s) (hp : (kwargsOf s).get? "password" = none) : ∃ m, makeClass lib conf n cls s = .ok m := by
  unfold makeClass
  have hn : ¬ isDefaultSpec s = true := by
    rw [isDefaultSpec_iff]
    unfold Encrypted
    rw [hs]
    decide
  rw [if_neg hn]
  obtain ⟨kw, k1, k2, k3⟩ := specKwargs_ok h.grouped
  unfold initHandler
  rw [k1, hs]
  simp only []
  have : handlerKind (.str "oidcop.token.jwt_token.JWTToken") = .ok .jwt := by decide
  rw [this]
  simp only [Option.getD_some]
  unfold makeHandler
  rw [free_args h (fun k hk _ => k3 k hk)]
  obtain ⟨lt, hlt⟩ := lifetimeArg_ok k2 h.lifetime 1800
  simp only [Bool.false_eq_true, if_false]
  unfold makeJwt
  rw [hlt, k3 _ (by decide), hp]
  exact ⟨_, rfl⟩

theorem onlySupported_congr {lib : CryptoAlgs} {caps a b : Dict Json} (h : OnlySupported lib caps a)
    (he : ∀ k ∈ caps.keys, b.get? k = a.get? k) : OnlySupported lib caps b := by
  intro n hn algs hab v hv
  rw [he n hn] at hv
  exact h n hn algs hab v hv

/-- What comes of settings for ID tokens in order. -/
theorem idt_ok {lib : FactoryLib} (hs : Sortable lib.crypto) {s : Dict Json} (h : IdTokensInOrder lib.crypto s) :
    (∃ a, idTokenArgs s = .ok a ∧ ∃ i, constructEndpointInfo lib.crypto idTokenCaps a = .ok i) ∧
      ∃ m, initHandler lib s "" = .ok m := by
  obtain ⟨kw, k1, k2, k3⟩ := specKwargs_ok h.settings.grouped
  have hkind : handlerKind (.str "oidcop.token.id_token.IDToken") = .ok .idt := by decide
  have hsup : OnlySupported lib.crypto idTokenCaps (kw.erase "lifetime") := by
    apply onlySupported_congr h.algs
    intro k hk
    have hne : k ≠ "lifetime" := by
      rintro rfl
      exact absurd hk (by decide)
    rw [Dict.get?_erase_ne _ (Ne.symm hne), k3 k hne]
  obtain ⟨i, hi⟩ := construct_ok hs hsup tidy_idToken
  constructor
  · refine ⟨kw.erase "lifetime", ?_, i, hi⟩
    unfold idTokenArgs
    rw [k1, h.cls]
    simp only [Option.getD_some]
    rw [hkind]
  · unfold initHandler
    rw [k1, h.cls]
    simp only []
    rw [hkind]
    simp only [Option.getD_some]
    unfold makeHandler
    rw [free_args h.settings (fun k hk _ => k3 k hk)]
    obtain ⟨lt, hlt⟩ := lifetimeArg_ok k2 h.settings.lifetime 300
    simp only [Bool.false_eq_true, if_false]
    unfold makeIdt
    rw [hlt, hi]
    exact ⟨_, rfl⟩

theorem withMade_ok {hs : Dict Made} {cls : String} {spec : Option (Dict Json)} {make : Dict Json → Except Exc Made}
    (h : ∀ s, spec = some s → ∃ m, make s = .ok m) : ∃ d, withMade hs cls spec make = .ok d := by
  unfold withMade
  cases spec with
  | none => exact ⟨hs, rfl⟩
  | some s =>
    obtain ⟨m, hm⟩ := h s rfl
    simp only []
    rw [hm]
    exact ⟨_, rfl⟩

theorem factory_works {lib : FactoryLib} (hs : Sortable lib.crypto) {conf : FactoryConf}
    (ht : ∀ n cls, (n, cls) ∈ tokenSettings → ∀ s, settingsOf conf n = some s → TokensInOrder (factoryKey lib conf n) s)
    (hi : ∀ s, conf.idToken = some s → IdTokensInOrder lib.crypto s) : ∃ d, factory lib conf = .ok d := by
  have one : ∀ n cls, (n, cls) ∈ tokenSettings → ∀ s, settingsOf conf n = some s → ∃ m, makeClass lib conf n cls s = .ok m := by
    intro n cls hn s hss
    obtain ⟨h1, h2⟩ := ht n cls hn s hss
    rcases h2 with ⟨a, b, c, d⟩ | ⟨a, b⟩
    · exact makeClass_enc h1 a b c d
    · exact makeClass_sig h1 a b
  unfold factory
  obtain ⟨a, ha⟩ := withMade_ok (hs := []) (cls := "authorization_code") (one "code" "authorization_code" (by decide))
  rw [show conf.code = settingsOf conf "code" from rfl, ha]
  simp only []
  obtain ⟨b, hb⟩ := withMade_ok (hs := a) (cls := "access_token") (one "token" "access_token" (by decide))
  rw [show conf.token = settingsOf conf "token" from rfl, hb]
  simp only []
  obtain ⟨c, hc⟩ := withMade_ok (hs := b) (cls := "refresh_token") (one "refresh" "refresh_token" (by decide))
  rw [show conf.refresh = settingsOf conf "refresh" from rfl, hc]
  exact withMade_ok (fun s e => (idt_ok hs (hi s e)).2)

/-! ### the whole -/

theorem makeServer_ok {lib : CryptoAlgs} {conf : ServerConf} (h1 : ∃ e, buildEndpoints lib conf.issuer conf.endpoints [] = .ok e)
    (h2 : ∃ i, idTokenInfo lib conf.idToken = .ok i) : ∃ s, makeServer lib conf = .ok s := by
  obtain ⟨e, he⟩ := h1
  obtain ⟨i, hi⟩ := h2
  unfold makeServer
  rw [he]
  simp only []
  rw [hi]
  exact ⟨_, rfl⟩

/-- The steps of a start. -/
structure Steps (lib : FactoryLib) (conf : StartConf) (s : Started) where
  broker : populateBroker conf.authn = .ok s.broker
  methods : allMethods conf.endpoints [] = .ok s.methods
  server : ∃ idt, idTokenArgsOf conf.factoryConf.idToken = .ok idt ∧ makeServer lib.crypto (conf.server s.broker idt) = .ok s.serv
  addOns : checkAddOns s.serv.endpoints conf.addOns = .ok ()
  handlers : factory lib conf.factoryConf = .ok s.handlers
  refresh : tokenAllowRefresh s.serv.endpoints (conf.caps.map (fun _ => s.serv.info)) s.handlers = .ok s.refresh
  claims : conf.claimsInterface = true

theorem steps {lib : FactoryLib} {conf : StartConf} {s : Started} (h : startServer lib conf = .ok s) : Steps lib conf s := by
  unfold startServer at h
  obtain ⟨broker, h1, h⟩ := ebind_ok h
  obtain ⟨methods, h2, h⟩ := ebind_ok h
  obtain ⟨idt, h3, h⟩ := ebind_ok h
  obtain ⟨serv, h4, h⟩ := ebind_ok h
  obtain ⟨u, h5, h⟩ := ebind_ok h
  obtain ⟨hs, h6, h⟩ := ebind_ok h
  obtain ⟨r, h7, h⟩ := ebind_ok h
  obtain ⟨v, h8, h⟩ := ebind_ok h
  cases h
  refine ⟨h1, h2, ⟨idt, h3, h4⟩, h5, h6, h7, ?_⟩
  unfold needs at h8
  split at h8
  · assumption
  · cases h8

theorem has_endpoint {lib : CryptoAlgs} {conf : StartConf} {broker : Broker} {idt : Option (Dict Json)} {s : Serv}
    (h : makeServer lib (conf.server broker idt) = .ok s) (n : String) : s.endpoints.get? n ≠ none ↔ HasEndpoint conf n := by
  obtain ⟨endps, i, hb, -, he, -⟩ := makeServer_spec h
  rw [he]
  obtain ⟨h1, h2⟩ := build_has hb n
  constructor
  · intro hne
    refine Classical.byContradiction (fun hno => hne ?_)
    rw [h1 (fun c hc e => hno ⟨c, hc, e⟩)]
    rfl
  · rintro ⟨c, hc, e⟩
    obtain ⟨-, -, -, ep, -, h5⟩ := h2 c hc e
    rw [h5]
    exact fun e => by cases e

theorem has_iff_get {α : Type} {d : Dict α} {k : String} : d.has k = true ↔ d.get? k ≠ none := by
  unfold Dict.has
  cases d.get? k <;> simp

end OidcOp
