/-
C107: token handlers are made as configured.
-/
import Verif.Spec.TokenFactory
import Verif.Props.TokenHandler

namespace OidcOp
open Spec

/-- The password among the arguments of a handler. -/
def argPassword (s : Dict Json) : Option Json :=
  match s.get? "class", s.get? "password" with
  | none, none => (kwargsOf s).get? "password"
  | none, some .null => (kwargsOf s).get? "password"
  | none, some v => some v
  | some _, _ => (kwargsOf s).get? "password"

/-- The life time among the arguments of a handler. -/
def argLifetime (s : Dict Json) : Option Json :=
  match s.get? "lifetime" with
  | none => (kwargsOf s).get? "lifetime"
  | some v => if v.truthy then some v else (kwargsOf s).get? "lifetime"

theorem specKwargs_ok {s : Dict Json} (hg : Grouped s) :
    ∃ kw, specKwargs s = .ok (some kw) ∧ kw.get? "lifetime" = argLifetime s ∧
      ∀ k, k ≠ "lifetime" → kw.get? k = (kwargsOf s).get? k := by
  have hkw : groupedArgs s = .ok (some (kwargsOf s)) := by
    unfold groupedArgs kwargsOf
    rcases hg with h | ⟨k, h⟩ <;> rw [h]
  unfold specKwargs argLifetime
  rw [hkw]
  simp only []
  cases hl : s.get? "lifetime" with
  | none => exact ⟨_, rfl, rfl, fun _ _ => rfl⟩
  | some v =>
    simp only []
    by_cases ht : v.truthy = true
    · rw [if_pos ht, if_pos ht]
      refine ⟨_, rfl, by rw [Dict.get?_set, if_pos rfl], fun k hk => ?_⟩
      rw [Dict.get?_set, if_neg (Ne.symm hk)]
    · rw [if_neg ht, if_neg ht]
      exact ⟨_, rfl, rfl, fun _ _ => rfl⟩

theorem initHandler_args {lib : FactoryLib} {s : Dict Json} {cls : String} {m : Made} (hg : Grouped s)
    (h : initHandler lib s cls = .ok m) :
    ∃ kind args, (s.get? "class" = none ∧ kind = .dflt ∨ ∃ c, s.get? "class" = some c ∧ handlerKind c = .ok kind) ∧
      makeHandler lib kind cls args = .ok m ∧ args.get? "lifetime" = argLifetime s ∧
      args.get? "password" = argPassword s ∧ args.get? "alg" = (kwargsOf s).get? "alg" := by
  obtain ⟨kw, h1, h2, h3⟩ := specKwargs_ok hg
  unfold initHandler at h
  rw [h1] at h
  unfold argPassword
  cases hc : s.get? "class" with
  | some c =>
    rw [hc] at h
    simp only [] at h
    cases hk : handlerKind c with
    | error e => rw [hk] at h; cases h
    | ok kind =>
      rw [hk] at h
      exact ⟨kind, kw, .inr ⟨c, rfl, hk⟩, h, h2, h3 _ (by decide), h3 _ (by decide)⟩
  | none =>
    rw [hc] at h
    cases hp : s.get? "password" with
    | none =>
      rw [hp] at h
      exact ⟨.dflt, kw, .inl ⟨rfl, rfl⟩, h, h2, h3 _ (by decide), h3 _ (by decide)⟩
    | some v =>
      rw [hp] at h
      cases v with
      | null => exact ⟨.dflt, kw, .inl ⟨rfl, rfl⟩, h, h2, h3 _ (by decide), h3 _ (by decide)⟩
      | _ =>
        refine ⟨.dflt, kw.set "password" _, .inl ⟨rfl, rfl⟩, h, ?_, ?_, ?_⟩
        · rw [Dict.get?_set, if_neg (by decide)]; exact h2
        · rw [Dict.get?_set, if_pos rfl]
        · rw [Dict.get?_set, if_neg (by decide)]; exact h3 _ (by decide)

theorem lifetimeArg_of {s : Dict Json} {args : Dict Json} {dflt lt n : Int} (ha : args.get? "lifetime" = argLifetime s)
    (h : lifetimeArg dflt args = .ok lt) (hl : Lifetime s dflt n) : lt = n := by
  unfold lifetimeArg at h
  rw [ha] at h
  have nt : NoTopLifetime s → argLifetime s = (kwargsOf s).get? "lifetime" := by
    intro hn
    unfold argLifetime
    rcases hn with hn | hn <;> rw [hn] <;> rfl
  cases hl with
  | top h1 h2 =>
    have : argLifetime s = some (.num n) := by
      unfold argLifetime
      rw [h1]
      simp [Json.truthy, h2]
    rw [this] at h
    cases h; rfl
  | kwargs h1 h2 =>
    rw [nt h1, h2] at h
    cases h; rfl
  | default h1 h2 =>
    rw [nt h1, h2] at h
    cases h; rfl

theorem makeDefault_ok {lib : FactoryLib} {cls : String} {args : Dict Json} {m : Made}
    (h : makeHandler lib .dflt cls args = .ok m) :
    ∃ p, args.get? "password" = some (.str p) ∧ m.handler = .dflt (lib.cipher p) cls m.lifetime ∧
      lifetimeArg 300 args = .ok m.lifetime := by
  unfold makeHandler at h
  split at h
  · cases h
  · simp only [] at h
    unfold makeDefault at h
    split at h
    · cases h
    · rename_i v hv
      split at h
      · rename_i lt p hl hp
        cases h
        refine ⟨p, ?_, rfl, hl⟩
        rw [hv]
        unfold passwordArg at hp
        split at hp
        · cases hp; rfl
        · cases hp
      · cases h
      · cases h

theorem makeJwt_ok {lib : FactoryLib} {cls : String} {args : Dict Json} {m : Made}
    (h : makeHandler lib .jwt cls args = .ok m) :
    (∃ alg, m.handler = .jwt cls alg m.lifetime ∧ (∀ a, args.get? "alg" = some (.str a) → alg = a) ∧
      (args.get? "alg" = none → alg = "ES256")) ∧ lifetimeArg 1800 args = .ok m.lifetime := by
  unfold makeHandler at h
  split at h
  · cases h
  · simp only [] at h
    unfold makeJwt at h
    split at h
    · rename_i lt p hl hp
      cases h
      refine ⟨⟨_, rfl, ?_, ?_⟩, hl⟩
      · intro a ha; rw [ha]
      · intro ha; rw [ha]
    · cases h
    · cases h

theorem makeIdt_ok {lib : FactoryLib} {cls : String} {args : Dict Json} {m : Made}
    (h : makeHandler lib .idt cls args = .ok m) :
    m.handler = .idt lib.algOf ∧ lifetimeArg 300 args = .ok m.lifetime := by
  unfold makeHandler at h
  split at h
  · cases h
  · simp only [] at h
    unfold makeIdt at h
    split at h
    · rename_i lt p hl hp
      cases h
      exact ⟨rfl, hl⟩
    · cases h
    · cases h

/-! ### The key of the key file -/

theorem isDefaultSpec_iff (s : Dict Json) : isDefaultSpec s = true ↔ Encrypted s := by
  unfold isDefaultSpec Encrypted defaultTokenName
  cases s.get? "class" <;> simp

theorem addPasswd_ok {key : Option String} {s s' : Dict Json} (hg : Grouped s) (h : addPasswd key s = .ok s') :
    Grouped s' ∧ s'.get? "class" = s.get? "class" ∧ argLifetime s' = argLifetime s ∧
      (kwargsOf s').get? "alg" = (kwargsOf s).get? "alg" ∧
      (∀ k, key = some k → s.get? "class" = none → (s.get? "password" = none ∨ s.get? "kwargs" = none) →
        argPassword s' = some (.str k)) ∧
      (∀ k, key = some k → s.get? "class" ≠ none → s.get? "kwargs" ≠ none → argPassword s' = some (.str k)) ∧
      (∀ p, argPassword s' = some (.str p) → key = some p ∨ PasswordIn s p) := by
  unfold addPasswd at h
  cases key with
  | none =>
    cases h
    refine ⟨hg, rfl, rfl, rfl, nofun, nofun, fun p hp => .inr ?_⟩
    unfold argPassword at hp
    unfold PasswordIn
    split at hp
    · exact .inr hp
    · exact .inr hp
    · rename_i hpw; cases hp; exact .inl hpw
    · exact .inr hp
  | some pw =>
    rcases hg with hk | ⟨kw, hk⟩
    · rw [hk] at h
      cases h
      have hk' : (s.set "password" (.str pw)).get? "kwargs" = none := by rw [Dict.get?_set, if_neg (by decide)]; exact hk
      have hc' : (s.set "password" (.str pw)).get? "class" = s.get? "class" := by rw [Dict.get?_set, if_neg (by decide)]
      have hl' : (s.set "password" (.str pw)).get? "lifetime" = s.get? "lifetime" := by
        rw [Dict.get?_set, if_neg (by decide)]
      have hp' : (s.set "password" (.str pw)).get? "password" = some (.str pw) := by rw [Dict.get?_set, if_pos rfl]
      have hkw : kwargsOf (s.set "password" (.str pw)) = kwargsOf s := by unfold kwargsOf; rw [hk', hk]
      refine ⟨.inl hk', hc', ?_, by rw [hkw], ?_, ?_, ?_⟩
      · unfold argLifetime; rw [hl', hkw]
      · intro k hkk hc _
        cases hkk
        unfold argPassword
        rw [hc', hc, hp']
      · intro k _ _ hne; exact absurd hk hne
      · intro p hp
        unfold argPassword at hp
        rw [hc', hp', hkw] at hp
        cases hc : s.get? "class" with
        | none => rw [hc] at hp; cases hp; exact .inl rfl
        | some c => rw [hc] at hp; exact .inr (.inr hp)
    · rw [hk] at h
      cases h
      generalize hs' : s.set "kwargs" (.obj (Dict.set kw "password" (.str pw))) = s'
      have hk' : s'.get? "kwargs" = some (.obj (Dict.set kw "password" (.str pw))) := by
        rw [← hs', Dict.get?_set, if_pos rfl]
      have ho : ∀ k, k ≠ "kwargs" → s'.get? k = s.get? k := by
        intro k hne; rw [← hs', Dict.get?_set, if_neg (Ne.symm hne)]
      have hkw : kwargsOf s = kw := by unfold kwargsOf; rw [hk]
      have hkw' : kwargsOf s' = Dict.set kw "password" (.str pw) := by unfold kwargsOf; rw [hk']
      have hgp : (kwargsOf s').get? "password" = some (.str pw) := by rw [hkw', Dict.get?_set, if_pos rfl]
      refine ⟨.inr ⟨_, hk'⟩, ho _ (by decide), ?_, ?_, ?_, ?_, ?_⟩
      · unfold argLifetime
        rw [ho _ (by decide), hkw', hkw, Dict.get?_set, if_neg (by decide)]
      · rw [hkw', hkw, Dict.get?_set, if_neg (by decide)]
      · intro k hkk hc hor
        cases hkk
        rcases hor with hor | hor
        · unfold argPassword
          rw [ho _ (by decide), ho _ (by decide), hc, hor]
          exact hgp
        · rw [hk] at hor; cases hor
      · intro k hkk hc _
        cases hkk
        unfold argPassword
        rw [ho _ (by decide)]
        cases hcc : s.get? "class" with
        | none => exact absurd hcc hc
        | some c => exact hgp
      · intro p hp
        unfold argPassword at hp
        rw [ho _ (by decide), ho _ (by decide), hgp] at hp
        split at hp
        · cases hp; exact .inl rfl
        · cases hp; exact .inl rfl
        · rename_i hpw; cases hp; exact .inr (.inl hpw)
        · cases hp; exact .inl rfl

/-- What one class is made of. -/
theorem makeClass_ok {lib : FactoryLib} {conf : FactoryConf} {kid cls : String} {s : Dict Json} {m : Made} (hg : Grouped s)
    (h : makeClass lib conf kid cls s = .ok m) :
    ∃ kind args, (s.get? "class" = none ∧ kind = .dflt ∨ ∃ c, s.get? "class" = some c ∧ handlerKind c = .ok kind) ∧
      makeHandler lib kind cls args = .ok m ∧ args.get? "lifetime" = argLifetime s ∧
      args.get? "alg" = (kwargsOf s).get? "alg" ∧
      (Encrypted s →
        (∀ k, factoryKey lib conf kid = some k → s.get? "class" = none → (s.get? "password" = none ∨ s.get? "kwargs" = none) →
          args.get? "password" = some (.str k)) ∧
        (∀ k, factoryKey lib conf kid = some k → s.get? "class" ≠ none → s.get? "kwargs" ≠ none →
          args.get? "password" = some (.str k)) ∧
        (∀ p, args.get? "password" = some (.str p) → factoryKey lib conf kid = some p ∨ PasswordIn s p)) := by
  unfold makeClass at h
  by_cases he : isDefaultSpec s = true
  · rw [if_pos he] at h
    cases ha : addPasswd (factoryKey lib conf kid) s with
    | error e => rw [ha] at h; cases h
    | ok s' =>
      rw [ha] at h
      obtain ⟨g1, g2, g3, g4, g5, g6, g7⟩ := addPasswd_ok hg ha
      obtain ⟨kind, args, h1, h2, h3, h4, h5⟩ := initHandler_args g1 h
      rw [g2] at h1
      refine ⟨kind, args, h1, h2, by rw [h3, g3], by rw [h5, g4], fun _ => ?_⟩
      rw [h4]
      exact ⟨g5, g6, g7⟩
  · rw [if_neg he] at h
    obtain ⟨kind, args, h1, h2, h3, h4, h5⟩ := initHandler_args hg h
    exact ⟨kind, args, h1, h2, h3, h5, fun hE => absurd ((isDefaultSpec_iff s).2 hE) he⟩

theorem kind_encrypted {s : Dict Json} {kind : HandlerKind} (he : Encrypted s)
    (h : s.get? "class" = none ∧ kind = .dflt ∨ ∃ c, s.get? "class" = some c ∧ handlerKind c = .ok kind) : kind = .dflt := by
  rcases h with ⟨-, h⟩ | ⟨c, h1, h2⟩
  · exact h
  · rcases he with he | he
    · rw [he] at h1; cases h1
    · rw [he] at h1; cases h1
      simpa [handlerKind, defaultTokenName] using h2.symm

theorem kind_signed {s : Dict Json} {kind : HandlerKind} (he : Signed s)
    (h : s.get? "class" = none ∧ kind = .dflt ∨ ∃ c, s.get? "class" = some c ∧ handlerKind c = .ok kind) : kind = .jwt := by
  rcases h with ⟨h, -⟩ | ⟨c, h1, h2⟩
  · rw [he] at h; cases h
  · rw [he] at h1; cases h1
    simpa [handlerKind, defaultTokenName] using h2.symm

/-- The handlers of a configuration, one by one. -/
theorem factory_ok {lib : FactoryLib} {conf : FactoryConf} {hs : Dict Made} (h : factory lib conf = .ok hs) :
    (∀ n cls, (n, cls) ∈ tokenSettings →
      (settingsOf conf n = none → hs.get? cls = none) ∧
      (∀ s, settingsOf conf n = some s → ∃ m, makeClass lib conf n cls s = .ok m ∧ hs.get? cls = some m)) ∧
    (conf.idToken = none → hs.get? "id_token" = none) ∧
    (∀ s, conf.idToken = some s → ∃ m, initHandler lib s "" = .ok m ∧ hs.get? "id_token" = some m) ∧
    (∀ n, n ∉ ["authorization_code", "access_token", "refresh_token", "id_token"] → hs.get? n = none) := by
  have wm : ∀ {a b : Dict Made} {cls : String} {sp : Option (Dict Json)} {mk : Dict Json → Except Exc Made},
      withMade a cls sp mk = .ok b → (∀ n, n ≠ cls → b.get? n = a.get? n) ∧ (sp = none → b.get? cls = a.get? cls) ∧
        ∀ s, sp = some s → ∃ m, mk s = .ok m ∧ b.get? cls = some m := by
    intro a b cls sp mk h
    unfold withMade at h
    cases sp with
    | none => cases h; exact ⟨fun _ _ => rfl, fun _ => rfl, nofun⟩
    | some s =>
      simp only [] at h
      cases hm : mk s with
      | error e => rw [hm] at h; cases h
      | ok m =>
        rw [hm] at h
        cases h
        refine ⟨fun n hn => by rw [Dict.get?_set, if_neg (Ne.symm hn)], nofun, ?_⟩
        intro s' hs'
        cases hs'
        exact ⟨m, hm, by rw [Dict.get?_set, if_pos rfl]⟩
  unfold factory at h
  split at h
  · cases h
  · rename_i a ha
    split at h
    · cases h
    · rename_i b hb
      split at h
      · cases h
      · rename_i c hc
        obtain ⟨a1, a2, a3⟩ := wm ha
        obtain ⟨b1, b2, b3⟩ := wm hb
        obtain ⟨c1, c2, c3⟩ := wm hc
        obtain ⟨d1, d2, d3⟩ := wm h
        refine ⟨?_, ?_, d3, ?_⟩
        · intro n cls hn
          simp only [tokenSettings, List.mem_cons, Prod.mk.injEq, List.not_mem_nil, or_false] at hn
          rcases hn with ⟨rfl, rfl⟩ | ⟨rfl, rfl⟩ | ⟨rfl, rfl⟩
          · rw [d1 _ (by decide), c1 _ (by decide), b1 _ (by decide)]
            exact ⟨fun hn => by rw [a2 hn]; rfl, a3⟩
          · rw [d1 _ (by decide), c1 _ (by decide)]
            exact ⟨fun hn => by rw [b2 hn, a1 _ (by decide)]; rfl, b3⟩
          · rw [d1 _ (by decide)]
            exact ⟨fun hn => by rw [c2 hn, b1 _ (by decide), a1 _ (by decide)]; rfl, c3⟩
        · intro hn
          rw [d2 hn, c1 _ (by decide), b1 _ (by decide), a1 _ (by decide)]; rfl
        · intro n hn
          simp only [List.mem_cons, List.not_mem_nil, or_false, not_or] at hn
          rw [d1 _ hn.2.2.2, c1 _ hn.2.2.1, b1 _ hn.2.1, a1 _ hn.1]; rfl

/-! ### C107 -/

/-- C107.  If the provider starts, each class of tokens that is configured has a handler of the configured kind, with the
configured life time and algorithm, and a class that is not configured has none. -/
theorem C107_made (lib : FactoryLib) (conf : FactoryConf) (hs : Dict Made) (h : factory lib conf = .ok hs) (n cls : String)
    (hn : (n, cls) ∈ tokenSettings) :
    (settingsOf conf n = none → hs.get? cls = none) ∧
    ∀ s, settingsOf conf n = some s → Grouped s → ∃ m, hs.get? cls = some m ∧
      (Encrypted s → (∃ C, m.handler = .dflt C cls m.lifetime) ∧ ∀ lt, Lifetime s 300 lt → m.lifetime = lt) ∧
      (Signed s → (∃ alg, m.handler = .jwt cls alg m.lifetime ∧
          (∀ a, (kwargsOf s).get? "alg" = some (.str a) → alg = a) ∧ ((kwargsOf s).get? "alg" = none → alg = "ES256")) ∧
        ∀ lt, Lifetime s 1800 lt → m.lifetime = lt) := by
  obtain ⟨h1, h2⟩ := (factory_ok h).1 n cls hn
  refine ⟨h1, fun s hs' hg => ?_⟩
  obtain ⟨m, hm, hg'⟩ := h2 s hs'
  obtain ⟨kind, args, k1, k2, k3, k4, -⟩ := makeClass_ok hg hm
  refine ⟨m, hg', fun he => ?_, fun he => ?_⟩
  · rw [kind_encrypted he k1] at k2
    obtain ⟨p, -, q2, q3⟩ := makeDefault_ok k2
    exact ⟨⟨_, q2⟩, fun lt hl => lifetimeArg_of k3 q3 hl⟩
  · rw [kind_signed he k1] at k2
    obtain ⟨⟨alg, q1, q2, q3⟩, q4⟩ := makeJwt_ok k2
    rw [k4] at q2 q3
    exact ⟨⟨alg, q1, q2, q3⟩, fun lt hl => lifetimeArg_of k3 q4 hl⟩

/-- C107.  The key that tokens of a class are encrypted with is the one that the configured file has for it, with the configured
definitions of keys. -/
theorem C107_key_source (lib : FactoryLib) (conf : FactoryConf) :
    ∃ defs file ro, KeysFrom lib conf defs file ro ∧ ∀ n, factoryKey lib conf n = lib.jar defs file ro n := by
  refine ⟨keyDefs conf, keyFile lib.defaultFile conf, keysReadOnly conf, ?_, fun _ => rfl⟩
  have hsay : ∀ k, (conf.jwksDef.getD []).get? k = jarSays conf k := by
    intro k; unfold jarSays; cases conf.jwksDef <;> rfl
  constructor
  · intro h
    unfold keyFile
    simp [h]
  · intro h p hp hs
    unfold keyFile
    simp only [h, hsay, hs, pathOf, ne_eq, not_true_eq_false, if_false, if_neg hp]
  · intro h hs
    unfold keyFile
    simp only [h, hsay, ne_eq, not_true_eq_false, if_false]
    cases hq : jarSays conf "private_path" with
    | none => simp [pathOf]
    | some v =>
      cases v with
      | str p => rw [hs p hq]; simp [pathOf]
      | _ => simp [pathOf]
  · intro d ds h
    unfold keyDefs
    rw [hsay, h]
  · intro h
    have hk : keyDefs conf = [("code", conf.code), ("refresh", conf.refresh), ("token", conf.token)].filterMap (fun p =>
        match p.2 with
        | some spec => if isDefaultSpec spec then some (keyDef p.1) else none
        | none => none) := by
      unfold keyDefs
      rw [hsay]
      split
      · rename_i d ds hd; exact absurd hd (h d ds)
      · rfl
    rw [hk]
    have hone : ∀ (n : String) (o : Option (Dict Json)) (x : Json),
        (match o with
          | some spec => if isDefaultSpec spec then some (keyDef n) else none
          | none => none) = some x ↔ ∃ s, o = some s ∧ Encrypted s ∧ keyDef n = x := by
      intro n o x
      cases o with
      | none => simp
      | some s =>
        simp only [Option.some.injEq, exists_eq_left']
        rw [← isDefaultSpec_iff]
        split <;> simp_all
    refine ⟨?_, fun x => ?_⟩
    · have hne : ∀ a b : String, a ≠ b → keyDef a ≠ keyDef b := by
        intro a b hab he
        unfold keyDef at he
        simp at he
        exact hab he
      refine List.Pairwise.filterMap (R := fun a b => a.1 ≠ b.1) _ (fun a b hab x hx y hy => ?_) (by simp)
      obtain ⟨-, -, -, rfl⟩ := (hone _ _ _).1 hx
      obtain ⟨-, -, -, rfl⟩ := (hone _ _ _).1 hy
      exact hne _ _ hab
    · simp only [List.mem_filterMap, List.mem_cons, List.not_mem_nil, or_false]
      constructor
      · rintro ⟨p, hp, hx⟩
        obtain ⟨s, h1, h2, h3⟩ := (hone _ _ _).1 hx
        rcases hp with rfl | rfl | rfl
        · exact ⟨"code", s, h1, h2, h3.symm⟩
        · exact ⟨"refresh", s, h1, h2, h3.symm⟩
        · exact ⟨"token", s, h1, h2, h3.symm⟩
      · rintro ⟨n, s, h1, h2, rfl⟩
        unfold settingsOf at h1
        split at h1
        · exact ⟨_, .inl rfl, (hone _ _ _).2 ⟨s, h1, h2, rfl⟩⟩
        · exact ⟨_, .inr (.inr rfl), (hone _ _ _).2 ⟨s, h1, h2, rfl⟩⟩
        · exact ⟨_, .inr (.inl rfl), (hone _ _ _).2 ⟨s, h1, h2, rfl⟩⟩
        · cases h1
  · unfold keysReadOnly
    rw [hsay]
    cases hq : jarSays conf "read_only" with
    | none => simp [Json.truthy]
    | some v => simp

/-- C107, for the keys, unless a password is given at the top of the settings besides "kwargs".  If the provider starts and the
key file has a key for the class, then tokens are encrypted with that key. -/
theorem C107_key_partial (lib : FactoryLib) (conf : FactoryConf) (hs : Dict Made) (h : factory lib conf = .ok hs)
    (n cls : String) (hn : (n, cls) ∈ tokenSettings) (s : Dict Json) (hs' : settingsOf conf n = some s) (hg : Grouped s)
    (he : Encrypted s) (htop : s.get? "password" = none) (hcl : s.get? "class" ≠ none → s.get? "kwargs" ≠ none) (k : String)
    (hk : factoryKey lib conf n = some k) :
    ∃ lt, (hs.get? cls).map Made.handler = some (.dflt (lib.cipher k) cls lt) := by
  obtain ⟨m, hm, hg'⟩ := ((factory_ok h).1 n cls hn).2 s hs'
  obtain ⟨kind, args, k1, k2, k3, k4, k5⟩ := makeClass_ok hg hm
  obtain ⟨f1, f2, -⟩ := k5 he
  rw [kind_encrypted he k1] at k2
  obtain ⟨p, q1, q2, q3⟩ := makeDefault_ok k2
  have hp : p = k := by
    by_cases hc : s.get? "class" = none
    · rw [f1 k hk hc (.inl htop)] at q1; cases q1; rfl
    · rw [f2 k hk hc (hcl hc)] at q1; cases q1; rfl
  subst hp
  exact ⟨m.lifetime, by rw [hg']; simp [q2]⟩

/-- C107.  Tokens are never encrypted with a key that is neither in the key file nor among the settings. -/
theorem C107_no_other_key (lib : FactoryLib) (conf : FactoryConf) (hs : Dict Made) (h : factory lib conf = .ok hs)
    (n cls : String) (hn : (n, cls) ∈ tokenSettings) (s : Dict Json) (hs' : settingsOf conf n = some s) (hg : Grouped s)
    (he : Encrypted s) :
    ∃ p lt, (hs.get? cls).map Made.handler = some (.dflt (lib.cipher p) cls lt) ∧
      (factoryKey lib conf n = some p ∨ PasswordIn s p) := by
  obtain ⟨m, hm, hg'⟩ := ((factory_ok h).1 n cls hn).2 s hs'
  obtain ⟨kind, args, k1, k2, k3, k4, k5⟩ := makeClass_ok hg hm
  obtain ⟨-, -, f3⟩ := k5 he
  rw [kind_encrypted he k1] at k2
  obtain ⟨p, q1, q2, q3⟩ := makeDefault_ok k2
  exact ⟨p, m.lifetime, by rw [hg']; simp [q2], f3 p q1⟩

theorem get?_handlersOf (hs : Dict Made) (n : String) : (handlersOf hs).get? n = (hs.get? n).map Made.handler := by
  unfold handlersOf
  induction hs with
  | nil => rfl
  | cons p r ih =>
    obtain ⟨a, b⟩ := p
    simp only [List.map_cons, Dict.get?_cons]
    split
    · rfl
    · exact ih

/-- C107.  The handlers are registered each under the name of its class, as C29 and C75 ask. -/
theorem C107_as_configured (lib : FactoryLib) (conf : FactoryConf) (hs : Dict Made) (h : factory lib conf = .ok hs)
    (hu : Usual conf) : AsConfigured (handlersOf hs) := by
  obtain ⟨h1, h2, h3, h4⟩ := factory_ok h
  intro n hd hg
  rw [get?_handlersOf] at hg
  by_cases hid : n = "id_token"
  · subst hid
    cases hi : conf.idToken with
    | none => rw [h2 hi] at hg; cases hg
    | some s =>
      obtain ⟨m, hm, hg'⟩ := h3 s hi
      rw [hg'] at hg
      obtain ⟨hG, hc⟩ := hu.idToken s hi
      obtain ⟨kind, args, k1, k2, -⟩ := initHandler_args hG hm
      have : kind = .idt := by
        rcases k1 with ⟨k1, -⟩ | ⟨c, k1, k1'⟩
        · rw [hc] at k1; cases k1
        · rw [hc] at k1; cases k1
          simpa [handlerKind, defaultTokenName] using k1'.symm
      subst this
      have := (makeIdt_ok k2).1
      rw [Option.map_some, this] at hg
      cases hg
      rfl
  · by_cases hn : ∃ a, (a, n) ∈ tokenSettings
    · obtain ⟨a, ha⟩ := hn
      have hmem : n ∈ tokenClasses := by
        simp only [tokenSettings, List.mem_cons, Prod.mk.injEq, List.not_mem_nil, or_false] at ha
        rcases ha with ⟨rfl, rfl⟩ | ⟨rfl, rfl⟩ | ⟨rfl, rfl⟩ <;> decide
      cases hs' : settingsOf conf a with
      | none => rw [(h1 a n ha).1 hs'] at hg; cases hg
      | some s =>
        obtain ⟨hG, hk⟩ := hu.kinds a s hs'
        obtain ⟨m, hm, he, hsg⟩ := (C107_made lib conf hs h a n ha).2 s hs' hG
        rw [hm] at hg
        rcases hk with hk | hk
        · obtain ⟨⟨C, hC⟩, -⟩ := he hk
          rw [Option.map_some, hC] at hg
          cases hg
          exact ⟨rfl, hmem⟩
        · obtain ⟨⟨alg, hC, -⟩, -⟩ := hsg hk
          rw [Option.map_some, hC] at hg
          cases hg
          exact ⟨rfl, hmem⟩
    · have : hs.get? n = none := by
        apply h4
        intro hm
        simp only [List.mem_cons, List.not_mem_nil, or_false] at hm
        rcases hm with rfl | rfl | rfl | rfl
        · exact hn ⟨"code", by decide⟩
        · exact hn ⟨"token", by decide⟩
        · exact hn ⟨"refresh", by decide⟩
        · exact hid rfl
      rw [this] at hg
      cases hg

/-- C107.  A token that a configured handler has made is recognised by the configured handlers, in the order in which they are
asked, with its session id and class, for as long as it is fresh. -/
theorem C107_recognised (lib : FactoryLib) (conf : FactoryConf) (hs : Dict Made) (h : factory lib conf = .ok hs)
    (hu : Usual conf) (L : JwtLib) (hsep : Separated L (handlersOf hs)) (cls : String) (hd : Handler) (issuer : String)
    (rules : Option Int) (madeAt now : Int) (sid token : Str)
    (hm : MintedAs L (handlersOf hs) cls hd issuer rules madeAt sid token) (hf : Fresh rules madeAt now hd) :
    handlerInfo L now (handlersOf hs) token (handlerOrder hs) = .ok { sid := some sid, cls := some cls } := by
  have hord : ∃ before after, handlerOrder hs = before ++ cls :: after ∧ "id_token" ∉ before := by
    have hmem := hm.known
    have hh : cls = "refresh_token" → hs.has "refresh_token" = true := by
      rintro rfl
      have := hm.handler
      rw [get?_handlersOf] at this
      unfold Dict.has
      cases hg : hs.get? "refresh_token" with
      | none => rw [hg] at this; cases this
      | some _ => rfl
    simp only [tokenClasses, List.mem_cons, List.not_mem_nil, or_false] at hmem
    rcases hmem with rfl | rfl | rfl
    · exact ⟨[], _, rfl, by simp⟩
    · exact ⟨["authorization_code"], _, rfl, by decide⟩
    · refine ⟨["authorization_code", "access_token"], ["id_token"].filter (fun c => hs.has c), ?_, by decide⟩
      unfold handlerOrder
      rw [List.filter_cons, if_pos (hh rfl)]
  obtain ⟨before, after, ho, hid⟩ := hord
  rw [ho]
  exact C29_minted_is_recognised_partial L (handlersOf hs) (C107_as_configured lib conf hs h hu) hsep cls hd issuer rules
    madeAt now sid token hm hf before after hid

end OidcOp
