/-
What logout does to the session database.
-/
import Verif.Spec.Logout
import Verif.Props.TokenHome

namespace OidcOp
open Spec

/-- The records with the user's sessions with some clients revoked. -/
def loggedOut (V : SKey → Option (Nat × Obj)) (u : String) (cs : List String) (k : SKey) : Option (Nat × Obj) :=
  match k with
  | .usr _ => V k
  | .cli u' c' => if u' = u ∧ c' ∈ cs then (V k).map (fun p => (p.1, p.2.revoke)) else V k
  | .gra u' c' _ => if u' = u ∧ c' ∈ cs then (V k).map (fun p => (p.1, p.2.revoke)) else V k

theorem Obj.revoke_revoke (o : Obj) : o.revoke.revoke = o.revoke := by cases o <;> rfl

theorem loggedOut_cons (V : SKey → Option (Nat × Obj)) (u c : String) (cs : List String) :
    loggedOut (loggedOut V u [c]) u cs = loggedOut V u (c :: cs) := by
  funext k
  cases k with
  | usr _ => rfl
  | cli u' c' =>
    simp only [loggedOut]
    by_cases h1 : u' = u <;> by_cases h2 : c' = c <;> by_cases h3 : c' ∈ cs <;>
      simp [h1, h2, h3, Option.map_map, Function.comp_def, Obj.revoke_revoke]
    all_goals (subst h2; simp_all)
  | gra u' c' g' =>
    simp only [loggedOut]
    by_cases h1 : u' = u <;> by_cases h2 : c' = c <;> by_cases h3 : c' ∈ cs <;>
      simp [h1, h2, h3, Option.map_map, Function.comp_def, Obj.revoke_revoke]
    all_goals (subst h2; simp_all)

/-- Revoking one client session, in these terms. -/
theorem revokeClientSession_loggedOut {U : String → Prop} {s : Store} (hi : DbInv U s) {u c : String} {x : Nat × Obj}
    (hv : view U s (.cli u c) = some x) :
    ∃ s', revokeClientSession u c s = (.ok (), s') ∧ DbInv U s' ∧ view U s' = loggedOut (view U s) u [c] := by
  obtain ⟨r, o⟩ := x
  obtain ⟨ci, rfl⟩ := hi.links.typedC _ _ _ _ hv
  obtain ⟨s', he, hi', hv', _⟩ := revokeClientSession_spec hi hv
  refine ⟨s', he, hi', ?_⟩
  rw [hv']
  funext k
  cases k with
  | usr _ => simp [upd, revokedView, loggedOut]
  | cli u' c' =>
    simp only [upd, revokedView, loggedOut, List.mem_singleton]
    by_cases h : u' = u ∧ c' = c
    · obtain ⟨rfl, rfl⟩ := h
      simp [hv, Obj.revoke]
    · rw [if_neg h, if_neg]
      simp only [SKey.cli.injEq]; exact h
  | gra u' c' g' =>
    simp only [upd, revokedView, loggedOut, List.mem_singleton, reduceCtorEq, if_false]
    by_cases h : u' = u ∧ c' = c
    · obtain ⟨rfl, rfl⟩ := h
      cases hx : view U s (.gra u' c' g') with
      | none => simp
      | some y =>
        obtain ⟨r', i', h1, h2⟩ := hi.links.up2 _ _ _ _ hx
        rw [hv] at h1
        simp only [Option.some.injEq, Prod.mk.injEq, Obj.info.injEq] at h1
        obtain ⟨_, rfl⟩ := h1
        simp [h2]
    · rw [if_neg h, if_neg (fun h' => h ⟨h'.1, h'.2.1⟩)]

/-- `clean_sessions` for genuine session ids of one user. -/
theorem cleanSessions_spec {E : Env} {U : String → Prop} {u : String} (l : List (String × String)) {s : Store} (hi : DbInv U s)
    (hl : ∀ x ∈ l, (∃ g, E.decrypt x.2 = .ok [u, x.1, g]) ∧ ∃ y, view U s (.cli u x.1) = some y) :
    ∃ s', cleanSessions E (l.map Prod.snd) s = (.ok (), s') ∧ DbInv U s' ∧
      view U s' = loggedOut (view U s) u (l.map Prod.fst) := by
  induction l generalizing s with
  | nil =>
    refine ⟨s, rfl, hi, ?_⟩
    funext k
    cases k <;> simp [loggedOut]
  | cons x l ih =>
    obtain ⟨⟨g, hd⟩, y, hy⟩ := hl x (by simp)
    obtain ⟨s1, he1, hi1, hv1⟩ := revokeClientSession_loggedOut hi hy
    obtain ⟨s2, he2, hi2, hv2⟩ := ih hi1 (by
      intro z hz
      obtain ⟨h1, y', hy'⟩ := hl z (by simp [hz])
      refine ⟨h1, ?_⟩
      rw [hv1]
      simp only [loggedOut]
      split
      · exact ⟨_, by rw [hy']; rfl⟩
      · exact ⟨y', hy'⟩)
    refine ⟨s2, ?_, hi2, ?_⟩
    · simp only [List.map_cons, cleanSessions, revokeClientSessionE, hd, he1]
      exact he2
    · rw [hv2, hv1, List.map_cons, loggedOut_cons]

/-- The last token of a class: there is one exactly if there is a token of the class. -/
theorem lastIssued_spec (c : TokenClass) (ts : List Token) :
    (∀ t, lastIssued c ts = some t → t ∈ ts ∧ t.cls = c) ∧ (lastIssued c ts = none → ∀ t ∈ ts, t.cls ≠ c) := by
  have one : ∀ (acc : Option Token) (x t : Token), laterOf c acc x = some t → (t = x ∧ t.cls = c) ∨ acc = some t := by
    intro acc x t h
    unfold laterOf at h
    split at h
    · rename_i hx
      split at h
      · cases h; exact .inl ⟨rfl, hx⟩
      · split at h
        · cases h; exact .inl ⟨rfl, hx⟩
        · exact .inr h
    · exact .inr h
  have zero : ∀ (acc : Option Token) (x : Token), laterOf c acc x = none → acc = none ∧ x.cls ≠ c := by
    intro acc x h
    unfold laterOf at h
    split at h
    · split at h
      · cases h
      · split at h <;> cases h
    · rename_i hx; exact ⟨h, hx⟩
  have gen : ∀ (ts : List Token) (acc : Option Token),
      (∀ t, ts.foldl (laterOf c) acc = some t → (t ∈ ts ∧ t.cls = c) ∨ acc = some t) ∧
      (ts.foldl (laterOf c) acc = none → acc = none ∧ ∀ t ∈ ts, t.cls ≠ c) := by
    intro ts
    induction ts with
    | nil => intro acc; exact ⟨fun t h => .inr h, fun h => ⟨h, by simp⟩⟩
    | cons x xs ih =>
      intro acc
      obtain ⟨h1, h2⟩ := ih (laterOf c acc x)
      constructor
      · intro t ht
        rcases h1 t ht with ⟨h, h'⟩ | h
        · exact .inl ⟨by simp [h], h'⟩
        · rcases one _ _ _ h with ⟨h3, h4⟩ | h3
          · exact .inl ⟨by simp [h3], h4⟩
          · exact .inr h3
      · intro hn
        obtain ⟨h3, h4⟩ := h2 hn
        obtain ⟨h5, h6⟩ := zero _ _ h3
        refine ⟨h5, fun t ht => ?_⟩
        rcases List.mem_cons.1 ht with rfl | ht
        · exact h6
        · exact h4 t ht
  obtain ⟨h1, h2⟩ := gen ts none
  refine ⟨fun t ht => ?_, fun hn => (h2 hn).2⟩
  rcases h1 t ht with h | h
  · exact h
  · cases h

theorem idTokenSid_spec {K : LogoutCtx} {U : String → Prop} {st : Store} (hi : DbInv U st) (hh : AtHome K.E U st)
    (hsid : SidAttr K) {u c : String} (gs : List String) (hgs : ∀ g ∈ gs, ∃ x, view U st (.gra u c g) = some x) :
    (∃ sid g, idTokenSid K st u c gs = .ok (some sid) ∧ K.E.decrypt sid = .ok [u, c, g] ∧
      ∃ gr, found st (.gra u c g) = some (.grant gr) ∧ (SKey.gra u c g).Good U ∧ gr.authnEvent ≠ none ∧
        ∃ t ∈ gr.issuedToken, t.cls = .idToken) ∨
    (idTokenSid K st u c gs = .ok none ∧ ∀ g ∈ gs, ∀ gr, found st (.gra u c g) = some (.grant gr) →
      gr.authnEvent ≠ none → ∀ t ∈ gr.issuedToken, t.cls ≠ .idToken) := by
  induction gs with
  | nil => exact .inr ⟨rfl, by simp⟩
  | cons g gs ih =>
    obtain ⟨⟨r, o⟩, hv⟩ := hgs g (by simp)
    obtain ⟨gr, rfl⟩ := hi.links.typedG _ _ _ _ _ hv
    have hk := (view_some hv).1
    have hdb : dbGet ⟨u, some c, some g⟩ st = .ok r := (dbGet_iff hi hk r).2 ⟨_, hv⟩
    have hobj := view_some_obj hv
    have hfound : found st (.gra u c g) = some (.grant gr) := by rw [found_view hi hk, hv]; rfl
    have rest := ih (fun g' hg' => hgs g' (by simp [hg']))
    have skip : (gr.authnEvent ≠ none → ∀ t ∈ gr.issuedToken, t.cls ≠ .idToken) →
        idTokenSid K st u c (g :: gs) = idTokenSid K st u c gs →
        (∃ sid g', idTokenSid K st u c (g :: gs) = .ok (some sid) ∧ K.E.decrypt sid = .ok [u, c, g'] ∧
          ∃ gr, found st (.gra u c g') = some (.grant gr) ∧ (SKey.gra u c g').Good U ∧ gr.authnEvent ≠ none ∧
            ∃ t ∈ gr.issuedToken, t.cls = .idToken) ∨
        (idTokenSid K st u c (g :: gs) = .ok none ∧ ∀ g' ∈ g :: gs, ∀ gr, found st (.gra u c g') = some (.grant gr) →
          gr.authnEvent ≠ none → ∀ t ∈ gr.issuedToken, t.cls ≠ .idToken) := by
      intro hno he
      rw [he]
      rcases rest with h | ⟨h1, h2⟩
      · exact .inl h
      · refine .inr ⟨h1, ?_⟩
        intro g' hg' gr' hf
        rcases List.mem_cons.1 hg' with rfl | h
        · rw [hfound] at hf
          cases hf
          exact hno
        · exact h2 g' h gr' hf
    cases hev : gr.authnEvent with
    | none =>
      exact skip (fun h => absurd hev h) (by simp only [idTokenSid, hdb, hobj, hev])
    | some ev =>
      cases hl : lastIssued .idToken gr.issuedToken with
      | none =>
        exact skip (fun _ => (lastIssued_spec _ _).2 hl) (by simp only [idTokenSid, hdb, hobj, hev, hl])
      | some t =>
        obtain ⟨ht, hcls⟩ := (lastIssued_spec _ _).1 t hl
        obtain ⟨k, sid, hval, _, hd⟩ := hh u c g r gr hv t ht
        left
        refine ⟨sid, g, ?_, hd, gr, hfound, hk, by simp [hev], t, ht, hcls⟩
        simp only [idTokenSid, hdb, hobj, hev, hl, hsid k t.cls sid t hval]

theorem notice_ok {K : LogoutCtx} {reg : LogoutReg} (h : CanTell K reg) (hu : HasLogoutUri reg) (now : Int) (n : Nat) (sid : String) :
    ∃ nt, notice K now n reg sid = .ok (some nt) := by
  unfold notice
  cases hb : reg.backUri with
  | some uri =>
    obtain ⟨h1, h2⟩ := h (by simp [hb])
    cases hc : reg.clientId with
    | none => exact absurd hc h1
    | some cid => simp only [backChannel, hb, hc, h2]; exact ⟨_, rfl⟩
  | none =>
    rcases hu with hu | hu
    · exact absurd hb hu
    · cases hf : reg.frontUri with
      | none => exact absurd hf hu
      | some f =>
        have : ∃ x, frontIframe K reg sid = some x := by
          unfold frontIframe
          simp only [hf]
          repeat' split
          all_goals exact ⟨_, rfl⟩
        obtain ⟨x, hx⟩ := this
        exact ⟨.front x, by simp only [hx]⟩

theorem clientLogout_spec {K : LogoutCtx} {U : String → Prop} {w : World} (hi : DbInv U w.st) (hh : AtHome K.E U w.st)
    (hsid : SidAttr K) {u c : String} {reg : LogoutReg} (hreg : K.clients.get? c = some reg) (hct : CanTell K reg)
    {x : Nat × Obj} (hv : view U w.st (.cli u c) = some x) :
    (Told K U w.st u c ∧ ∃ sid nt g, clientLogout K w u c = .ok (some (sid, some nt)) ∧ K.E.decrypt sid = .ok [u, c, g] ∧
      notice K w.now w.n reg sid = .ok (some nt)) ∨
    (¬ Told K U w.st u c ∧ clientLogout K w u c = .ok none) := by
  obtain ⟨r, o⟩ := x
  obtain ⟨ci, rfl⟩ := hi.links.typedC _ _ _ _ hv
  have hk := (view_some hv).1
  have hdb : dbGet ⟨u, some c, none⟩ w.st = .ok r := (dbGet_iff hi hk r).2 ⟨_, hv⟩
  have hobj := view_some_obj hv
  by_cases huri : HasLogoutUri reg
  · have hif : (reg.backUri.isNone && reg.frontUri.isNone) = false := by
      rcases huri with h | h <;> simp [Option.isNone_eq_false_iff, Option.isSome_iff_ne_none, h]
    rcases idTokenSid_spec hi hh hsid (u := u) (c := c) ci.subordinate (fun g hg => hi.links.down2 _ _ _ _ _ hv hg) with
      ⟨sid, g, h1, h2, gr, h3, h4, h5, h6⟩ | ⟨h1, h2⟩
    · left
      obtain ⟨nt, hnt⟩ := notice_ok hct huri w.now w.n sid
      exact ⟨⟨⟨reg, hreg, huri⟩, g, gr, h4, h3, h5, h6⟩, sid, nt, g,
        by simp only [clientLogout, hreg, hif, hdb, hobj, h1, hnt, if_false, Bool.false_eq_true], h2, hnt⟩
    · right
      refine ⟨?_, by simp only [clientLogout, hreg, hif, hdb, hobj, h1, if_false, Bool.false_eq_true]⟩
      rintro ⟨_, g, gr, hgood, hf, hev, t, ht, hcls⟩
      obtain ⟨r', hv'⟩ := found_grant_view hi hgood hf
      obtain ⟨r'', i'', hc'', hm⟩ := hi.links.up2 _ _ _ _ hv'
      rw [hv] at hc''
      simp only [Option.some.injEq, Prod.mk.injEq, Obj.info.injEq] at hc''
      obtain ⟨_, rfl⟩ := hc''
      exact h2 g hm gr hf hev t ht hcls
  · right
    have hif : (reg.backUri.isNone && reg.frontUri.isNone) = true := by
      simp only [HasLogoutUri, not_or, Decidable.not_not] at huri
      simp [huri.1, huri.2]
    refine ⟨?_, by simp only [clientLogout, hreg, hif, if_true]⟩
    rintro ⟨⟨reg', hr', hu'⟩, _⟩
    rw [hreg] at hr'
    cases hr'
    exact huri hu'

theorem clientLogouts_spec {K : LogoutCtx} {U : String → Prop} {w : World} (hi : DbInv U w.st) (hh : AtHome K.E U w.st)
    (hsid : SidAttr K) {u : String} (cs : List String)
    (hreg : ∀ c ∈ cs, ∃ reg, K.clients.get? c = some reg ∧ CanTell K reg)
    (hv : ∀ c ∈ cs, ∃ x, view U w.st (.cli u c) = some x) :
    ∃ l, clientLogouts K w u cs = .ok l ∧
      (∀ x ∈ l, x.1 ∈ cs ∧ Told K U w.st u x.1 ∧ (∃ g, K.E.decrypt x.2.1 = .ok [u, x.1, g]) ∧
        ∃ reg nt, K.clients.get? x.1 = some reg ∧ x.2.2 = some nt ∧ notice K w.now w.n reg x.2.1 = .ok (some nt)) ∧
      (∀ c ∈ cs, Told K U w.st u c → ∃ x ∈ l, x.1 = c) := by
  induction cs with
  | nil => exact ⟨[], rfl, by simp, by simp⟩
  | cons c cs ih =>
    obtain ⟨l, h1, h2, h3⟩ := ih (fun c' h => hreg c' (by simp [h])) (fun c' h => hv c' (by simp [h]))
    obtain ⟨reg, hr, hct⟩ := hreg c (by simp)
    obtain ⟨x, hx⟩ := hv c (by simp)
    rcases clientLogout_spec hi hh hsid hr hct hx with ⟨ht, sid, nt, g, h4, h5, h6⟩ | ⟨ht, h4⟩
    · refine ⟨(c, sid, some nt) :: l, by simp only [clientLogouts, h4, h1], ?_, ?_⟩
      · intro y hy
        rcases List.mem_cons.1 hy with rfl | hy
        · exact ⟨by simp, ht, ⟨g, h5⟩, reg, nt, hr, rfl, h6⟩
        · obtain ⟨a, b⟩ := h2 y hy
          exact ⟨by simp [a], b⟩
      · intro c' hc' htold
        rcases List.mem_cons.1 hc' with rfl | hc'
        · exact ⟨_, List.mem_cons_self, rfl⟩
        · obtain ⟨y, hy, e⟩ := h3 c' hc' htold
          exact ⟨y, by simp [hy], e⟩
    · refine ⟨l, by simp only [clientLogouts, h4, h1], ?_, ?_⟩
      · intro y hy
        obtain ⟨a, b⟩ := h2 y hy
        exact ⟨by simp [a], b⟩
      · intro c' hc' htold
        rcases List.mem_cons.1 hc' with rfl | hc'
        · exact absurd htold ht
        · exact h3 c' hc' htold

/-- A user's record lists the clients the user has a session with. -/
theorem told_listed {K : LogoutCtx} {U : String → Prop} {st : Store} (hi : DbInv U st) {u c : String} (h : Told K U st u c)
    {r : Nat} {ui : SInfo} (hu : view U st (.usr u) = some (r, .info ui)) : c ∈ ui.subordinate := by
  obtain ⟨_, g, gr, hgood, hf, _⟩ := h
  obtain ⟨r', hv'⟩ := found_grant_view hi hgood hf
  obtain ⟨r1, i1, h1, _⟩ := hi.links.up2 _ _ _ _ hv'
  obtain ⟨r2, i2, h2, h3⟩ := hi.links.up1 _ _ _ h1
  rw [hu] at h2
  simp only [Option.some.injEq, Prod.mk.injEq, Obj.info.injEq] at h2
  obtain ⟨_, rfl⟩ := h2
  exact h3

/-- From the records to what is found. -/
theorem ended_of_view {U : String → Prop} {st st' : Store} (hi : DbInv U st) (hi' : DbInv U st') {u : String} {cs : List String}
    (hv : view U st' = loggedOut (view U st) u cs) :
    (∀ c ∈ cs, (∃ x, view U st (.cli u c) = some x) → SessionEnded U st st' u c) ∧
    ∀ k : SKey, k.Good U → ¬ (k.user = u ∧ ∃ c ∈ cs, clientOf k = some c) → found st' k = found st k := by
  constructor
  · rintro c hc ⟨⟨r, o⟩, hx⟩
    obtain ⟨ci, rfl⟩ := hi.links.typedC _ _ _ _ hx
    have hk := (view_some hx).1
    refine ⟨⟨ci, by rw [found_view hi hk, hx]; rfl, ?_⟩, fun g gr hgood hf => ?_⟩
    · rw [found_view hi' hk, hv]
      simp only [loggedOut, hc, and_self, if_true, hx]
      rfl
    · obtain ⟨r', hv'⟩ := found_grant_view hi hgood hf
      rw [found_view hi' hgood, hv]
      simp only [loggedOut, hc, and_self, if_true, hv']
      rfl
  · intro k hk hn
    rw [found_view hi' hk, found_view hi hk, hv]
    cases k with
    | usr _ => rfl
    | cli u' c' =>
      simp only [loggedOut]
      rw [if_neg]
      rintro ⟨rfl, h⟩
      exact hn ⟨rfl, c', h, rfl⟩
    | gra u' c' g' =>
      simp only [loggedOut]
      rw [if_neg]
      rintro ⟨rfl, h⟩
      exact hn ⟨rfl, c', h, rfl⟩

end OidcOp
