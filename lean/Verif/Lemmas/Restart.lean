/-
A provider that was stopped and started again goes on like one that was not.
-/
import Verif.Lemmas.Bare

namespace OidcOp
open Spec

/-- The two providers cannot be told apart; `w` is the one that was not stopped. -/
structure Sim (U : String → Prop) (w w' : World) : Prop where
  n : w'.n = w.n
  now : w'.now = w.now
  pool : w'.pool = w.pool
  log : w'.log.map Spec.Event.seen = w.log.map Spec.Event.seen
  av : av U w'.st = av U w.st
  inv : HInv U (fun _ => false = true) w.st
  inv' : HInv U (fun _ => false = true) w'.st

/-- If a handler recognises the value, it finds a session id that the provider made. -/
def Known (E : Env) (U : String → Prop) (v : String) : Prop := ∀ t sid, E.info v t = .ok (some sid) → sid = "" ∨ SidFor E U sid

theorem known_made {E : Env} {U : String → Prop} {n : Nat} {c : TokenClass} {sid v : String} (h : E.Made n c sid v)
    (hs : SidFor E U sid) : Known E U v := by
  intro t sid' hi
  have := h.seal hi
  cases this
  exact .inr hs

theorem known_issued {E : Env} {U : String → Prop} {w : World} (hw : WInv E (SidFor E U) w) {r i : Nat} {g : Grant} {t : Token}
    (h1 : w.core.st.grantAt r = some g) (h2 : g.issuedToken[i]? = some t) : Known E U t.value := by
  obtain ⟨k, sid, _, hm, hs⟩ := hw.core.prov r g i t h1 h2
  exact known_made hm hs

/-- Looking up the session of a value in the two. -/
theorem sim_byToken {E : Env} {U : String → Prop} {w w' : World} (h : Sim U w w') {v : String} (hk : Known E U v) :
    (∃ e, sessionByToken E w v = .error e ∧ sessionByToken E w' v = .error e) ∨
    (∃ s r i, sessionByToken E w v = .ok s ∧ sessionByToken E w' v = .ok { s with ref := r, grant := s.grant.withId i } ∧
      SidFor E U s.sid ∧ sessionOf E w.st s.sid = .ok s ∧
      sessionOf E w'.st s.sid = .ok { s with ref := r, grant := s.grant.withId i }) := by
  unfold sessionByToken
  rw [h.now, h.n]
  cases hi : E.info v w.now with
  | error e => exact .inl ⟨e, rfl, rfl⟩
  | ok sid? =>
    simp only []
    cases ht : truthyStr sid? with
    | none => exact .inl ⟨_, rfl, rfl⟩
    | some sid =>
      simp only []
      have hsid : sid? = some sid ∧ sid ≠ "" := by
        unfold truthyStr at ht
        cases sid? with
        | none => cases ht
        | some x =>
          simp only [] at ht
          split at ht
          · cases ht
          · cases ht; rename_i hx; exact ⟨rfl, hx⟩
      obtain ⟨rfl, hne⟩ := hsid
      have hs : SidFor E U sid := (hk _ _ hi).resolve_left hne
      have hs2 := sidFor_closed E U w.n sid hs
      have hr := sessRel h.inv.inv h.inv'.inv h.av hs2
      generalize hx : sessionOf E w.st (compatibleSid E w.n sid) = x at hr
      generalize hy : sessionOf E w'.st (compatibleSid E w.n sid) = y at hr
      cases hr with
      | error e => exact .inl ⟨e, rfl, rfl⟩
      | ok s r i =>
        have he := (sessionOf_spec hx).2.1
        refine .inr ⟨s, r, i, rfl, rfl, ?_, ?_, ?_⟩
        · rw [he]; exact hs2
        · rw [he]; exact hx
        · exact (congrArg (sessionOf E w'.st) he).trans hy

theorem sim_commit {E : Env} {U : String → Prop} {w w' : World} (h : Sim U w w')
    (hU : ∀ n u c g, (SKey.gra u c g).Good U → ¬ U (E.encSid n [u, c, g])) {s : Sess} {sid : String} {r : Nat} {i : String}
    (hS : SidFor E U sid) (hs : sessionOf E w.st sid = .ok s)
    (hs' : sessionOf E w'.st sid = .ok { s with ref := r, grant := s.grant.withId i }) (gs : GS) (j : String) :
    Sim U (w.commit s gs) (w'.commit { s with ref := r, grant := s.grant.withId i } (gs.withId j)) := by
  obtain ⟨h1, h2⟩ := commit_av h.inv hU hS hs gs
  obtain ⟨h3, h4⟩ := commit_av h.inv' hU hS hs' (gs.withId j)
  refine ⟨rfl, h.now, h.pool, h.log, ?_, h1, h3⟩
  rw [h2, h4, h.av]
  rfl

theorem sim_codeParse {E : Env} {U : String → Prop} {w w' : World} (h : Sim U w w')
    (hU : ∀ n u c g, (SKey.gra u c g).Good U → ¬ U (E.encSid n [u, c, g])) {req : TokenReq} (hk : ∀ v, req.code = some v → Known E U v) :
    (codeParseW E w' req).1 = (codeParseW E w req).1 ∧ Sim U (codeParseW E w req).2 (codeParseW E w' req).2 := by
  unfold codeParseW
  cases hc : req.code with
  | none => exact ⟨rfl, h⟩
  | some code =>
    simp only []
    rcases sim_byToken h (hk code hc) with ⟨e, h1, h2⟩ | ⟨s, r, i, h1, h2, h3, h4, h5⟩
    · simp only [h1, h2]
      split
      · exact ⟨rfl, h⟩
      · exact ⟨rfl, h⟩
    · simp only [h1, h2, h.now, h.n]
      rw [withId_codeParse]
      exact ⟨rfl, sim_commit h hU h3 h4 h5 ⟨_, w.n⟩ i⟩

theorem sim_refreshParse {E : Env} {U : String → Prop} {w w' : World} (h : Sim U w w') {req : TokenReq}
    (hk : ∀ v, req.refreshToken = some v → Known E U v) : refreshParseW E w' req = refreshParseW E w req := by
  unfold refreshParseW
  cases hc : req.refreshToken with
  | none => rfl
  | some v =>
    simp only []
    rcases sim_byToken h (hk v hc) with ⟨e, h1, h2⟩ | ⟨s, r, i, h1, h2, h3, h4, h5⟩
    · simp only [h1, h2]
    · simp only [h1, h2, h.now, withId_refreshParse]

theorem sim_tokenParse {E : Env} {U : String → Prop} {w w' : World} (h : Sim U w w')
    (hU : ∀ n u c g, (SKey.gra u c g).Good U → ¬ U (E.encSid n [u, c, g])) (client : String) {req : TokenReq}
    (hk : Unforged E U req) :
    (tokenParse E w' client req).1 = (tokenParse E w client req).1 ∧
      Sim U (tokenParse E w client req).2 (tokenParse E w' client req).2 := by
  unfold tokenParse
  cases req.grantType with
  | none => exact ⟨rfl, h⟩
  | some gt =>
    simp only []
    cases E.cfg.cdb.get? client with
    | none => exact ⟨rfl, h⟩
    | some cl =>
      simp only []
      split
      · exact ⟨rfl, h⟩
      · split
        · exact sim_codeParse h hU (fun v hv => hk v (.inl hv))
        · split
          · exact ⟨sim_refreshParse h (fun v hv => hk v (.inr hv)), h⟩
          · exact ⟨rfl, h⟩

/-- The two answers of a helper. -/
inductive HelperRel : Except Exc (HRes × Option (Sess × Bool × String)) → Except Exc (HRes × Option (Sess × Bool × String)) → Prop
  | error (e : Exc) : HelperRel (.error e) (.error e)
  | none (r : HRes) : HelperRel (.ok (r, none)) (.ok (r, none))
  | some (r : HRes) (s : Sess) (rf : Bool) (v : String) (ref : Nat) (i : String) :
      HelperRel (.ok (r, some (s, rf, v))) (.ok (r, some ({ s with ref := ref, grant := s.grant.withId i }, rf, v)))

theorem sim_tokenHelper {E : Env} {U : String → Prop} {w w' : World} (hw : WInv E (SidFor E U) w) (h : Sim U w w')
    (hU : ∀ n u c g, (SKey.gra u c g).Good U → ¬ U (E.encSid n [u, c, g])) (kw : Option Bool) {req : TokenReq}
    (hp : req ∈ w.pool) :
    HelperRel (tokenHelper E w kw req).1 (tokenHelper E w' kw req).1 ∧
      Sim U (tokenHelper E w kw req).2 (tokenHelper E w' kw req).2 := by
  have hok := hw.pool req hp
  unfold tokenHelper
  cases hgt : req.grantType with
  | none => exact ⟨.error _, h⟩
  | some gt =>
    simp only []
    by_cases hc : gt = "authorization_code"
    · subst hc
      simp only [if_true]
      cases hcode : req.code with
      | none => exact ⟨.none _, h⟩
      | some code =>
        obtain ⟨r, g, i, t, h1, h2, h3, h4⟩ := hok.code code hgt hcode
        have hplus : spaceToPlus code = code := by
          obtain ⟨k, sid, _, hk, _⟩ := hw.core.prov r g i t h1 h2
          rw [← h3]; exact hk.plus
        have hkn : Known E U code := h3 ▸ known_issued hw h1 h2
        simp only [hplus]
        rcases sim_byToken h hkn with ⟨e, h1, h2⟩ | ⟨s, r, i, h1, h2, h3, h4, h5⟩
        · simp only [h1, h2]
          exact ⟨.error _, h⟩
        · simp only [h1, h2, h.now, h.n]
          have hf := idFree_codeProcess E.cfg (minter E s.sid) w.now kw s.client req code ⟨s.grant, w.n⟩ i
          simp only [GS.withId] at hf
          rw [hf]
          rcases hx : codeProcess E.cfg (minter E s.sid) w.now kw s.client req code ⟨s.grant, w.n⟩ with ⟨res, gs⟩
          cases res with
          | error e => exact ⟨.error _, sim_commit h hU h3 h4 h5 gs i⟩
          | ok r => exact ⟨.some _ _ _ _ _ _, sim_commit h hU h3 h4 h5 gs i⟩
    · simp only [if_neg hc]
      by_cases hc2 : gt = "refresh_token"
      · subst hc2
        simp only [if_true]
        cases hv : req.refreshToken with
        | none => exact ⟨.error _, h⟩
        | some v =>
          obtain ⟨r, g, i, t, h1, h2, h3, _⟩ := hok.refresh v hgt hv
          have hkn : Known E U v := h3 ▸ known_issued hw h1 h2
          simp only []
          rcases sim_byToken h hkn with ⟨e, h1, h2⟩ | ⟨s, r, i, h1, h2, h3, h4, h5⟩
          · simp only [h1, h2]
            exact ⟨.error _, h⟩
          · simp only [h1, h2, h.now, h.n]
            have hf := idFree_refreshProcess E.cfg (minter E s.sid) w.now kw s.client req v ⟨s.grant, w.n⟩ i
            simp only [GS.withId] at hf
            rw [hf]
            rcases hx : refreshProcess E.cfg (minter E s.sid) w.now kw s.client req v ⟨s.grant, w.n⟩ with ⟨res, gs⟩
            cases res with
            | error e => exact ⟨.error _, sim_commit h hU h3 h4 h5 gs i⟩
            | ok r => exact ⟨.some _ _ _ _ _ _, sim_commit h hU h3 h4 h5 gs i⟩
      · simp only [if_neg hc2]
        exact ⟨.none _, h⟩

/-- The access token in an answer. -/
theorem helper_access {E : Env} {U : String → Prop} {w : World} (hw : WInv E (SidFor E U) w) (kw : Option Bool) {req : TokenReq}
    (hp : req ∈ w.pool) {r : TokenResp} {x : Option (Sess × Bool × String)} (h : (tokenHelper E w kw req).1 = .ok (.resp r, x))
    {a : String} (ha : r.accessToken = some a) : Known E U a := by
  obtain ⟨_, _, _, _, h5⟩ := tokenHelper_spec hw (sidFor_closed E U) kw hp
  obtain ⟨s, rf, v, rfl, ho⟩ := h5 _ _ h
  have hok := hw.pool req hp
  obtain ⟨gs, _, hcode, hrefresh⟩ := ho.out
  cases rf with
  | false =>
    obtain ⟨hgt, hv, hout⟩ := hcode rfl
    obtain ⟨r1, g, i, t, h1, h2, h3, _⟩ := hok.code v hgt hv
    have hs := sessionByToken_sid hw.core (sidFor_closed E U) ho.sess h1 h2 h3
    obtain ⟨b, b', _, _, _, hm, _⟩ := hout.base
    obtain ⟨⟨k, _, hk⟩, _⟩ := (hm a ha).1
    exact known_made (minter_ok hk) hs
  | true =>
    obtain ⟨hgt, hv, hout⟩ := hrefresh rfl
    obtain ⟨r1, g, i, t, h1, h2, h3, _⟩ := hok.refresh v hgt hv
    have hs := sessionByToken_sid hw.core (sidFor_closed E U) ho.sess h1 h2 h3
    obtain ⟨b, b', found, a', _, _, _, _, _, _, ha', hm, _⟩ := hout.base
    rw [ha] at ha'; cases ha'
    obtain ⟨⟨k, _, hk⟩, _⟩ := hm.1
    exact known_made (minter_ok hk) hs

theorem sim_tokenProcess {E : Env} {U : String → Prop} {w w' : World} (hw : WInv E (SidFor E U) w) (h : Sim U w w')
    (hU : ∀ n u c g, (SKey.gra u c g).Good U → ¬ U (E.encSid n [u, c, g])) (kw : Option Bool) {req : TokenReq}
    (hp : req ∈ w.pool) :
    (tokenProcess E w' kw req).1 = (tokenProcess E w kw req).1 ∧
      Sim U (tokenProcess E w kw req).2 (tokenProcess E w' kw req).2 := by
  obtain ⟨hr, hs⟩ := sim_tokenHelper hw h hU kw hp
  have ha := fun r x hx a hxa => helper_access (U := U) hw kw hp (r := r) (x := x) hx (a := a) hxa
  unfold tokenProcess
  rcases hx : tokenHelper E w kw req with ⟨x, w1⟩
  rcases hy : tokenHelper E w' kw req with ⟨y, w1'⟩
  rw [hx, hy] at hr hs
  rw [hx] at ha
  simp only [] at hr hs ha
  cases hr with
  | error e =>
    simp only []
    split
    · exact ⟨rfl, hs⟩
    · exact ⟨rfl, hs⟩
  | none r =>
    cases r with
    | err c => exact ⟨rfl, hs⟩
    | resp r => exact ⟨rfl, hs⟩
  | some r s rf v ref i =>
    cases r with
    | err c => exact ⟨rfl, hs⟩
    | resp r =>
      simp only []
      cases hac : r.accessToken with
      | none => exact ⟨rfl, hs⟩
      | some a =>
        simp only []
        rcases sim_byToken hs (ha r _ rfl a hac) with ⟨e, h1, h2⟩ | ⟨s2, r2, i2, h1, h2, _⟩
        · simp only [h1, h2]
          exact ⟨trivial, hs⟩
        · simp only [h1, h2]
          refine ⟨trivial, hs.n, hs.now, hs.pool, ?_, hs.av, hs.inv, hs.inv'⟩
          simp only [List.map_append, hs.log]
          rfl

theorem sim_postAuthentication {E : Env} {U : String → Prop} {w w' : World} (h : Sim U w w')
    (hU : ∀ n u c g, (SKey.gra u c g).Good U → ¬ U (E.encSid n [u, c, g])) (hcl : ClaimsIgnoreId E) {sid : String}
    (hS : SidFor E U sid) (req : AuthzReq) :
    ((∃ e, (postAuthentication E w sid req).1 = .error e ∧ (postAuthentication E w' sid req).1 = .error e) ∨
      ((postAuthentication E w sid req).1 = .ok none ∧ (postAuthentication E w' sid req).1 = .ok none) ∨
      (∃ s r i a, (postAuthentication E w sid req).1 = .ok (some (s, a)) ∧
        (postAuthentication E w' sid req).1 = .ok (some ({ s with ref := r, grant := s.grant.withId i }, a)))) ∧
      Sim U (postAuthentication E w sid req).2 (postAuthentication E w' sid req).2 := by
  unfold postAuthentication
  have hr := sessRel h.inv.inv h.inv'.inv h.av hS
  generalize hx : sessionOf E w.st sid = x at hr
  generalize hy : sessionOf E w'.st sid = y at hr
  cases hr with
  | error e => exact ⟨.inl ⟨e, rfl, rfl⟩, h⟩
  | ok s r i =>
    simp only [h.now, h.n]
    have hc : E.claims sid (s.grant.withId i) = E.claims sid s.grant := funext (hcl sid s.grant i)
    rw [hc, withId_authzCall]
    rcases ha : authzCall E.authz (E.claims sid s.grant) w.now s.client req s.grant with ⟨res, g1⟩
    cases res with
    | error e => exact ⟨.inl ⟨e, rfl, rfl⟩, sim_commit h hU hS hx hy ⟨g1, w.n⟩ i⟩
    | ok _ =>
      simp only []
      have hact : (g1.withId i).isActive w.now = g1.isActive w.now := rfl
      rw [hact]
      by_cases hact : g1.isActive w.now = false
      · simp only [if_pos hact]
        exact ⟨.inr (.inl ⟨trivial, trivial⟩), sim_commit h hU hS hx hy ⟨g1, w.n⟩ i⟩
      · simp only [if_neg hact]
        have hf := idFree_createAuthnResponse (minter E sid) w.now (E.filter s.client) req ⟨g1, w.n⟩ i
        simp only [GS.withId] at hf
        rw [hf]
        rcases hz : createAuthnResponse (minter E sid) w.now (E.filter s.client) req ⟨g1, w.n⟩ with ⟨res, gs⟩
        cases res with
        | error e => exact ⟨.inl ⟨e, rfl, rfl⟩, sim_commit h hU hS hx hy gs i⟩
        | ok a => exact ⟨.inr (.inr ⟨s, r, i, a, rfl, rfl⟩), sim_commit h hU hS hx hy gs i⟩

theorem sim_authzPart2 {E : Env} {U : String → Prop} {w w' : World} (h : Sim U w w')
    (hU : ∀ n u c g, (SKey.gra u c g).Good U → ¬ U (E.encSid n [u, c, g])) (hcl : ClaimsIgnoreId E) {sid : String}
    (hS : SidFor E U sid) (req : AuthzReq) : Sim U (authzPart2 E w sid req) (authzPart2 E w' sid req) := by
  obtain ⟨h1, h2⟩ := sim_postAuthentication h hU hcl hS req
  unfold authzPart2
  rcases hx : postAuthentication E w sid req with ⟨x, w1⟩
  rcases hy : postAuthentication E w' sid req with ⟨y, w1'⟩
  rw [hx, hy] at h1 h2
  simp only [] at h1 h2
  rcases h1 with ⟨e, rfl, rfl⟩ | ⟨rfl, rfl⟩ | ⟨s, r, i, a, rfl, rfl⟩
  · exact h2
  · exact h2
  · cases a with
    | err c d f => exact h2
    | resp a f =>
      simp only []
      split
      · refine ⟨h2.n, h2.now, h2.pool, ?_, h2.av, h2.inv, h2.inv'⟩
        simp only [List.map_append, h2.log]
        rfl
      · exact h2

theorem sim_revokeToken {E : Env} {U : String → Prop} {w w' : World} (h : Sim U w w') {sid : String} (hS : SidFor E U sid)
    (v : String) (rec : Bool) : Sim U (revokeTokenW E w sid v rec) (revokeTokenW E w' sid v rec) := by
  unfold revokeTokenW
  have hr := sessRel h.inv.inv h.inv'.inv h.av hS
  generalize hx : sessionOf E w.st sid = x at hr
  generalize hy : sessionOf E w'.st sid = y at hr
  cases hr with
  | error e => exact h
  | ok s r i =>
    simp only []
    have ht : (s.grant.withId i).getToken v = s.grant.getToken v := rfl
    rw [ht]
    cases s.grant.getToken v with
    | none => exact h
    | some t =>
      simp only []
      have key : ∀ g2 : Grant, Sim U { w with st := w.st.put s.ref (.grant g2) } { w' with st := w'.st.put r (.grant (g2.withId i)) } := by
        intro g2
        obtain ⟨hgood, _⟩ := sidFor_session hS hx
        obtain ⟨_, _, _, hd⟩ := sessionOf_spec hx
        obtain ⟨_, _, _, hd'⟩ := sessionOf_spec hy
        obtain ⟨o, ho⟩ := (dbGet_iff h.inv.inv (k := .gra s.user s.client s.gid) hgood s.ref).1 hd
        obtain ⟨gr, rfl⟩ := h.inv.inv.links.typedG _ _ _ _ _ ho
        obtain ⟨o', ho'⟩ := (dbGet_iff h.inv'.inv (k := .gra s.user s.client s.gid) hgood r).1 hd'
        obtain ⟨gr', rfl⟩ := h.inv'.inv.links.typedG _ _ _ _ _ ho'
        have hr1 := put_refines (A := fun _ => false = true) (P := fun _ => True) h.inv hgood hd (sessionOf_spec hx).1 (gr' := g2) trivial
        have hr2 := put_refines (A := fun _ => false = true) (P := fun _ => True) h.inv' hgood hd' (sessionOf_spec hy).1 (gr' := g2.withId i) trivial
        refine ⟨h.n, h.now, h.pool, h.log, ?_, hr1.hinv h.inv, hr2.hinv h.inv'⟩
        show av U (w'.st.put r _) = av U (w.st.put s.ref _)
        rw [av_put h.inv.inv ho, av_put h.inv'.inv ho', h.av]
        rfl
      cases rec with
      | false => exact key _
      | true =>
        simp only [if_true]
        have e : ((s.grant.withId i).updateToken v Token.revoke).issuedToken = (s.grant.updateToken v Token.revoke).issuedToken := rfl
        rw [e]
        cases revokeDependentFuel ((s.grant.updateToken v Token.revoke).issuedToken.length + 1) v
            (s.grant.updateToken v Token.revoke).issuedToken with
        | ok ts => exact key { s.grant.updateToken v Token.revoke with issuedToken := ts }
        | error _ => exact key _

theorem sim_step {E : Env} {U : String → Prop} {w w' : World} (hw : WInv E (SidFor E U) w) (h : Sim U w w')
    (hU : ∀ n u c g, (SKey.gra u c g).Good U → ¬ U (E.encSid n [u, c, g])) (hcl : ClaimsIgnoreId E) {op : WOp}
    (hf : FairR E U op) : Sim U (step E w op) (step E w' op) := by
  have hops : ∀ (a : SOp) (b : World → World), FairOp U a → (∀ u c g, a ≠ .addGrant u c g) → 
      HInv U (fun _ => false = true) (runOp w.st a) ∧ HInv U (fun _ => false = true) (runOp w'.st a) := by
    intro a b hfa hadd
    exact ⟨hinv_step h.inv hfa (fun u c g e => absurd e (hadd u c g)) (fun _ _ _ _ => by simp),
      hinv_step h.inv' hfa (fun u c g e => absurd e (hadd u c g)) (fun _ _ _ _ => by simp)⟩
  cases op with
  | tick d =>
    refine ⟨h.n, ?_, h.pool, h.log, h.av, h.inv, h.inv'⟩
    simp only [step, h.now]
  | login u c req ev =>
    have hk : ∀ n, (SKey.gra u c (E.uuid n)).Good U := fun n => ⟨hf.1, hf.2.1, hf.2.2, E.uuid_clean _⟩
    have hg : ∀ req rules, newGrant E w' u req ev rules = newGrant E w u req ev rules := by
      intro req rules; unfold newGrant; rw [h.n, h.now]
    have := hops (.createSession u c (newGrant E w u { req with clientId := some c } ev (E.authz.rulesOf (some c)))) id (hk _) (by simp)
    simp only [step, authzCreateSession, hg]
    refine ⟨by simp only [h.n], h.now, h.pool, h.log, ?_, this.1, this.2⟩
    rw [av_createSession h.inv.inv (hk _), av_createSession h.inv'.inv (hk _), h.av]
  | again u c req ev =>
    have hk : ∀ n, (SKey.gra u c (E.uuid n)).Good U := fun n => ⟨hf.1, hf.2.1, hf.2.2, E.uuid_clean _⟩
    have hg : ∀ req rules, newGrant E w' u req ev rules = newGrant E w u req ev rules := by
      intro req rules; unfold newGrant; rw [h.n, h.now]
    have := hops (.createGrant u c (newGrant E w u { req with clientId := some c } ev [])) id (hk _) (by simp)
    simp only [step, authzCreateGrant, hg]
    refine ⟨by simp only [h.n], h.now, h.pool, h.log, ?_, this.1, this.2⟩
    rw [av_createGrant h.inv.inv (hk _), av_createGrant h.inv'.inv (hk _), h.av]
  | addGrant u c g => exact absurd hf.2 (by simp)
  | authorize sid req => exact sim_authzPart2 h hU hcl hf req
  | parse client req =>
    have hk : Unforged E U { req with clientId := some client } := hf.2
    obtain ⟨h1, h2⟩ := sim_tokenParse h hU client hk
    simp only [step]
    rcases hx : tokenParse E w client { req with clientId := some client } with ⟨x, w1⟩
    rcases hy : tokenParse E w' client { req with clientId := some client } with ⟨y, w1'⟩
    rw [hx, hy] at h1 h2
    simp only [] at h1 h2
    subst h1
    cases y with
    | error e => exact h2
    | ok p =>
      cases p with
      | err c => exact h2
      | req r =>
        refine ⟨h2.n, h2.now, ?_, h2.log, h2.av, h2.inv, h2.inv'⟩
        simp only [h2.pool]
  | process i kw =>
    simp only [step, h.pool]
    cases hp : w.pool[i]? with
    | none => exact h
    | some req => exact (sim_tokenProcess hw h hU kw (List.mem_of_getElem? hp)).2
  | revokeToken sid v rec => exact sim_revokeToken h hf v rec
  | revokeGrant sid =>
    obtain ⟨n, u, c, g, hgood, _, hd⟩ := sidFor_decrypt hf
    have := hops (.revokeGrant u c g) id hgood (by simp)
    simp only [step, revokeGrantW, hd, evalPath]
    refine ⟨h.n, h.now, h.pool, h.log, ?_, this.1, this.2⟩
    rw [av_revokeGrant h.inv.inv hgood, av_revokeGrant h.inv'.inv hgood, h.av]
  | revokeClientSession sid =>
    obtain ⟨n, u, c, g, hgood, _, hd⟩ := sidFor_decrypt hf
    have hkc := good_cli_of_gra hgood
    have := hops (.revokeClientSession u c) id hkc (by simp)
    simp only [step, revokeClientSessionW, hd]
    refine ⟨h.n, h.now, h.pool, h.log, ?_, this.1, this.2⟩
    rw [av_revokeClient h.inv.inv hkc, av_revokeClient h.inv'.inv hkc, h.av]
  | removeSession sid =>
    obtain ⟨_, n, u, c, g, hgood, hc, rfl⟩ := hf
    have hd := E.decrypt_enc n u c g hgood.2.1 hgood.2.2.1 hgood.2.2.2
    have := hops (.removeSession u c g) id ⟨hgood, hc⟩ (by simp)
    simp only [step, removeSessionW, hd]
    refine ⟨h.n, h.now, h.pool, h.log, ?_, this.1, this.2⟩
    rw [av_removeSession h.inv hgood hc (by simp), av_removeSession h.inv' hgood hc (by simp), h.av]

theorem sim_restart {U : String → Prop} {w w' : World} (h : Sim U w w') (ids : Nat → String) : Sim U w (restart ids w') :=
  ⟨h.n, h.now, h.pool, h.log, (loaded_av h.inv'.inv.wf.valid ids).trans h.av, h.inv, loaded_hinv h.inv' ids⟩

theorem fairW_of_fairR {E : Env} {U : String → Prop} {op : WOp} (h : FairR E U op) : FairW E U false op := by
  cases op <;> first | exact h | exact h.1

theorem sim_run {E : Env} {U : String → Prop}
    (hU : ∀ n u c g, (SKey.gra u c g).Good U → ¬ U (E.encSid n [u, c, g])) (hcl : ClaimsIgnoreId E) (ops : List ROp)
    (hf : ∀ o ∈ uninterrupted ops, FairR E U o) {w w' : World} (hw : WInv E (SidFor E U) w) (h : Sim U w w') :
    WInv E (SidFor E U) (run E w (uninterrupted ops)) ∧ Sim U (run E w (uninterrupted ops)) (rrun E w' ops) := by
  induction ops generalizing w w' with
  | nil => exact ⟨hw, h⟩
  | cons o r ih =>
    cases o with
    | restart ids => exact ih hf hw (sim_restart h ids)
    | op o =>
      have ho := hf o (by simp [uninterrupted])
      have hw2 := (step_spec hw (sidFor_closed E U) o (fun sid req e => by subst e; exact ho)).2.1
      exact ih (fun x hx => hf x (by simp [uninterrupted, hx])) hw2 (sim_step hw h hU hcl ho)

theorem sim_init (U : String → Prop) (now : Int) : Sim U { now := now } { now := now } :=
  ⟨rfl, rfl, rfl, rfl, rfl, ⟨inv_empty U, once_empty U _⟩, ⟨inv_empty U, once_empty U _⟩⟩

theorem sim_found {U : String → Prop} {w w' : World} (h : Sim U w w') {k : SKey} (hk : k.Good U) :
    SameRecord (found w.st k) (found w'.st k) := by
  rw [found_view h.inv.inv hk, found_view h.inv'.inv hk]
  have := congrFun h.av k
  unfold av at this
  cases hv : view U w.st k with
  | none =>
    rw [hv] at this
    cases hv' : view U w'.st k with
    | none => trivial
    | some p => rw [hv'] at this; cases this
  | some p =>
    obtain ⟨r, o⟩ := p
    rw [hv] at this
    cases hv' : view U w'.st k with
    | none => rw [hv'] at this; cases this
    | some p' =>
      obtain ⟨r', o'⟩ := p'
      rw [hv'] at this
      simp only [Option.map_some, Option.some.injEq] at this ⊢
      cases o with
      | info i => rw [bare_eq_info this]; exact rfl
      | grant g =>
        obtain ⟨i, rfl⟩ := bare_eq_grant this
        exact ⟨i, rfl⟩

end OidcOp
