/-
Every operation of the provider is a chain of atomic steps, and what the answers tell.
-/
import Verif.Lemmas.World

namespace OidcOp
open Spec

theorem sessionOf_spec {E : Env} {st : Store} {sid : String} {s : Sess} (h : sessionOf E st sid = .ok s) :
    st.grantAt s.ref = some s.grant ∧ s.sid = sid ∧ E.decrypt sid = .ok [s.user, s.client, s.gid] ∧
      dbGet ⟨s.user, some s.client, some s.gid⟩ st = .ok s.ref := by
  unfold sessionOf at h
  split at h
  · cases h
  · rename_i u c g hd
    split at h
    · cases h
    · rename_i r hr
      split at h
      · rename_i gr ho
        cases h
        exact ⟨grantAt_iff.2 ho, rfl, hd, hr⟩
      · cases h
  · cases h

theorem sessionByToken_spec {E : Env} {w : World} {v : String} {s : Sess} (h : sessionByToken E w v = .ok s) :
    ∃ sid, E.info v w.now = .ok (some sid) ∧ sessionOf E w.st (compatibleSid E w.n sid) = .ok s := by
  unfold sessionByToken at h
  split at h
  · cases h
  · rename_i sid? hi
    split at h
    · cases h
    · rename_i sid hs
      cases sid? with
      | none => simp [truthyStr] at hs
      | some x =>
        simp only [truthyStr] at hs
        split at hs
        · cases hs
        · cases hs; exact ⟨sid, hi, h⟩

theorem sessionByToken_grantAt {E : Env} {w : World} {v : String} {s : Sess} (h : sessionByToken E w v = .ok s) :
    w.st.grantAt s.ref = some s.grant := by
  obtain ⟨_, _, h2⟩ := sessionByToken_spec h
  exact (sessionOf_spec h2).1

theorem commit_chain {E : Env} {S : String → Prop} {w : World} {s : Sess} {gs : GS} {sid : String}
    (hg : w.st.grantAt s.ref = some s.grant) (h : Micros (minter E sid) w.now ⟨s.grant, w.n⟩ gs)
    (hS : S sid ∨ gs.g.issuedToken.length = s.grant.issuedToken.length) :
    Chain E S w.core (w.commit s gs).core ∧ (w.commit s gs).st.grantAt s.ref = some gs.g := by
  have h1 := chain_micros (S := S) (c := w.core) hg h hS
  have h2 := grantAt_put_self hg gs.g
  have hm : w.n ≤ gs.n := by
    exact (mono_chain h1).1
  unfold World.commit World.core at *
  simp only [] at *
  split
  · exact ⟨h1, h2⟩
  · have ha : DbStep NoTokens (w.st.put s.ref (.grant gs.g)) (aliasSid s.sid s.ref (w.st.put s.ref (.grant gs.g))).2 :=
      safe_aliasSid _ _ _
    refine ⟨.snoc h1 (.db _ _ 0 ha), ?_⟩
    exact h2

theorem commit_pool (w : World) (s : Sess) (gs : GS) :
    (w.commit s gs).pool = w.pool ∧ (w.commit s gs).log = w.log ∧ (w.commit s gs).now = w.now := ⟨rfl, rfl, rfl⟩

/-- What is known of a token request that was accepted. -/
structure PoolOK (c : Core) (req : TokenReq) : Prop where
  code : ∀ v, req.grantType = some "authorization_code" → req.code = some v →
    ∃ (r : Nat) (g : Grant) (i : Nat) (t : Token), c.st.grantAt r = some g ∧ g.issuedToken[i]? = some t ∧
      t.value = v ∧ t.cls = .authorizationCode
  refresh : ∀ v, req.grantType = some "refresh_token" → req.refreshToken = some v →
    ∃ (r : Nat) (g : Grant) (i : Nat) (t : Token), c.st.grantAt r = some g ∧ g.issuedToken[i]? = some t ∧
      t.value = v ∧ t.cls = .refreshToken ∧ (∀ sc, req.scope = some sc → ∀ x ∈ sc, x ∈ g.scope) ∧
      ∀ sc, req.scope = some sc → ∃ found, EffScope g t.basedOn found ∧ ∀ x ∈ sc, x ∈ found

theorem PoolOK.chain {E : Env} {S : String → Prop} {c c' : Core} {req : TokenReq} (h : PoolOK c req) (hc : Chain E S c c') : PoolOK c' req := by
  constructor
  · intro v h1 h2
    obtain ⟨r, g, i, t, h3, h4, h5, h6⟩ := h.code v h1 h2
    obtain ⟨g', h7, h8⟩ := grantLe_chain hc h3
    obtain ⟨t', h9, h10⟩ := h8.tokens i t h4
    have hf := static_fields h10.static
    exact ⟨r, g', i, t', h7, h9, hf.2.1.trans h5, hf.1.trans h6⟩
  · intro v h1 h2
    obtain ⟨r, g, i, t, h3, h4, h5, h6, hs, he⟩ := h.refresh v h1 h2
    obtain ⟨g', h7, h8⟩ := grantLe_chain hc h3
    obtain ⟨t', h9, h10⟩ := h8.tokens i t h4
    have hf := static_fields h10.static
    refine ⟨r, g', i, t', h7, h9, hf.2.1.trans h5, hf.1.trans h6, fun sc hsc x hx => ?_, fun sc hsc => ?_⟩
    · have hx' := hs sc hsc x hx
      rw [h8.scope (by rintro e; rw [e] at hx'; cases hx')]
      exact hx'
    · obtain ⟨found, he1, he2⟩ := he sc hsc
      obtain ⟨found', he3, he4⟩ := he1.mono h8
      exact ⟨found', by rw [hf.2.2.1]; exact he3, fun x hx => he4 x (he2 x hx)⟩

structure WInv (E : Env) (S : String → Prop) (w : World) : Prop where
  core : CInv E S w.core
  pool : ∀ req ∈ w.pool, PoolOK w.core req

/-- What is known of session ids survives the conversion of old ones. -/
def SidClosed (E : Env) (S : String → Prop) : Prop := ∀ n sid, S sid → S (compatibleSid E n sid)

theorem sidClosed_true (E : Env) : SidClosed E (fun _ => True) := fun _ _ _ => trivial

theorem sessionByToken_sid {E : Env} {S : String → Prop} {w : World} (hw : CInv E S w.core) (hcl : SidClosed E S)
    {v : String} {s : Sess} (hs : sessionByToken E w v = .ok s) {r : Nat} {g : Grant} {i : Nat} {t : Token}
    (hg : w.core.st.grantAt r = some g) (ht : g.issuedToken[i]? = some t) (hv : t.value = v) : S s.sid := by
  obtain ⟨sid, h1, h2⟩ := sessionByToken_spec hs
  obtain ⟨k, sid', _, h3, h4⟩ := hw.prov r g i t hg ht
  rw [← hv] at h1
  have := h3.seal h1
  cases this
  rw [(sessionOf_spec h2).2.1]
  exact hcl _ _ h4

/-! ### token endpoint: parse -/

theorem codeParse_length {cfg : TokenCfg} {clock : Int} {req : TokenReq} {code : String} {g g' : Grant}
    {res : Except Exc PRes} (h : codeParse cfg clock req code g = (res, g')) :
    g'.issuedToken.length = g.issuedToken.length := by
  unfold codeParse at h
  repeat' split at h
  all_goals simp only [Prod.mk.injEq] at h
  all_goals obtain ⟨_, rfl⟩ := h
  all_goals try rfl
  rename_i hg _
  unfold Grant.revokeToken at hg
  split at hg
  · rename_i ts hts
    cases hg
    exact (revokeTokensFuel_revMono _ _ _ _ _ _ hts).1
  · cases hg

theorem codeParse_req {cfg : TokenCfg} {clock : Int} {req req' : TokenReq} {code : String} {g g' : Grant}
    (h : codeParse cfg clock req code g = (.ok (.req req'), g')) :
    g' = g ∧ ∃ t, g.getToken code = some t ∧ t.cls = .authorizationCode ∧ t.isActive clock = true ∧
      (cfg.flavor = .oidc → t.used = 0) ∧
      req' = { req with clientId := req'.clientId } ∧
      (req.clientId = none → ∃ ar, g.authzReq = some ar ∧ req'.clientId = ar.clientId) ∧
      (∀ c, req.clientId = some c → req'.clientId = some c) := by
  unfold codeParse at h
  split at h
  · cases h
  · rename_i t ht
    split at h
    · cases h
    · rename_i hcls
      have hcls : t.cls = .authorizationCode := by simpa using hcls
      split at h
      · split at h <;> cases h
      · rename_i hu
        have hu : cfg.flavor = .oidc → t.used = 0 := by simpa using hu
        split at h
        · cases h
        · rename_i hact
          have hact : t.isActive clock = true := by simpa using hact
          split at h
          · rename_i c hc
            cases h
            exact ⟨rfl, t, ht, hcls, hact, hu, rfl, by simp [hc], by simp [hc]⟩
          · rename_i hc
            split at h
            · cases h
            · rename_i ar har
              split at h
              · cases h
              · rename_i c hac
                cases h
                exact ⟨rfl, t, ht, hcls, hact, hu, rfl, fun _ => ⟨ar, har, hac.symm⟩, by simp [hc]⟩

theorem refreshParse_req {clock : Int} {req req' : TokenReq} {v : String} {g : Grant}
    (h : refreshParse clock req v g = .ok (.req req')) :
    req' = req ∧ ∃ t, g.getToken v = some t ∧ t.cls = .refreshToken ∧ t.isActive clock = true ∧
      ∀ sc, req.scope = some sc → ∃ found, g.findScope t.basedOn = .ok found ∧ ∀ x ∈ sc, x ∈ found := by
  unfold refreshParse at h
  split at h
  · cases h
  · rename_i t ht
    split at h
    · cases h
    · rename_i hcls
      have hcls : t.cls = .refreshToken := by simpa using hcls
      split at h
      · cases h
      · rename_i hact
        have hact : t.isActive clock = true := by simpa using hact
        split at h
        · rename_i hsc
          cases h
          exact ⟨rfl, t, ht, hcls, hact, by simp [hsc]⟩
        · rename_i sc hsc
          split at h
          · cases h
          · rename_i found hf
            split at h
            · rename_i hsub
              cases h
              refine ⟨rfl, t, ht, hcls, hact, fun sc' hsc' => ⟨found, hf, ?_⟩⟩
              rw [hsc] at hsc'
              cases hsc'
              simpa [subsetB] using hsub
            · cases h

/-- What an accepted token request tells. -/
structure Parsed (E : Env) (w : World) (req req' : TokenReq) : Prop where
  same : req' = { req with clientId := req'.clientId }
  code : req'.grantType = some "authorization_code" → ∃ v s t, req'.code = some v ∧
    sessionByToken E w v = .ok s ∧ s.grant.getToken v = some t ∧ t.cls = .authorizationCode ∧
    t.isActive w.now = true ∧ (E.cfg.flavor = .oidc → t.used = 0)
  refresh : req'.grantType = some "refresh_token" → ∃ v s t, req'.refreshToken = some v ∧
    sessionByToken E w v = .ok s ∧ s.grant.getToken v = some t ∧ t.cls = .refreshToken ∧
    t.isActive w.now = true ∧
    ∀ sc, req'.scope = some sc → ∃ found, s.grant.findScope t.basedOn = .ok found ∧ ∀ x ∈ sc, x ∈ found

theorem tokenParse_spec (E : Env) (S : String → Prop) (w : World) (client : String) (req : TokenReq) :
    Chain E S w.core (tokenParse E w client req).2.core ∧
    (tokenParse E w client req).2.pool = w.pool ∧ (tokenParse E w client req).2.log = w.log ∧
    ∀ req', (tokenParse E w client req).1 = .ok (.req req') → Parsed E w req req' := by
  unfold tokenParse
  split
  · exact ⟨.refl _, rfl, rfl, by simp⟩
  · rename_i gt hgt
    split
    · exact ⟨.refl _, rfl, rfl, by simp⟩
    · split
      · exact ⟨.refl _, rfl, rfl, by simp⟩
      · split
        · rename_i hcode
          subst hcode
          unfold codeParseW
          split
          · exact ⟨.refl _, rfl, rfl, by simp⟩
          · rename_i code hreqcode
            split
            · split
              · exact ⟨.refl _, rfl, rfl, by simp⟩
              · exact ⟨.refl _, rfl, rfl, by simp⟩
            · rename_i s hs
              have hg := sessionByToken_grantAt hs
              have hmic := codeParse_micros (mk := minter E s.sid) (clock := w.now) E.cfg req code s.grant w.n
              cases hcp : codeParse E.cfg w.now req code s.grant with
              | mk res g' =>
                rw [hcp] at hmic
                simp only []
                refine ⟨(commit_chain hg hmic (.inr (codeParse_length hcp))).1, rfl, rfl, fun req' hr => ?_⟩
                subst hr
                obtain ⟨_, t, h1, h2, h3, h4, h5, _, _⟩ := codeParse_req hcp
                refine ⟨h5, fun _ => ⟨code, s, t, by rw [h5]; exact hreqcode, hs, h1, h2, h3, h4⟩, ?_⟩
                intro hr
                rw [h5] at hr
                simp [hgt] at hr
        · split
          · rename_i hrefresh
            subst hrefresh
            refine ⟨.refl _, rfl, rfl, fun req' hr => ?_⟩
            unfold refreshParseW at hr
            split at hr
            · cases hr
            · rename_i v hv
              split at hr
              · split at hr <;> cases hr
              · rename_i s hs
                obtain ⟨rfl, t, h1, h2, h3, h4⟩ := refreshParse_req hr
                refine ⟨rfl, ?_, fun _ => ⟨v, s, t, hv, hs, h1, h2, h3, h4⟩⟩
                intro hr
                simp [hgt] at hr
          · exact ⟨.refl _, rfl, rfl, by simp⟩

theorem Parsed.poolOK {E : Env} {S : String → Prop} {w : World} {req req' : TokenReq} (hw : WInv E S w) (h : Parsed E w req req') :
    PoolOK w.core req' := by
  constructor
  · intro v hg hv
    obtain ⟨v', s, t, h1, h2, h3, h4, _⟩ := h.code hg
    rw [hv] at h1; cases h1
    obtain ⟨hm, hval⟩ := getToken_mem h3
    obtain ⟨i, hi⟩ := List.getElem?_of_mem hm
    exact ⟨s.ref, s.grant, i, t, sessionByToken_grantAt h2, hi, hval, h4⟩
  · intro v hg hv
    obtain ⟨v', s, t, h1, h2, h3, h4, _, h6⟩ := h.refresh hg
    rw [hv] at h1; cases h1
    obtain ⟨hm, hval⟩ := getToken_mem h3
    obtain ⟨i, hi⟩ := List.getElem?_of_mem hm
    refine ⟨s.ref, s.grant, i, t, sessionByToken_grantAt h2, hi, hval, h4, fun sc hsc x hx => ?_, fun sc hsc => ?_⟩
    · obtain ⟨found, hf, hsub⟩ := h6 sc hsc
      exact hw.core.findScope (sessionByToken_grantAt h2) hi hf x (hsub x hx)
    · obtain ⟨found, hf, hsub⟩ := h6 sc hsc
      exact ⟨found, hw.core.effScope (sessionByToken_grantAt h2) hi hf, hsub⟩

/-! ### token endpoint: process -/

/-- What a helper's successful answer tells.  `w` is the state before, `w'` the one after. -/
structure HelperOut (E : Env) (w w' : World) (req : TokenReq) (r : TokenResp) (s : Sess) (rf : Bool) (v : String) :
    Prop where
  sess : sessionByToken E w v = .ok s
  out : ∃ gs, w'.st.grantAt s.ref = some gs.g ∧
    (rf = false → req.grantType = some "authorization_code" ∧ req.code = some v ∧
      CodeOut (minter E s.sid) w.now s.client ⟨s.grant, w.n⟩ req v r gs) ∧
    (rf = true → req.grantType = some "refresh_token" ∧ req.refreshToken = some v ∧
      RefreshOut (minter E s.sid) w.now E.cfg s.client ⟨s.grant, w.n⟩ req v r gs)

/-- A value that a grant already has is not made again. -/
theorem CInv.not_again {E : Env} {S : String → Prop} {c : Core} (hc : CInv E S c) {r i : Nat} {g : Grant} {t : Token}
    (h1 : c.st.grantAt r = some g) (h2 : g.issuedToken[i]? = some t) (sid : String) (k : Nat) (d : TokenClass)
    (hk : c.n ≤ k) : minter E sid k d ≠ .ok t.value := by
  intro h
  obtain ⟨k', sid', hlt, hm, _⟩ := hc.prov r g i t h1 h2
  have := ((minter_ok h).inj hm).1
  omega

theorem tokenHelper_spec {E : Env} {S : String → Prop} {w : World} (hw : WInv E S w) (hcl : SidClosed E S) (kw : Option Bool) {req : TokenReq} (hp : req ∈ w.pool) :
    Chain E S w.core (tokenHelper E w kw req).2.core ∧
    (tokenHelper E w kw req).2.pool = w.pool ∧ (tokenHelper E w kw req).2.log = w.log ∧
    (tokenHelper E w kw req).2.now = w.now ∧
    ∀ r x, (tokenHelper E w kw req).1 = .ok (.resp r, x) → ∃ s rf v, x = some (s, rf, v) ∧
      HelperOut E w (tokenHelper E w kw req).2 req r s rf v := by
  have hok := hw.pool req hp
  unfold tokenHelper
  split
  · exact ⟨.refl _, rfl, rfl, rfl, by simp⟩
  · rename_i gt hgt
    split
    · rename_i hc
      subst hc
      split
      · exact ⟨.refl _, rfl, rfl, rfl, by simp⟩
      · rename_i code hcode
        obtain ⟨r, g, i, t, h1, h2, h3, h4⟩ := hok.code code hgt hcode
        have hplus : spaceToPlus code = code := by
          obtain ⟨k, sid, _, hk, _⟩ := hw.core.prov r g i t h1 h2
          rw [← h3]; exact hk.plus
        simp only [hplus]
        split
        · exact ⟨.refl _, rfl, rfl, rfl, by simp⟩
        · rename_i s hs
          have hg := sessionByToken_grantAt hs
          have htri := codeProcess_tri (mk := minter E s.sid) (clock := w.now) E.cfg kw s.client req code
            ⟨s.grant, w.n⟩ (by
              intro b hb
              obtain ⟨hm, hval⟩ := getToken_mem hb
              obtain ⟨j, hj⟩ := List.getElem?_of_mem hm
              obtain ⟨e1, e2⟩ := hw.core.uniq _ _ _ _ _ _ _ _ h1 hg h2 hj (h3.trans hval.symm)
              subst e1 e2
              rw [show w.core.st = w.st from rfl, hg] at h1
              cases h1
              simp only [] at hj
              rw [h2] at hj
              cases hj
              exact .inl h4)
            (by rw [← h3]; exact fun k d hk => hw.core.not_again h1 h2 _ k d hk)
          obtain ⟨hm1, hm2⟩ := htri _ rfl
          cases hcp : codeProcess E.cfg (minter E s.sid) w.now kw s.client req code ⟨s.grant, w.n⟩ with
          | mk res gs =>
            rw [hcp] at hm1 hm2
            obtain ⟨hch, hat⟩ := commit_chain hg hm1 (.inl (sessionByToken_sid hw.core hcl hs h1 h2 h3))
            cases res with
            | error e => exact ⟨hch, rfl, rfl, rfl, by simp⟩
            | ok r' =>
              refine ⟨hch, rfl, rfl, rfl, ?_⟩
              intro r'' x hx
              simp only [Except.ok.injEq, Prod.mk.injEq] at hx
              obtain ⟨e1, e2⟩ := hx
              refine ⟨s, false, code, e2.symm, hs, gs, hat, fun _ => ⟨hgt, hcode, hm2 r' rfl r'' e1⟩, by simp⟩
    · split
      · rename_i hc
        subst hc
        split
        · exact ⟨.refl _, rfl, rfl, rfl, by simp⟩
        · rename_i v hv
          obtain ⟨r, g, i, t, h1, h2, h3, h4, hsc, _⟩ := hok.refresh v hgt hv
          split
          · exact ⟨.refl _, rfl, rfl, rfl, by simp⟩
          · rename_i s hs
            have hg := sessionByToken_grantAt hs
            have hsame : ∀ b, s.grant.getToken v = some b → b = t ∧ s.grant = g ∧ s.ref = r := by
              intro b hb
              obtain ⟨hm, hval⟩ := getToken_mem hb
              obtain ⟨j, hj⟩ := List.getElem?_of_mem hm
              obtain ⟨e1, e2⟩ := hw.core.uniq _ _ _ _ _ _ _ _ h1 hg h2 hj (h3.trans hval.symm)
              subst e1 e2
              rw [show w.core.st = w.st from rfl, hg] at h1
              cases h1
              rw [h2] at hj
              cases hj
              exact ⟨rfl, rfl, rfl⟩
            have htri := refreshProcess_tri (mk := minter E s.sid) (clock := w.now) E.cfg kw s.client req v
              ⟨s.grant, w.n⟩ (by
                intro b hb
                obtain ⟨rfl, _, _⟩ := hsame b hb
                exact .inr h4)
              (by
                intro b found hb hf x hx
                obtain ⟨rfl, rfl, rfl⟩ := hsame b hb
                cases hq : req.scope with
                | none => rw [hq] at hx; exact hw.core.findScope hg h2 hf x hx
                | some sc => rw [hq] at hx; exact hsc sc hq x hx)
              (by rw [← h3]; exact fun k d hk => hw.core.not_again h1 h2 _ k d hk)
            obtain ⟨hm1, hm2⟩ := htri _ rfl
            cases hcp : refreshProcess E.cfg (minter E s.sid) w.now kw s.client req v ⟨s.grant, w.n⟩ with
            | mk res gs =>
              rw [hcp] at hm1 hm2
              obtain ⟨hch, hat⟩ := commit_chain hg hm1 (.inl (sessionByToken_sid hw.core hcl hs h1 h2 h3))
              cases res with
              | error e => exact ⟨hch, rfl, rfl, rfl, by simp⟩
              | ok r' =>
                refine ⟨hch, rfl, rfl, rfl, ?_⟩
                intro r'' x hx
                simp only [Except.ok.injEq, Prod.mk.injEq] at hx
                obtain ⟨e1, e2⟩ := hx
                exact ⟨s, true, v, e2.symm, hs, gs, hat, by simp, fun _ => ⟨hgt, hv, hm2 r' rfl r'' e1⟩⟩
      · exact ⟨.refl _, rfl, rfl, rfl, by simp⟩

theorem tokenProcess_spec {E : Env} {S : String → Prop} {w : World} (hw : WInv E S w) (hcl : SidClosed E S) (kw : Option Bool) {req : TokenReq} (hp : req ∈ w.pool) :
    Chain E S w.core (tokenProcess E w kw req).2.core ∧
    (tokenProcess E w kw req).2.pool = w.pool ∧
    ((tokenProcess E w kw req).2.log = w.log ∨
      ∃ s rf v r a, (tokenProcess E w kw req).2.log = w.log ++ [.token s.ref s.client rf v req r] ∧
        r.accessToken = some a ∧ HelperOut E w (tokenProcess E w kw req).2 req r s rf v) := by
  obtain ⟨h1, h2, h3, h4, h5⟩ := tokenHelper_spec hw hcl kw hp
  unfold tokenProcess
  cases hh : tokenHelper E w kw req with
  | mk res w' =>
    rw [hh] at h1 h2 h3 h4 h5
    simp only [] at h1 h2 h3 h4 h5
    cases res with
    | error e =>
      simp only []
      split <;> exact ⟨h1, h2, .inl h3⟩
    | ok p =>
      obtain ⟨hr, o⟩ := p
      cases hr with
      | err c => exact ⟨h1, h2, .inl h3⟩
      | resp r =>
        obtain ⟨s, rf, v, rfl, hout⟩ := h5 r o rfl
        simp only []
        cases ha : r.accessToken with
        | none => exact ⟨h1, h2, .inl h3⟩
        | some a =>
          simp only []
          cases hs : sessionByToken E w' a with
          | error e => exact ⟨h1, h2, .inl h3⟩
          | ok s' =>
            refine ⟨h1, h2, .inr ⟨s, rf, v, r, a, ?_, ha, ?_⟩⟩
            · simp only [h3]
            · exact ⟨hout.sess, hout.out⟩

/-! ### authorization endpoint -/

/-- What a delivered authorization response tells. -/
structure AuthzEvent (E : Env) (w w' : World) (sid : String) (ref : Nat) (client : String) (x : AuthzResp) : Prop where
  sess : ∃ s, sessionOf E w.st sid = .ok s ∧ s.ref = ref ∧ s.client = client ∧ s.grant.revoked = false
  minted : ∃ gs, w'.st.grantAt ref = some gs.g ∧
    (x.accessToken ≠ none → x.expiresIn = rootLeft w.now (gs.g.rulesFor .accessToken)) ∧
    (∀ v, x.code = some v → MintedRoot (minter E sid) w.now w.n .authorizationCode v gs) ∧
    (∀ v, x.accessToken = some v → MintedRoot (minter E sid) w.now w.n .accessToken v gs) ∧
    (∀ v, x.idToken = some v → MintedRoot (minter E sid) w.now w.n .idToken v gs)

theorem authzCall_revoked {cfg : AuthzCfg} {claims : List String → Except Exc (Dict (Dict Json))} {clock : Int}
    {client : String} {req : AuthzReq} {g g' : Grant} {r : Except Exc Unit}
    (h : authzCall cfg claims clock client req g = (r, g')) : g'.revoked = g.revoked := by
  unfold authzCall at h
  simp only [] at h
  split at h <;> cases h <;> (repeat' split) <;> rfl

theorem authzPart2_spec (E : Env) (S : String → Prop) (w : World) (sid : String) (hS : S sid) (req : AuthzReq) :
    Chain E S w.core (authzPart2 E w sid req).core ∧
    (authzPart2 E w sid req).pool = w.pool ∧
    ((authzPart2 E w sid req).log = w.log ∨
      ∃ ref client x, (authzPart2 E w sid req).log = w.log ++ [.authz ref client x] ∧
        AuthzEvent E w (authzPart2 E w sid req) sid ref client x) := by
  unfold authzPart2 postAuthentication
  cases hs : sessionOf E w.st sid with
  | error e => exact ⟨.refl _, rfl, .inl rfl⟩
  | ok s =>
    simp only []
    obtain ⟨hg, hsid, _, _⟩ := sessionOf_spec hs
    have hm0 := authzCall_micro (mk := minter E sid) (clock := w.now) E.authz (E.claims sid s.grant) s.client req
      s.grant w.n
    cases ha : authzCall E.authz (E.claims sid s.grant) w.now s.client req s.grant with
    | mk res g1 =>
      rw [ha] at hm0
      have hm1 := Micros.one hm0
      cases res with
      | error e => exact ⟨(commit_chain hg hm1 (.inl hS)).1, rfl, .inl rfl⟩
      | ok _ =>
        simp only []
        by_cases hact : g1.isActive w.now = false
        · simp only [hact, if_true]
          exact ⟨(commit_chain hg hm1 (.inl hS)).1, rfl, .inl rfl⟩
        · simp only [if_neg hact]
          have hrev : s.grant.revoked = false := by
            have h1 : g1.isActive w.now = true := by simpa using hact
            have h2 := ((isActive_clock_iff _ _).1 h1).1
            have h3 : g1.revoked = s.grant.revoked := authzCall_revoked ha
            rw [← h3]; exact h2
          obtain ⟨hm2, hpost⟩ := createAuthnResponse_tri (mk := minter E sid) (clock := w.now) w.n (E.filter s.client) req
            ⟨g1, w.n⟩ (Nat.le_refl _)
          cases hc : createAuthnResponse (minter E sid) w.now (E.filter s.client) req ⟨g1, w.n⟩ with
          | mk res2 gs =>
            rw [hc] at hm2 hpost
            obtain ⟨hch, hat⟩ := commit_chain hg (hm1.trans hm2) (.inl hS)
            cases res2 with
            | error e => exact ⟨hch, rfl, .inl rfl⟩
            | ok ar =>
              cases ar with
              | err a b c => exact ⟨hch, rfl, .inl rfl⟩
              | resp x f =>
                simp only []
                split
                · exact ⟨hch, rfl, .inr ⟨s.ref, s.client, x, rfl, ⟨s, hs, rfl, rfl, hrev⟩, gs, hat, hpost _ rfl x f rfl⟩⟩
                · exact ⟨hch, rfl, .inl rfl⟩

/-! ### all operations -/

theorem revokeTokenW_chain (E : Env) (S : String → Prop) (w : World) (sid v : String) (rec : Bool) :
    Chain E S w.core (revokeTokenW E w sid v rec).core ∧ (revokeTokenW E w sid v rec).pool = w.pool ∧
      (revokeTokenW E w sid v rec).log = w.log := by
  unfold revokeTokenW
  split
  · exact ⟨.refl _, rfl, rfl⟩
  · rename_i s hs
    obtain ⟨hg, hsid, _, _⟩ := sessionOf_spec hs
    split
    · exact ⟨.refl _, rfl, rfl⟩
    · refine ⟨?_, rfl, rfl⟩
      have h1 : GMicro (minter E sid) w.now ⟨s.grant, w.n⟩ ⟨s.grant.updateToken v Token.revoke, w.n⟩ :=
        .revoke ⟨s.grant, w.n⟩ _ (revMono_modifyFirst _ _)
      have key : ∀ g2, Micros (minter E sid) w.now ⟨s.grant, w.n⟩ ⟨g2, w.n⟩ →
          g2.issuedToken.length = s.grant.issuedToken.length →
          Chain E S w.core (World.core { w with st := w.st.put s.ref (.grant g2) }) := by
        intro g2 h2 h3
        exact chain_micros (c := w.core) hg h2 (.inr h3)
      have hl : (s.grant.updateToken v Token.revoke).issuedToken.length = s.grant.issuedToken.length :=
        modifyFirst_length _ _ _
      simp only []
      split
      · split
        · rename_i ts hts
          have hrm := revokeDependentFuel_revMono _ _ _ _ hts
          exact key _ (.snoc (.one h1) (.revoke ⟨_, w.n⟩ ts hrm)) (hrm.1.trans hl)
        · exact key _ (.one h1) hl
      · exact key _ (.one h1) hl

/-- What the log gains in one operation. -/
def NewEvent (E : Env) (w : World) (op : WOp) (w' : World) (e : Event) : Prop :=
  (∃ sid ref client x, e = .authz ref client x ∧ (∃ req, op = .authorize sid req) ∧ AuthzEvent E w w' sid ref client x) ∨
  (∃ (s : Sess) (rf : Bool) (v : String) (req : TokenReq) (r : TokenResp) (a : String),
    e = .token s.ref s.client rf v req r ∧ req ∈ w.pool ∧ r.accessToken = some a ∧ HelperOut E w w' req r s rf v)

theorem step_spec {E : Env} {S : String → Prop} {w : World} (hw : WInv E S w) (hcl : SidClosed E S) (op : WOp)
    (hop : ∀ sid req, op = .authorize sid req → S sid) :
    Chain E S w.core (step E w op).core ∧ WInv E S (step E w op) ∧
    ((step E w op).log = w.log ∨ ∃ e, (step E w op).log = w.log ++ [e] ∧ NewEvent E w op (step E w op) e) := by
  have mk : ∀ w' : World, Chain E S w.core w'.core → (w'.pool = w.pool) → WInv E S w' := by
    intro w' hc hp
    exact ⟨cinv_chain hw.core hc, fun req hr => (hw.pool req (hp ▸ hr)).chain hc⟩
  cases op with
  | tick d =>
    have hc : Chain E S w.core (step E w (.tick d)).core := .one (.tick w.core d)
    exact ⟨hc, mk _ hc rfl, .inl rfl⟩
  | login u c req ev =>
    have hc : Chain E S w.core (step E w (.login u c req ev)).core :=
      .one (.db w.core _ 1 (safe_createSession u c _ rfl w.st))
    exact ⟨hc, mk _ hc rfl, .inl rfl⟩
  | again u c req ev =>
    have hc : Chain E S w.core (step E w (.again u c req ev)).core :=
      .one (.db w.core _ 1 (safe_createGrant u c _ rfl w.st))
    exact ⟨hc, mk _ hc rfl, .inl rfl⟩
  | addGrant u c g =>
    have hc : Chain E S w.core (step E w (.addGrant u c g)).core :=
      .one (.db w.core _ 1 (safe_addGrant u c _ rfl w.st))
    exact ⟨hc, mk _ hc rfl, .inl rfl⟩
  | authorize sid req =>
    obtain ⟨h1, h2, h3⟩ := authzPart2_spec E S w sid (hop sid req rfl) req
    refine ⟨h1, mk _ h1 h2, ?_⟩
    rcases h3 with h3 | ⟨ref, client, v, h3, h4⟩
    · exact .inl h3
    · exact .inr ⟨_, h3, .inl ⟨sid, ref, client, v, rfl, ⟨req, rfl⟩, h4⟩⟩
  | parse client req =>
    obtain ⟨h1, h2, h3, h4⟩ := tokenParse_spec E S w client { req with clientId := some client }
    have hst : step E w (.parse client req) = (match tokenParse E w client { req with clientId := some client } with
      | (.ok (.req r), w') => { w' with pool := w'.pool ++ [r] }
      | (_, w') => w') := rfl
    rw [hst]
    split
    · rename_i r w' hp
      rw [hp] at h1 h2 h3 h4
      refine ⟨h1, ⟨cinv_chain hw.core h1, ?_⟩, .inl h3⟩
      intro req' hr
      rcases List.mem_append.1 hr with h5 | h5
      · simp only [] at h2
        rw [h2] at h5
        exact (hw.pool req' h5).chain h1
      · simp at h5
        subst h5
        exact ((h4 req' rfl).poolOK hw).chain h1
    · rename_i r w' _ hp
      rw [hp] at h1 h2 h3
      exact ⟨h1, mk _ h1 h2, .inl h3⟩
  | process i kw =>
    have hst : step E w (.process i kw) = (match w.pool[i]? with
      | none => w
      | some req => (tokenProcess E w kw req).2) := rfl
    rw [hst]
    cases hi : w.pool[i]? with
    | none => exact ⟨.refl _, hw, .inl rfl⟩
    | some req =>
      have hm := List.mem_of_getElem? hi
      obtain ⟨h1, h2, h3⟩ := tokenProcess_spec hw hcl kw hm
      refine ⟨h1, mk _ h1 h2, ?_⟩
      rcases h3 with h3 | ⟨s, rf, v, r, a, h3, h4, h5⟩
      · exact .inl h3
      · exact .inr ⟨_, h3, .inr ⟨s, rf, v, req, r, a, rfl, hm, h4, h5⟩⟩
  | revokeToken sid v rec =>
    obtain ⟨h1, h2, h3⟩ := revokeTokenW_chain E S w sid v rec
    exact ⟨h1, mk _ h1 h2, .inl h3⟩
  | revokeGrant sid =>
    have hst : step E w (.revokeGrant sid) = revokeGrantW E w sid := rfl
    rw [hst]
    unfold revokeGrantW
    split
    · exact ⟨.refl _, hw, .inl rfl⟩
    · split
      · exact ⟨.refl _, hw, .inl rfl⟩
      · rename_i p _
        have hc : Chain E S w.core ⟨(revokeGrant p w.st).2, w.n + 0, w.now⟩ :=
          .one (.db w.core _ 0 (safe_revokeGrant p w.st))
        exact ⟨hc, mk _ hc rfl, .inl rfl⟩
  | revokeClientSession sid =>
    have hst : step E w (.revokeClientSession sid) = revokeClientSessionW E w sid := rfl
    rw [hst]
    have hc : ∀ u c, Chain E S w.core ⟨(revokeClientSession u c w.st).2, w.n + 0, w.now⟩ :=
      fun u c => .one (.db w.core _ 0 (safe_revokeClientSession u c w.st))
    unfold revokeClientSessionW
    split
    · exact ⟨hc _ _, mk _ (hc _ _) rfl, .inl rfl⟩
    · exact ⟨hc _ _, mk _ (hc _ _) rfl, .inl rfl⟩
    · exact ⟨.refl _, hw, .inl rfl⟩
  | removeSession sid =>
    have hst : step E w (.removeSession sid) = removeSessionW E w sid := rfl
    rw [hst]
    have hc : ∀ u c g, Chain E S w.core ⟨(removeSession u c g w.st).2, w.n + 0, w.now⟩ :=
      fun u c g => .one (.db w.core _ 0 (safe_removeSession u c g w.st))
    unfold removeSessionW
    split
    · exact ⟨hc _ _ _, mk _ (hc _ _ _) rfl, .inl rfl⟩
    · exact ⟨.refl _, hw, .inl rfl⟩

theorem winv_init (E : Env) (S : String → Prop) (now : Int) : WInv E S { now := now } := by
  refine ⟨⟨?_, ?_, ?_, ?_, ?_⟩, by simp⟩ <;> intros <;> simp_all [World.core, Store.grantAt]

theorem run_append (E : Env) (w : World) (a b : List WOp) : run E w (a ++ b) = run E (run E w a) b := by
  simp [run, List.foldl_append]

theorem run_spec {E : Env} {S : String → Prop} {w : World} (hw : WInv E S w) (hcl : SidClosed E S) (ops : List WOp)
    (hop : ∀ sid req, .authorize sid req ∈ ops → S sid) :
    Chain E S w.core (run E w ops).core ∧ WInv E S (run E w ops) := by
  induction ops generalizing w with
  | nil => exact ⟨.refl _, hw⟩
  | cons op r ih =>
    obtain ⟨h1, h2, _⟩ := step_spec hw hcl op (fun sid req h => hop sid req (by simp [h]))
    obtain ⟨h3, h4⟩ := ih h2 (fun sid req h => hop sid req (by simp [h]))
    exact ⟨h1.trans h3, h4⟩

end OidcOp
