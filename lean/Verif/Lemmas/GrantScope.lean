/-
When the scope of a grant changes: only the authorization handler sets it, and only from the request it is called with.
-/
import Verif.Lemmas.Origins

namespace OidcOp
open Spec

/-- The scope of the grant stays as it is. -/
def Kept {α : Type} (m : SE GS α) : Prop := ∀ s, (m s).2.g.scope = s.g.scope

section
variable {α β : Type}

theorem Kept.bind {m : SE GS α} {f : α → SE GS β} (hm : Kept m) (hf : ∀ a, Kept (f a)) : Kept (m >>= f) := by
  intro s
  have h := hm s
  rw [SE.bind_apply]
  cases hms : m s with
  | mk x s' =>
    rw [hms] at h
    cases x with
    | error e => exact h
    | ok a => exact (hf a s').trans h

theorem Kept.pure (a : α) : Kept (pure a : SE GS α) := fun _ => rfl
theorem Kept.raise (e : Exc) : Kept (SE.raise e : SE GS α) := fun _ => rfl
theorem Kept.get : Kept (SE.get : SE GS GS) := fun _ => rfl
theorem Kept.ofExcept (x : Except Exc α) : Kept (SE.ofExcept x : SE GS α) := fun _ => rfl

theorem mintToken_scope (g : Grant) (clock : Int) (c : TokenClass) (b : Option Token) (rules : Option UsageRules)
    (scope : Option (List String)) (tt : String) (h : Except Exc String) :
    (g.mintToken clock c b rules scope tt h).2.scope = g.scope := by
  unfold Grant.mintToken
  split
  · rfl
  · simp only []
    repeat' split
    all_goals rfl

theorem kept_mintEP (mk : Minter) (clock : Int) (c : TokenClass) (b : Option Token) (sc : Option (List String)) (tt : String) :
    Kept (mintEP mk clock c b sc tt) := by
  intro s
  have h := mintToken_scope s.g clock c b (s.g.rulesFor c) sc tt (mk s.n c)
  unfold mintEP
  simp only []
  cases hm : s.g.mintToken clock c b (s.g.rulesFor c) sc tt (mk s.n c) with
  | mk x g' =>
    rw [hm] at h
    cases x with
    | error e => exact h
    | ok o => cases o <;> exact h

theorem kept_mintAuthz (mk : Minter) (clock : Int) (c : TokenClass) (sc : Option (List String)) : Kept (mintAuthz mk clock c sc) := by
  intro s
  have h := mintToken_scope s.g clock c none (some ((s.g.rulesFor c).getD {})) sc "" (mk s.n c)
  unfold mintAuthz
  simp only []
  cases hm : s.g.mintToken clock c none (some ((s.g.rulesFor c).getD {})) sc "" (mk s.n c) with
  | mk x g' =>
    rw [hm] at h
    cases x with
    | error e => exact h
    | ok o => cases o <;> exact h

theorem kept_mintOrSkip (mk : Minter) (clock : Int) (c : TokenClass) (b : Token) (tt : String) (w : Bool) :
    Kept (mintOrSkip mk clock c b tt w) := by
  intro s
  have h := kept_mintEP mk clock c (some b) none tt s
  unfold mintOrSkip
  split
  · split <;> (rename_i hm; rw [hm] at h; exact h)
  · rfl

theorem kept_mintIdToken (mk : Minter) (clock : Int) (b : Token) (sc : Option (List String)) (w : Bool) :
    Kept (mintIdToken mk clock b sc w) := by
  intro s
  have h := kept_mintEP mk clock .idToken (some b) sc "" s
  unfold mintIdToken
  split
  · split <;> (rename_i hm; rw [hm] at h; exact h)
  · rfl

theorem kept_mintRefresh (mk : Minter) (clock : Int) (b : Token) (sc : List String) (w : Bool) :
    Kept (mintRefresh mk clock b sc w) := by
  intro s
  have h := kept_mintEP mk clock .refreshToken (some b) (some sc) "" s
  unfold mintRefresh
  split
  · split <;> (rename_i hm; rw [hm] at h; exact h)
  · rfl

theorem kept_dpop (e : Bool) (req : TokenReq) : Kept (dpopStep e req) := by
  intro s
  unfold dpopStep
  repeat' split
  all_goals rfl

theorem kept_codeProcess (cfg : TokenCfg) (mk : Minter) (clock : Int) (kw : Option Bool) (client : String) (req : TokenReq)
    (code : String) : Kept (codeProcess cfg mk clock kw client req code) := by
  unfold codeProcess
  refine .bind ?_ ?_
  · unfold codeMint
    split
    · exact .raise _
    · split
      · exact .pure _
      · refine .bind (.ofExcept _) fun _ => .bind (kept_dpop _ _) fun _ => .bind .get fun s => ?_
        split
        · exact .raise _
        · simp only []
          split
          · exact .raise _
          · refine .bind (.ofExcept _) fun _ => ?_
            split
            · exact .pure _
            · refine .bind (kept_mintOrSkip _ _ _ _ _ _) fun _ => .bind (kept_mintOrSkip _ _ _ _ _ _) fun _ => .bind (.ofExcept _) fun _ =>
                .bind (kept_mintIdToken _ _ _ _ _) fun _ => ?_
              split <;> exact .pure _
  · intro m s
    unfold codeFinish
    split <;> rfl

theorem kept_refreshProcess (cfg : TokenCfg) (mk : Minter) (clock : Int) (kw : Option Bool) (client : String) (req : TokenReq)
    (v : String) : Kept (refreshProcess cfg mk clock kw client req v) := by
  unfold refreshProcess
  split
  · exact .raise _
  · split
    · exact .pure _
    · refine .bind (kept_dpop _ _) fun _ => .bind .get fun s => ?_
      split
      · exact .raise _
      · refine .bind (.ofExcept _) fun _ => .bind (kept_mintEP _ _ _ _ _ _) fun _ => ?_
        split
        · exact .raise _
        · refine .bind (kept_mintRefresh _ _ _ _ _) fun _ => .bind (kept_mintIdToken _ _ _ _ _) fun _ => ?_
          split
          · exact .pure _
          · refine .bind (fun _ => rfl) fun _ => .bind (fun s => ?_) fun _ => .pure _
            unfold revokeIf
            split <;> rfl

theorem kept_createAuthnResponse (mk : Minter) (clock : Int) (filter : List String → List String) (req : AuthzReq) :
    Kept (createAuthnResponse mk clock filter req) := by
  have hif : ∀ c w, Kept (mintIfAsked mk clock c w) := by
    intro c w s
    have h := kept_mintAuthz mk clock c none s
    unfold mintIfAsked
    split
    · split <;> (rename_i hm; rw [hm] at h; exact h)
    · rfl
  have hid : ∀ sc w, Kept (mintIdTokenAuthz mk clock sc w) := by
    intro sc w s
    unfold mintIdTokenAuthz
    split
    · split
      · rfl
      · rename_i x
        have h := kept_mintAuthz mk clock .idToken (some x) s
        split <;> (rename_i hm; rw [hm] at h; exact h)
    · rfl
  unfold createAuthnResponse
  simp only []
  split
  · exact .pure _
  · split
    · exact .raise _
    · refine .bind (hif _ _) fun _ => .bind (hif _ _) fun _ => .bind (hid _ _) fun _ => ?_
      split
      · exact .pure _
      · split <;> exact .pure _

end

/-- The scope that the authorization handler leaves. -/
theorem authzCall_scope (cfg : AuthzCfg) (claims : List String → Except Exc (Dict (Dict Json))) (clock : Int) (client : String)
    (req : AuthzReq) (g : Grant) : (authzCall cfg claims clock client req g).2.scope = g.scope ∨
      (g.scope = [] ∧ (authzCall cfg claims clock client req g).2.scope = req.scope.getD []) := by
  unfold authzCall
  simp only []
  cases hs : g.scope with
  | nil =>
    right
    refine ⟨rfl, ?_⟩
    cases cfg.expiresIn <;> cases cfg.usageRules <;> simp only [hs, List.isEmpty_nil, if_true] <;> split <;> rfl
  | cons a l =>
    left
    cases cfg.expiresIn <;> cases cfg.usageRules <;> simp only [hs, List.isEmpty_cons, Bool.false_eq_true, if_false] <;> split <;> rfl

/-- Grants keep their scope. -/
def SameScope (st st' : Store) : Prop := ∀ r g g', st.grantAt r = some g → st'.grantAt r = some g' → g'.scope = g.scope

theorem SameScope.refl (st : Store) : SameScope st st := fun _ g g' h h' => by rw [h] at h'; cases h'; rfl

theorem DbStep.sameScope {N : NewP} {st st' : Store} (h : DbStep N st st') : SameScope st st' := by
  intro r g g' h1 h2
  rw [grantAt_iff] at h1 h2
  rcases h.old r g h1 with h3 | h3 <;> (rw [h3] at h2; cases h2; rfl)

theorem sameScope_commit {w : World} {s : Sess} (hg : w.st.grantAt s.ref = some s.grant) (gs : GS)
    (h : gs.g.scope = s.grant.scope) : SameScope w.st (w.commit s gs).st := by
  have hput : SameScope w.st (w.st.put s.ref (.grant gs.g)) := by
    intro r g g' h1 h2
    by_cases e : s.ref = r
    · subst e
      rw [hg] at h1; cases h1
      rw [grantAt_put_self hg] at h2; cases h2
      exact h
    · rw [grantAt_put_ne _ e, h1] at h2
      cases h2; rfl
  unfold World.commit
  simp only []
  split
  · exact hput
  · intro r g g' h1 h2
    have hd := (safe_aliasSid (N := Nothing) s.sid s.ref (w.st.put s.ref (.grant gs.g)))
    obtain ⟨g1, h3⟩ := hd.noNew r g' h2
    exact (hd.sameScope r g1 g' h3 h2).trans (hput r g g1 h1 h3)

theorem sameScope_tokenParse (E : Env) (w : World) (client : String) (req : TokenReq) :
    SameScope w.st (tokenParse E w client req).2.st := by
  unfold tokenParse
  repeat' split
  all_goals try exact .refl _
  unfold codeParseW
  repeat' split
  all_goals try exact .refl _
  rename_i s hs _ res g' hp
  refine sameScope_commit (sessionByToken_grantAt hs) _ ?_
  simp only []
  unfold codeParse at hp
  repeat' split at hp
  all_goals (simp only [Prod.mk.injEq] at hp; obtain ⟨_, hp⟩ := hp; subst hp)
  all_goals try rfl
  have hrev : ∀ {g g' : Grant} {a b : String}, g.revokeToken a b = .ok g' → g'.scope = g.scope := by
    intro g g' a b hr
    unfold Grant.revokeToken at hr
    split at hr
    · cases hr; rfl
    · cases hr
  exact hrev ‹_›

theorem sameScope_tokenHelper (E : Env) (w : World) (kw : Option Bool) (req : TokenReq) :
    SameScope w.st (tokenHelper E w kw req).2.st := by
  unfold tokenHelper
  split
  · exact .refl _
  · split
    · split
      · exact .refl _
      · simp only []
        split
        · exact .refl _
        · rename_i s hs
          split <;> (rename_i hp; have h := congrArg (fun x => x.2.g.scope) hp; exact sameScope_commit (sessionByToken_grantAt hs) _ (h.symm.trans (kept_codeProcess ..)))
    · split
      · split
        · exact .refl _
        · split
          · exact .refl _
          · rename_i s hs
            split <;> (rename_i hp; have h := congrArg (fun x => x.2.g.scope) hp; exact sameScope_commit (sessionByToken_grantAt hs) _ (h.symm.trans (kept_refreshProcess ..)))
      · exact .refl _

theorem sameScope_tokenProcess (E : Env) (w : World) (kw : Option Bool) (req : TokenReq) :
    SameScope w.st (tokenProcess E w kw req).2.st := by
  have h := sameScope_tokenHelper E w kw req
  unfold tokenProcess
  cases hh : tokenHelper E w kw req with
  | mk res w' =>
    rw [hh] at h
    simp only [] at h
    repeat' split
    all_goals first
      | exact h
      | (simp_all)

/-- What an authorization does to the scopes of grants. -/
theorem scope_authzPart2 (E : Env) (w : World) (sid : String) (req : AuthzReq) {r : Nat} {g g' : Grant}
    (h : w.st.grantAt r = some g) (h' : (authzPart2 E w sid req).st.grantAt r = some g') :
    g'.scope = g.scope ∨
    ∃ s, sessionOf E w.st sid = .ok s ∧ s.ref = r ∧ g.scope = [] ∧ g'.scope = req.scope.getD [] := by
  have key : ∀ g', (postAuthentication E w sid req).2.st.grantAt r = some g' → g'.scope = g.scope ∨
      ∃ s, sessionOf E w.st sid = .ok s ∧ s.ref = r ∧ g.scope = [] ∧ g'.scope = req.scope.getD [] := by
    intro g' h'
    unfold postAuthentication at h'
    split at h'
    · rw [h] at h'; cases h'; exact .inl rfl
    · rename_i s hs
      have hg := (sessionOf_spec hs).1
      have fin : ∀ gs : GS, (w.commit s gs).st.grantAt r = some g' →
          (gs.g.scope = s.grant.scope ∨ (s.grant.scope = [] ∧ gs.g.scope = req.scope.getD [])) →
          g'.scope = g.scope ∨ ∃ s, sessionOf E w.st sid = .ok s ∧ s.ref = r ∧ g.scope = [] ∧ g'.scope = req.scope.getD [] := by
        intro gs h1 h2
        rcases h2 with h2 | ⟨h2, h3⟩
        · exact .inl (sameScope_commit hg gs h2 r g g' h h1)
        · by_cases e : s.ref = r
          · subst e
            rw [hg] at h; cases h
            refine .inr ⟨s, hs, rfl, h2, ?_⟩
            have hput := grantAt_put_self (g' := gs.g) hg
            unfold World.commit at h1
            simp only [] at h1
            split at h1
            · rw [hput] at h1; cases h1; exact h3
            · have hd := safe_aliasSid (N := Nothing) s.sid s.ref (w.st.put s.ref (.grant gs.g))
              exact (hd.sameScope _ _ _ hput h1).trans h3
          · left
            have hput : (w.st.put s.ref (.grant gs.g)).grantAt r = some g := by rw [grantAt_put_ne _ e]; exact h
            unfold World.commit at h1
            simp only [] at h1
            split at h1
            · rw [hput] at h1; cases h1; rfl
            · exact (safe_aliasSid (N := Nothing) s.sid s.ref (w.st.put s.ref (.grant gs.g))).sameScope _ _ _ hput h1
      have hac := authzCall_scope E.authz (E.claims sid s.grant) w.now s.client req s.grant
      split at h'
      · rename_i hp
        rw [hp] at hac
        exact fin _ h' hac
      · rename_i g1 hp
        rw [hp] at hac
        split at h'
        · exact fin _ h' hac
        · have hk := kept_createAuthnResponse (minter E sid) w.now (E.filter s.client) req ⟨g1, w.n⟩
          simp only [] at hk hac
          split at h' <;> (rename_i hq; rw [hq] at hk; refine fin _ h' ?_; rw [hk]; exact hac)
  unfold authzPart2 at h'
  split at h'
  · rename_i s1 r1 b1 w' hp
    rw [hp] at key
    split at h'
    · exact key g' h'
    · exact key g' h'
  · rename_i w' _ hp
    rw [hp] at key
    exact key g' h'

/-- The scope of a grant that was there before: unchanged, or set by an authorization. -/
theorem scope_step {E : Env} {w : World} (op : WOp) {r : Nat} {g g' : Grant} (h : w.st.grantAt r = some g)
    (h' : (step E w op).st.grantAt r = some g') :
    g'.scope = g.scope ∨ ∃ sid req s, op = .authorize sid req ∧ sessionOf E w.st sid = .ok s ∧ s.ref = r ∧
      g'.scope = req.scope.getD [] := by
  have old : SameScope w.st (step E w op).st → g'.scope = g.scope ∨ ∃ sid req s, op = .authorize sid req ∧
      sessionOf E w.st sid = .ok s ∧ s.ref = r ∧ g'.scope = req.scope.getD [] := fun hs => .inl (hs r g g' h h')
  cases op with
  | tick d => exact old (.refl _)
  | login u c req ev => exact old (safe_createSession (N := ⟨fun _ => True, fun _ _ => trivial⟩) u c _ trivial w.st).sameScope
  | again u c req ev => exact old (safe_createGrant (N := ⟨fun _ => True, fun _ _ => trivial⟩) u c _ trivial w.st).sameScope
  | addGrant u c g => exact old (safe_addGrant (N := ⟨fun _ => True, fun _ _ => trivial⟩) u c _ trivial w.st).sameScope
  | authorize sid req =>
    rcases scope_authzPart2 E w sid req h h' with h1 | ⟨s, h1, h2, _, h3⟩
    · exact .inl h1
    · exact .inr ⟨sid, req, s, rfl, h1, h2, h3⟩
  | parse client req =>
    apply old
    have hn := sameScope_tokenParse E w client { req with clientId := some client }
    have hst : step E w (.parse client req) = (match tokenParse E w client { req with clientId := some client } with
      | (.ok (.req r), w') => { w' with pool := w'.pool ++ [r] }
      | (_, w') => w') := rfl
    rw [hst]
    split <;> (rename_i hp; rw [hp] at hn; exact hn)
  | process i kw =>
    apply old
    have hst : step E w (.process i kw) = (match w.pool[i]? with
      | none => w
      | some req => (tokenProcess E w kw req).2) := rfl
    rw [hst]
    split
    · exact .refl _
    · exact sameScope_tokenProcess _ _ _ _
  | revokeToken sid v rec =>
    apply old
    show SameScope w.st (revokeTokenW E w sid v rec).st
    unfold revokeTokenW
    split
    · exact .refl _
    · rename_i s hs
      split
      · exact .refl _
      · have hg := (sessionOf_spec hs).1
        intro r g g' h1 h2
        by_cases e : s.ref = r
        · subst e
          rw [hg] at h1; cases h1
          simp only [] at h2
          rw [grantAt_put_self hg] at h2; cases h2
          split
          · split <;> rfl
          · rfl
        · rw [grantAt_put_ne _ e, h1] at h2
          cases h2; rfl
  | revokeGrant sid =>
    apply old
    show SameScope w.st (revokeGrantW E w sid).st
    unfold revokeGrantW
    split
    · exact .refl _
    · split
      · exact .refl _
      · exact (safe_revokeGrant (N := Nothing) _ _).sameScope
  | revokeClientSession sid =>
    apply old
    show SameScope w.st (revokeClientSessionW E w sid).st
    unfold revokeClientSessionW
    split
    · exact (safe_revokeClientSession (N := Nothing) _ _ _).sameScope
    · exact (safe_revokeClientSession (N := Nothing) _ _ _).sameScope
    · exact .refl _
  | removeSession sid =>
    apply old
    show SameScope w.st (removeSessionW E w sid).st
    unfold removeSessionW
    split
    · exact (safe_removeSession (N := Nothing) _ _ _ _).sameScope
    · exact .refl _

end OidcOp
