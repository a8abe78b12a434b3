/-
Where the grants in the session database come from: nothing but a login, a new request of a logged in user and
`add_grant` makes one, and its authorization request never changes.
-/
import Verif.Lemmas.Events

namespace OidcOp
open Spec

/-- No grants appear. -/
def NoNew (st st' : Store) : Prop := ∀ r g', st'.grantAt r = some g' → ∃ g, st.grantAt r = some g

theorem NoNew.refl (st : Store) : NoNew st st := fun _ g h => ⟨g, h⟩

theorem NoNew.trans {a b c : Store} (h : NoNew a b) (h' : NoNew b c) : NoNew a c := fun r g hg => by
  obtain ⟨g1, h1⟩ := h' r g hg
  exact h r g1 h1

/-- Nothing is new. -/
def Nothing : NewP := ⟨fun _ => False, fun _ h => h⟩

theorem DbStep.noNew {st st' : Store} (h : DbStep Nothing st st') : NoNew st st' := by
  intro r g' hg
  rw [grantAt_iff] at hg
  rcases h.new r g' hg with ⟨g, h1⟩ | h1
  · exact ⟨g, grantAt_iff.2 h1⟩
  · exact h1.elim

theorem noNew_put {st : Store} {r : Nat} {g g' : Grant} (h : st.grantAt r = some g) : NoNew st (st.put r (.grant g')) := by
  intro r' g1 h1
  by_cases e : r = r'
  · subst e; exact ⟨g, h⟩
  · rw [grantAt_put_ne _ e] at h1
    exact ⟨g1, h1⟩

theorem noNew_commit {w : World} {s : Sess} (hg : w.st.grantAt s.ref = some s.grant) (gs : GS) :
    NoNew w.st (w.commit s gs).st := by
  unfold World.commit
  simp only []
  split
  · exact noNew_put hg
  · exact (noNew_put hg).trans (safe_aliasSid _ _ _).noNew

theorem noNew_tokenParse (E : Env) (w : World) (client : String) (req : TokenReq) :
    NoNew w.st (tokenParse E w client req).2.st := by
  unfold tokenParse
  repeat' split
  all_goals try exact .refl _
  unfold codeParseW
  repeat' split
  all_goals try exact .refl _
  rename_i hs _ _ _ _
  exact noNew_commit (sessionByToken_grantAt hs) _

theorem noNew_tokenHelper (E : Env) (w : World) (kw : Option Bool) (req : TokenReq) :
    NoNew w.st (tokenHelper E w kw req).2.st := by
  unfold tokenHelper
  split
  · exact .refl _
  · split
    · split
      · exact .refl _
      · simp only []
        split
        · exact .refl _
        · rename_i hs
          split <;> exact noNew_commit (sessionByToken_grantAt hs) _
    · split
      · split
        · exact .refl _
        · split
          · exact .refl _
          · rename_i hs
            split <;> exact noNew_commit (sessionByToken_grantAt hs) _
      · exact .refl _

theorem noNew_tokenProcess (E : Env) (w : World) (kw : Option Bool) (req : TokenReq) :
    NoNew w.st (tokenProcess E w kw req).2.st := by
  have h := noNew_tokenHelper E w kw req
  unfold tokenProcess
  cases hh : tokenHelper E w kw req with
  | mk res w' =>
    rw [hh] at h
    simp only [] at h
    repeat' split
    all_goals first
      | exact h
      | (simp_all)

theorem noNew_authzPart2 (E : Env) (w : World) (sid : String) (req : AuthzReq) :
    NoNew w.st (authzPart2 E w sid req).st := by
  have key : NoNew w.st (postAuthentication E w sid req).2.st := by
    unfold postAuthentication
    split
    · exact .refl _
    · rename_i s hs
      have hg := (sessionOf_spec hs).1
      split
      · exact noNew_commit hg _
      · split
        · exact noNew_commit hg _
        · split <;> exact noNew_commit hg _
  unfold authzPart2
  split
  · rename_i s r hr w' hp
    rw [hp] at key
    split <;> exact key
  · rename_i w' _ hp
    rw [hp] at key
    exact key

/-- The grants that an operation makes. -/
def Creates (E : Env) (w : World) (op : WOp) (g : Grant) : Prop :=
  (∃ u c req ev, op = .login u c req ev ∧
    g = newGrant E w u { req with clientId := some c } ev (E.authz.rulesOf (some c))) ∨
  (∃ u c req ev, op = .again u c req ev ∧ g = newGrant E w u { req with clientId := some c } ev []) ∨
  (∃ u c g0, op = .addGrant u c g0 ∧ g = { g0 with id := E.uuid w.n, issuedToken := [] })

/-- Every grant after an operation was there before, with the same identity, or was made by the operation. -/
theorem origins_step {E : Env} {S : String → Prop} {w : World} (hw : WInv E S w) (hcl : SidClosed E S) (op : WOp)
    (hop : ∀ sid req, op = .authorize sid req → S sid) {r : Nat} {g' : Grant}
    (h : (step E w op).st.grantAt r = some g') :
    (∃ g, w.st.grantAt r = some g ∧ GrantLe g g') ∨ (∃ g, Creates E w op g ∧ (g' = g ∨ g' = g.revoke)) := by
  obtain ⟨hc, _⟩ := step_spec hw hcl op hop
  have old : NoNew w.st (step E w op).st →
      (∃ g, w.st.grantAt r = some g ∧ GrantLe g g') ∨ (∃ g, Creates E w op g ∧ (g' = g ∨ g' = g.revoke)) := by
    intro hn
    obtain ⟨g, hg⟩ := hn r g' h
    obtain ⟨g1, h1, h2⟩ := grantLe_chain hc (r := r) (g := g) hg
    rw [show (step E w op).core.st = (step E w op).st from rfl, h] at h1
    cases h1
    exact .inl ⟨g, hg, h2⟩
  have made : ∀ g0 : Grant, Creates E w op g0 →
      DbStep ⟨fun g => g = g0 ∨ g = g0.revoke, fun g h => .inr (by rcases h with rfl | rfl <;> rfl)⟩ w.st (step E w op).st →
      (∃ g, w.st.grantAt r = some g ∧ GrantLe g g') ∨ (∃ g, Creates E w op g ∧ (g' = g ∨ g' = g.revoke)) := by
    intro g0 hcr hd
    rcases hd.new r g' (grantAt_iff.1 h) with ⟨g, hg⟩ | h1
    · obtain ⟨g1, h1, h2⟩ := grantLe_chain hc (r := r) (g := g) (grantAt_iff.2 hg)
      rw [show (step E w op).core.st = (step E w op).st from rfl, h] at h1
      cases h1
      exact .inl ⟨g, grantAt_iff.2 hg, h2⟩
    · exact .inr ⟨g0, hcr, h1⟩
  cases op with
  | tick d => exact old (.refl _)
  | login u c req ev => exact made _ (.inl ⟨u, c, req, ev, rfl, rfl⟩) (safe_createSession u c _ (Or.inl rfl) w.st)
  | again u c req ev => exact made _ (.inr (.inl ⟨u, c, req, ev, rfl, rfl⟩)) (safe_createGrant u c _ (Or.inl rfl) w.st)
  | addGrant u c g => exact made _ (.inr (.inr ⟨u, c, g, rfl, rfl⟩)) (safe_addGrant u c _ (Or.inl rfl) w.st)
  | authorize sid req => exact old (noNew_authzPart2 E w sid req)
  | parse client req =>
    apply old
    have hn := noNew_tokenParse E w client { req with clientId := some client }
    have hst : step E w (.parse client req) = (match tokenParse E w client { req with clientId := some client } with
      | (.ok (.req r), w') => { w' with pool := w'.pool ++ [r] }
      | (_, w') => w') := rfl
    rw [hst]
    split <;> (rename_i hp; rw [hp] at hn; exact hn)
  | process i kw =>
    apply old
    have hst : step E w (.process i kw) = (match w.pool[i]? with
      | none => w
      | some req => (tokenProcess E w kw req).2) := rfl
    rw [hst]
    split
    · exact .refl _
    · exact noNew_tokenProcess _ _ _ _
  | revokeToken sid v rec =>
    apply old
    show NoNew w.st (revokeTokenW E w sid v rec).st
    unfold revokeTokenW
    split
    · exact .refl _
    · rename_i s hs
      split
      · exact .refl _
      · exact noNew_put (sessionOf_spec hs).1
  | revokeGrant sid =>
    apply old
    show NoNew w.st (revokeGrantW E w sid).st
    unfold revokeGrantW
    split
    · exact .refl _
    · split
      · exact .refl _
      · exact (safe_revokeGrant _ _).noNew
  | revokeClientSession sid =>
    apply old
    show NoNew w.st (revokeClientSessionW E w sid).st
    unfold revokeClientSessionW
    split
    · exact (safe_revokeClientSession _ _ _).noNew
    · exact (safe_revokeClientSession _ _ _).noNew
    · exact .refl _
  | removeSession sid =>
    apply old
    show NoNew w.st (removeSessionW E w sid).st
    unfold removeSessionW
    split
    · exact (safe_removeSession _ _ _ _).noNew
    · exact .refl _

end OidcOp
