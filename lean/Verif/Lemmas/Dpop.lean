/-
The key a grant is bound to: what the token endpoint stores, and that minting does not touch it.
-/
import Verif.Lemmas.GrantScope
import Verif.Props.RefreshIssue
import Verif.Spec.Dpop

namespace OidcOp
open Spec

/-- The key of the grant stays as it is. -/
def KeptJ {α : Type} (m : SE GS α) : Prop := ∀ s, (m s).2.g.dpopJkt = s.g.dpopJkt

theorem mintToken_jkt (g : Grant) (clock : Int) (c : TokenClass) (b : Option Token) (rules : Option UsageRules)
    (scope : Option (List String)) (tt : String) (h : Except Exc String) :
    (g.mintToken clock c b rules scope tt h).2.dpopJkt = g.dpopJkt := by
  unfold Grant.mintToken
  split
  · rfl
  · simp only []
    repeat' split
    all_goals rfl

theorem keptJ_mintEP (mk : Minter) (clock : Int) (c : TokenClass) (b : Option Token) (sc : Option (List String)) (tt : String) :
    KeptJ (mintEP mk clock c b sc tt) := by
  intro s
  have h := mintToken_jkt s.g clock c b (s.g.rulesFor c) sc tt (mk s.n c)
  unfold mintEP
  simp only []
  cases hm : s.g.mintToken clock c b (s.g.rulesFor c) sc tt (mk s.n c) with
  | mk x g' =>
    rw [hm] at h
    cases x with
    | error e => exact h
    | ok o => cases o <;> exact h

theorem keptJ_mintOrSkip (mk : Minter) (clock : Int) (c : TokenClass) (b : Token) (tt : String) (w : Bool) :
    KeptJ (mintOrSkip mk clock c b tt w) := by
  intro s
  have h := keptJ_mintEP mk clock c (some b) none tt s
  unfold mintOrSkip
  split
  · split <;> (rename_i hm; rw [hm] at h; exact h)
  · rfl

theorem keptJ_mintIdToken (mk : Minter) (clock : Int) (b : Token) (sc : Option (List String)) (w : Bool) :
    KeptJ (mintIdToken mk clock b sc w) := by
  intro s
  have h := keptJ_mintEP mk clock .idToken (some b) sc "" s
  unfold mintIdToken
  split
  · split <;> (rename_i hm; rw [hm] at h; exact h)
  · rfl

theorem keptJ_mintRefresh (mk : Minter) (clock : Int) (b : Token) (sc : List String) (w : Bool) :
    KeptJ (mintRefresh mk clock b sc w) := by
  intro s
  have h := keptJ_mintEP mk clock .refreshToken (some b) (some sc) "" s
  unfold mintRefresh
  split
  · split <;> (rename_i hm; rw [hm] at h; exact h)
  · rfl

theorem KeptJ.of {α : Type} {m : SE GS α} (h : KeptJ m) {s s' : GS} {a : Except Exc α} (he : m s = (a, s')) :
    s'.g.dpopJkt = s.g.dpopJkt := by
  have := h s; rw [he] at this; exact this

/-- The response's token type and the grant's key after `dpopStep`. -/
def DpopOut (on : Bool) (req : TokenReq) (r : TokenResp) (before after : Grant) : Prop :=
  (∀ j, on = true → req.dpopJkt = some j → j ≠ "" → r.tokenType = "DPoP" ∧ after.dpopJkt = some j) ∧
  ((on = false ∨ ∀ j, req.dpopJkt = some j → j = "") → r.tokenType = "Bearer" ∧ after.dpopJkt = before.dpopJkt)

theorem dpopStep_out {on : Bool} {req : TokenReq} {s s' : GS} {tt : String} (h : dpopStep on req s = (.ok tt, s'))
    {r : TokenResp} (hr : r.tokenType = tt) {after : Grant} (ha : after.dpopJkt = s'.g.dpopJkt) :
    DpopOut on req r s.g after := by
  unfold dpopStep at h
  split at h
  · rename_i hon
    cases hj : req.dpopJkt with
    | none =>
      rw [hj] at h; cases h
      exact ⟨(fun j _ h => by rw [hj] at h; cases h), fun _ => ⟨hr, ha⟩⟩
    | some j =>
      rw [hj] at h
      by_cases he : j = ""
      · subst he
        cases h
        exact ⟨(fun j _ h hne => by rw [hj] at h; cases h; exact absurd rfl hne), fun _ => ⟨hr, ha⟩⟩
      · have : truthyStr (some j) = some j := by simp [truthyStr, he]
        rw [this] at h; cases h
        refine ⟨(fun j' _ h _ => by rw [hj] at h; cases h; exact ⟨hr, ha⟩), fun h => ?_⟩
        rcases h with h | h
        · rw [hon] at h; cases h
        · exact absurd (h j hj) he
  · rename_i hon
    cases h
    exact ⟨fun j h => absurd h hon, fun _ => ⟨hr, ha⟩⟩

theorem codeProcess_dpop {cfg : TokenCfg} {mk : Minter} {clock : Int} {kw : Option Bool} {client : String} {req : TokenReq}
    {code : String} {s s' : GS} {r : TokenResp} (h : codeProcess cfg mk clock kw client req code s = (.ok (.resp r), s')) :
    DpopOut (cfg.flavor = .oidc && cfg.dpopEnabled) req r s.g s'.g := by
  unfold codeProcess at h
  obtain ⟨m, s0, hx, h'⟩ := SE.bind_ok h
  clear h
  rename' hx => h
  cases m with
  | err c => cases h'
  | ready r0 =>
  cases h'
  unfold codeMint at h
  cases hq : req.clientId with
  | none => rw [hq] at h; cases h
  | some rc =>
    rw [hq] at h
    simp only [] at h
    by_cases hc : client ≠ rc
    · rw [if_pos hc] at h; cases h
    · rw [if_neg hc] at h
      obtain ⟨sup, s1, h1, hx⟩ := SE.bind_ok h
      clear h; rename' hx => h
      obtain ⟨tt, s2, h2, hx⟩ := SE.bind_ok h
      clear h; rename' hx => h
      obtain ⟨s3, s4, h3, hx⟩ := SE.bind_ok h
      clear h; rename' hx => h
      cases h3
      have e1 : s1 = s := by
        cases hs : grantTypesFor cfg client with
        | error e => rw [hs] at h1; cases h1
        | ok l => rw [hs] at h1; cases h1; rfl
      subst e1
      cases hb : s2.g.getToken code with
      | none => rw [hb] at h; cases h
      | some b =>
        rw [hb] at h
        cases ha : s2.g.authzReq with
        | none => rw [ha] at h; cases h
        | some ar =>
          rw [ha] at h
          simp only [] at h
          obtain ⟨same, s5, h5, hx⟩ := SE.bind_ok h
          clear h; rename' hx => h
          have e5 : s5 = s2 := by
            cases hs : redirectCheck ar req with
            | error e => rw [hs] at h5; cases h5
            | ok l => rw [hs] at h5; cases h5; rfl
          subst e5
          by_cases hsm : same = false
          · rw [if_pos hsm] at h; cases h
          · rw [if_neg hsm] at h
            obtain ⟨at?, s6, h6, hx⟩ := SE.bind_ok h
            clear h; rename' hx => h
            obtain ⟨rt?, s7, h7, hx⟩ := SE.bind_ok h
            clear h; rename' hx => h
            obtain ⟨oi, s8, h8, hx⟩ := SE.bind_ok h
            clear h; rename' hx => h
            obtain ⟨idt, s9, h9, hx⟩ := SE.bind_ok h
            clear h; rename' hx => h
            have e8 : s8 = s7 := by
              cases hs : idTokenWanted cfg.flavor ar (b.rules.supportsMinting.getD []) with
              | error e => rw [hs] at h8; cases h8
              | ok l => rw [hs] at h8; cases h8; rfl
            subst e8
            cases idt with
            | none => cases h
            | some idv =>
              cases h
              exact dpopStep_out h2 rfl
                (((keptJ_mintIdToken _ _ _ _ _).of h9).trans (((keptJ_mintOrSkip _ _ _ _ _ _).of h7).trans
                  ((keptJ_mintOrSkip _ _ _ _ _ _).of h6)))

theorem refreshProcess_dpop {cfg : TokenCfg} {mk : Minter} {clock : Int} {kw : Option Bool} {client : String}
    {req : TokenReq} {v : String} {s s' : GS} {r : TokenResp}
    (h : refreshProcess cfg mk clock kw client req v s = (.ok (.resp r), s')) :
    DpopOut cfg.dpopAdvertised req r s.g s'.g := by
  unfold refreshProcess at h
  cases hq : req.clientId with
  | none => rw [hq] at h; cases h
  | some rc =>
    rw [hq] at h
    simp only [] at h
    by_cases hc : client ≠ rc
    · rw [if_pos hc] at h; cases h
    · rw [if_neg hc] at h
      obtain ⟨tt, s2, h2, hx⟩ := SE.bind_ok h
      clear h; rename' hx => h
      obtain ⟨s3, s4, h3, hx⟩ := SE.bind_ok h
      clear h; rename' hx => h
      cases h3
      cases hb : s2.g.getToken v with
      | none => rw [hb] at h; cases h
      | some tok =>
        rw [hb] at h
        simp only [] at h
        obtain ⟨found, s5, h5, hx⟩ := SE.bind_ok h
        clear h; rename' hx => h
        have e5 : s5 = s2 := by
          cases hs : s2.g.findScope tok.basedOn with
          | error e => rw [hs] at h5; cases h5
          | ok l => rw [hs] at h5; cases h5; rfl
        subst e5
        obtain ⟨at', s6, h6, hx⟩ := SE.bind_ok h
        clear h; rename' hx => h
        cases hm : tok.rules.supportsMinting with
        | none => rw [hm] at h; cases h
        | some mints =>
          rw [hm] at h
          simp only [] at h
          obtain ⟨rt, s7, h7, hx⟩ := SE.bind_ok h
          clear h; rename' hx => h
          obtain ⟨idt, s8, h8, hx⟩ := SE.bind_ok h
          clear h; rename' hx => h
          cases idt with
          | none => cases h
          | some idv =>
            simp only [] at h
            obtain ⟨_, s9, h9, hx⟩ := SE.bind_ok h
            clear h; rename' hx => h
            obtain ⟨_, s10, h10, hx⟩ := SE.bind_ok h
            clear h; rename' hx => h
            cases h9
            have e10 : s10.g.dpopJkt = s8.g.dpopJkt := by
              unfold revokeIf at h10
              split at h10 <;> (cases h10; rfl)
            cases h
            exact dpopStep_out h2 rfl (e10.trans (((keptJ_mintIdToken _ _ _ _ _).of h8).trans
              (((keptJ_mintRefresh _ _ _ _ _).of h7).trans ((keptJ_mintEP _ _ _ _ _ _).of h6))))

theorem commit_grantAt {w : World} {s : Sess} (hg : w.st.grantAt s.ref = some s.grant) (gs : GS) :
    (w.commit s gs).st.grantAt s.ref = some gs.g := by
  have h2 := grantAt_put_self hg gs.g
  unfold World.commit
  simp only []
  split
  · exact h2
  · exact h2

/-- What `process_request` records, and what it stores in the grant. -/
theorem tokenProcess_dpop {E : Env} {w : World} {kw : Option Bool} {req : TokenReq} {ref : Nat} {client v : String}
    {rf : Bool} {req' : TokenReq} {r : TokenResp}
    (h : (tokenProcess E w kw req).2.log = w.log ++ [.token ref client rf v req' r]) :
    req' = req ∧ ∃ s gs, sessionByToken E w v = .ok s ∧ s.ref = ref ∧ s.client = client ∧
      (tokenProcess E w kw req).2.st.grantAt ref = some gs ∧
      DpopOut (if rf then E.cfg.dpopAdvertised else E.cfg.flavor = .oidc && E.cfg.dpopEnabled) req r s.grant gs := by
  have key : ∀ r0 s rf' v' w', tokenHelper E w kw req = (.ok (.resp r0, some (s, rf', v')), w') →
      w'.log = w.log ∧ ∃ gs, sessionByToken E w v' = .ok s ∧ w'.st.grantAt s.ref = some gs ∧
      DpopOut (if rf' then E.cfg.dpopAdvertised else E.cfg.flavor = .oidc && E.cfg.dpopEnabled) req r0 s.grant gs := by
    intro r0 s rf' v' w' hh
    unfold tokenHelper at hh
    split at hh
    · cases hh
    · split at hh
      · split at hh
        · cases hh
        · simp only [] at hh
          split at hh
          · cases hh
          · rename_i code _ s1 hs
            split at hh
            · rename_i y gs hcp
              cases hh
              exact ⟨rfl, gs.g, hs, commit_grantAt (sessionByToken_grantAt hs) gs, codeProcess_dpop hcp⟩
            · cases hh
      · split at hh
        · split at hh
          · cases hh
          · split at hh
            · cases hh
            · rename_i v0 _ s1 hs
              split at hh
              · rename_i y gs hcp
                cases hh
                exact ⟨rfl, gs.g, hs, commit_grantAt (sessionByToken_grantAt hs) gs, refreshProcess_dpop hcp⟩
              · cases hh
        · cases hh
  have hlog : ∀ res w', tokenHelper E w kw req = (res, w') → w'.log = w.log := by
    intro res w' hh
    unfold tokenHelper at hh
    simp only [] at hh
    repeat' split at hh
    all_goals (cases hh; rfl)
  unfold tokenProcess at h ⊢
  split at h
  · rename_i e w' hh
    have := hlog _ _ hh
    split at h <;> · simp only [this] at h; exact absurd h (by simp)
  · rename_i c o w' hh
    have := hlog _ _ hh
    simp only [this] at h; exact absurd h (by simp)
  · rename_i r0 w' hh
    have := hlog _ _ hh
    simp only [this] at h; exact absurd h (by simp)
  · rename_i r0 s rf' v' w' hh
    obtain ⟨k1, k2⟩ := key _ _ _ _ _ hh
    cases ha : r0.accessToken with
    | none => rw [ha] at h; simp only [k1] at h; exact absurd h (by simp)
    | some a =>
      rw [ha] at h
      simp only [] at h ⊢
      cases hq : sessionByToken E w' a with
      | error e => rw [hq] at h; simp only [k1] at h; exact absurd h (by simp)
      | ok s' =>
        rw [hq] at h
        simp only [k1, List.append_cancel_left_eq, List.cons.injEq, Event.token.injEq, and_true] at h
        obtain ⟨e1, e2, e3, e4, e5, e6⟩ := h
        subst e1 e2 e3 e4 e5 e6
        obtain ⟨gs, k3, k4, k5⟩ := k2
        exact ⟨rfl, s, gs, k3, rfl, rfl, k4, k5⟩

end OidcOp
