/-
The session id inside a token is that of the session the token is kept in.
-/
import Verif.Lemmas.GrantKeys

namespace OidcOp
open Spec

/-- Every token after was there before, or was minted for the session of its grant. -/
def TokFrom (E : Env) (st st' : Store) : Prop :=
  ∀ r g', st'.grantAt r = some g' → g'.issuedToken = [] ∨ ∃ g, st.grantAt r = some g ∧
    ∀ t' ∈ g'.issuedToken, (∃ t ∈ g.issuedToken, t'.static = t.static) ∨
      ∃ k s, sessionOf E st s.sid = .ok s ∧ s.ref = r ∧ E.Made k t'.cls s.sid t'.value

theorem TokFrom.refl (E : Env) (st : Store) : TokFrom E st st :=
  fun _ g hg => .inr ⟨g, hg, fun t ht => .inl ⟨t, ht, rfl⟩⟩

theorem TokFrom.db {E : Env} {a b c : Store} (h : TokFrom E a b) (h' : DbStep NoTokens b c) : TokFrom E a c := by
  intro r g' hg'
  rcases dbStep_tokens h' hg' with h1 | ⟨g, h1, h2⟩
  · exact .inl h1
  · have he : g'.issuedToken = g.issuedToken := by rcases h2 with rfl | rfl <;> rfl
    rw [he]
    exact h r g h1

theorem micros_tokens {mk : Minter} {clock : Int} {s s' : GS} (h : Micros mk clock s s') :
    ∀ t' ∈ s'.g.issuedToken, (∃ t ∈ s.g.issuedToken, t'.static = t.static) ∨ ∃ k, mk k t'.cls = .ok t'.value := by
  induction h with
  | refl => exact fun t ht => .inl ⟨t, ht, rfl⟩
  | @snoc s1 s2 _ h2 ih =>
    have keep : ∀ ts : List Token, ts.map Token.static = s1.g.issuedToken.map Token.static → ∀ t' ∈ ts,
        (∃ t ∈ s.g.issuedToken, t'.static = t.static) ∨ ∃ k, mk k t'.cls = .ok t'.value := by
      intro ts hts t' ht'
      obtain ⟨i, hi⟩ := List.getElem?_of_mem ht'
      obtain ⟨t, h3, h4⟩ := static_get hts hi
      obtain ⟨hc, hv, _⟩ := static_fields h4
      rcases ih t (List.mem_of_getElem? h3) with ⟨t0, h5, h6⟩ | ⟨k, hk⟩
      · exact .inl ⟨t0, h5, h4.trans h6⟩
      · exact .inr ⟨k, by rw [hc, hv]; exact hk⟩
    cases h2 with
    | call => exact ih
    | mint c b v t hv hf =>
      intro t' ht'
      rcases List.mem_append.1 ht' with h3 | h3
      · exact ih t' h3
      · rw [List.mem_singleton] at h3
        subst h3
        exact .inr ⟨_, by rw [hf.cls, hf.value]; exact hv⟩
    | use v => exact keep _ (modifyFirst_static v _)
    | revoke ts hr => exact keep _ (revMono_static hr)
    | attrs g' h3 => exact keep _ (by rw [h3])

theorem tokFrom_put {E : Env} {st : Store} {s : Sess} {clock : Int} {n : Nat} {gs : GS}
    (hs : sessionOf E st s.sid = .ok s) (h : Micros (minter E s.sid) clock ⟨s.grant, n⟩ gs) :
    TokFrom E st (st.put s.ref (.grant gs.g)) := by
  have hg := (sessionOf_spec hs).1
  intro r g' hg'
  right
  by_cases e : s.ref = r
  · subst e
    rw [grantAt_put_self hg] at hg'
    cases hg'
    refine ⟨s.grant, hg, fun t' ht' => ?_⟩
    rcases micros_tokens h t' ht' with h1 | ⟨k, hk⟩
    · exact .inl h1
    · exact .inr ⟨k, s, hs, rfl, minter_ok hk⟩
  · rw [grantAt_put_ne _ e] at hg'
    exact ⟨g', hg', fun t ht => .inl ⟨t, ht, rfl⟩⟩

theorem tokFrom_commit {E : Env} {w : World} {s : Sess} {gs : GS}
    (hs : sessionOf E w.st s.sid = .ok s) (h : Micros (minter E s.sid) w.now ⟨s.grant, w.n⟩ gs) :
    TokFrom E w.st (w.commit s gs).st := by
  unfold World.commit
  simp only []
  split
  · exact tokFrom_put hs h
  · exact (tokFrom_put hs h).db (safe_aliasSid _ _ _)

theorem sessionByToken_self {E : Env} {w : World} {v : String} {s : Sess} (h : sessionByToken E w v = .ok s) :
    sessionOf E w.st s.sid = .ok s := by
  obtain ⟨sid, _, h2⟩ := sessionByToken_spec h
  rw [(sessionOf_spec h2).2.1]
  exact h2

theorem tokFrom_tokenParse (E : Env) (w : World) (client : String) (req : TokenReq) :
    TokFrom E w.st (tokenParse E w client req).2.st := by
  unfold tokenParse
  repeat' split
  all_goals try exact .refl _ _
  unfold codeParseW
  split
  · exact .refl _ _
  · rename_i code _
    split
    · split <;> exact .refl _ _
    · rename_i s hs
      have hmic := codeParse_micros (mk := minter E s.sid) (clock := w.now) E.cfg req code s.grant w.n
      cases hcp : codeParse E.cfg w.now req code s.grant with
      | mk res g' =>
        rw [hcp] at hmic
        exact tokFrom_commit (sessionByToken_self hs) hmic

theorem tokFrom_tokenHelper {E : Env} {S : String → Prop} {w : World} (hw : WInv E S w) (kw : Option Bool) {req : TokenReq}
    (hp : req ∈ w.pool) : TokFrom E w.st (tokenHelper E w kw req).2.st := by
  have hok := hw.pool req hp
  unfold tokenHelper
  split
  · exact .refl _ _
  · rename_i gt hgt
    split
    · rename_i hc
      subst hc
      split
      · exact .refl _ _
      · rename_i code hcode
        obtain ⟨r, g, i, t, h1, h2, h3, h4⟩ := hok.code code hgt hcode
        have hplus : spaceToPlus code = code := by
          obtain ⟨k, sid, _, hk, _⟩ := hw.core.prov r g i t h1 h2
          rw [← h3]; exact hk.plus
        simp only [hplus]
        split
        · exact .refl _ _
        · rename_i s hs
          have hg := sessionByToken_grantAt hs
          have htri := codeProcess_tri (mk := minter E s.sid) (clock := w.now) E.cfg kw s.client req code
            ⟨s.grant, w.n⟩ (by
              intro b hb
              obtain ⟨hm, hval⟩ := getToken_mem hb
              obtain ⟨j, hj⟩ := List.getElem?_of_mem hm
              obtain ⟨e1, e2⟩ := hw.core.uniq _ _ _ _ _ _ _ _ h1 hg h2 hj (h3.trans hval.symm)
              subst e1 e2
              rw [show w.core.st = w.st from rfl, hg] at h1
              cases h1
              simp only [] at hj
              rw [h2] at hj
              cases hj
              exact .inl h4)
            (by rw [← h3]; exact fun k d hk => hw.core.not_again h1 h2 _ k d hk)
          obtain ⟨hm1, _⟩ := htri _ rfl
          cases hcp : codeProcess E.cfg (minter E s.sid) w.now kw s.client req code ⟨s.grant, w.n⟩ with
          | mk res gs =>
            rw [hcp] at hm1
            have := tokFrom_commit (sessionByToken_self hs) hm1
            cases res <;> exact this
    · split
      · rename_i hc
        subst hc
        split
        · exact .refl _ _
        · rename_i v hv
          obtain ⟨r, g, i, t, h1, h2, h3, h4, hsc, _⟩ := hok.refresh v hgt hv
          split
          · exact .refl _ _
          · rename_i s hs
            have hg := sessionByToken_grantAt hs
            have hsame : ∀ b, s.grant.getToken v = some b → b = t ∧ s.grant = g ∧ s.ref = r := by
              intro b hb
              obtain ⟨hm, hval⟩ := getToken_mem hb
              obtain ⟨j, hj⟩ := List.getElem?_of_mem hm
              obtain ⟨e1, e2⟩ := hw.core.uniq _ _ _ _ _ _ _ _ h1 hg h2 hj (h3.trans hval.symm)
              subst e1 e2
              rw [show w.core.st = w.st from rfl, hg] at h1
              cases h1
              rw [h2] at hj
              cases hj
              exact ⟨rfl, rfl, rfl⟩
            have htri := refreshProcess_tri (mk := minter E s.sid) (clock := w.now) E.cfg kw s.client req v
              ⟨s.grant, w.n⟩ (by
                intro b hb
                obtain ⟨rfl, _, _⟩ := hsame b hb
                exact .inr h4)
              (by
                intro b found hb hf x hx
                obtain ⟨rfl, rfl, rfl⟩ := hsame b hb
                cases hq : req.scope with
                | none => rw [hq] at hx; exact hw.core.findScope hg h2 hf x hx
                | some sc => rw [hq] at hx; exact hsc sc hq x hx)
              (by rw [← h3]; exact fun k d hk => hw.core.not_again h1 h2 _ k d hk)
            obtain ⟨hm1, _⟩ := htri _ rfl
            cases hcp : refreshProcess E.cfg (minter E s.sid) w.now kw s.client req v ⟨s.grant, w.n⟩ with
            | mk res gs =>
              rw [hcp] at hm1
              have := tokFrom_commit (sessionByToken_self hs) hm1
              cases res <;> exact this
      · exact .refl _ _

theorem tokFrom_authzPart2 (E : Env) (w : World) (sid : String) (req : AuthzReq) :
    TokFrom E w.st (authzPart2 E w sid req).st := by
  have key : TokFrom E w.st (postAuthentication E w sid req).2.st := by
    unfold postAuthentication
    cases hs : sessionOf E w.st sid with
    | error e => exact .refl _ _
    | ok s =>
      simp only []
      obtain ⟨hg, hsid, _, _⟩ := sessionOf_spec hs
      subst hsid
      have hm0 := authzCall_micro (mk := minter E s.sid) (clock := w.now) E.authz (E.claims s.sid s.grant) s.client req
        s.grant w.n
      cases ha : authzCall E.authz (E.claims s.sid s.grant) w.now s.client req s.grant with
      | mk res g1 =>
        rw [ha] at hm0
        have hm1 := Micros.one hm0
        cases res with
        | error e => exact tokFrom_commit hs hm1
        | ok _ =>
          simp only []
          by_cases hact : g1.isActive w.now = false
          · simp only [hact, if_true]
            exact tokFrom_commit hs hm1
          · simp only [if_neg hact]
            obtain ⟨hm2, _⟩ := createAuthnResponse_tri (mk := minter E s.sid) (clock := w.now) w.n (E.filter s.client) req
              ⟨g1, w.n⟩ (Nat.le_refl _)
            cases hc : createAuthnResponse (minter E s.sid) w.now (E.filter s.client) req ⟨g1, w.n⟩ with
            | mk res2 gs =>
              rw [hc] at hm2
              have := tokFrom_commit hs (hm1.trans hm2)
              cases res2 <;> exact this
  unfold authzPart2
  split
  · rename_i s r hr w' hp
    rw [hp] at key
    split <;> exact key
  · rename_i w' _ hp
    rw [hp] at key
    exact key

theorem tokFrom_revokeToken (E : Env) (w : World) (sid v : String) (rec : Bool) :
    TokFrom E w.st (revokeTokenW E w sid v rec).st := by
  unfold revokeTokenW
  split
  · exact .refl _ _
  · rename_i s hs
    obtain ⟨hg, hsid, _, _⟩ := sessionOf_spec hs
    subst hsid
    split
    · exact .refl _ _
    · have h1 : GMicro (minter E s.sid) w.now ⟨s.grant, w.n⟩ ⟨s.grant.updateToken v Token.revoke, w.n⟩ :=
        .revoke ⟨s.grant, w.n⟩ _ (revMono_modifyFirst _ _)
      have key : ∀ g2, Micros (minter E s.sid) w.now ⟨s.grant, w.n⟩ ⟨g2, w.n⟩ →
          TokFrom E w.st (w.st.put s.ref (.grant g2)) := fun g2 h2 => tokFrom_put hs h2
      simp only []
      split
      · split
        · rename_i ts hts
          have hrm := revokeDependentFuel_revMono _ _ _ _ hts
          exact key _ (.snoc (.one h1) (.revoke ⟨_, w.n⟩ ts hrm))
        · exact key _ (.one h1)
      · exact key _ (.one h1)

theorem tokFrom_step {E : Env} {S : String → Prop} {w : World} (hw : WInv E S w) (op : WOp) :
    TokFrom E w.st (step E w op).st := by
  have db : ∀ st', DbStep NoTokens w.st st' → TokFrom E w.st st' := fun _ h => (TokFrom.refl E w.st).db h
  cases op with
  | tick d => exact .refl _ _
  | login u c req ev => exact db _ (safe_createSession u c _ rfl w.st)
  | again u c req ev => exact db _ (safe_createGrant u c _ rfl w.st)
  | addGrant u c g => exact db _ (safe_addGrant u c _ rfl w.st)
  | authorize sid req => exact tokFrom_authzPart2 E w sid req
  | parse client req =>
    have hn := tokFrom_tokenParse E w client { req with clientId := some client }
    have hst : step E w (.parse client req) = (match tokenParse E w client { req with clientId := some client } with
      | (.ok (.req r), w') => { w' with pool := w'.pool ++ [r] }
      | (_, w') => w') := rfl
    rw [hst]
    split <;> (rename_i hp; rw [hp] at hn; exact hn)
  | process i kw =>
    have hst : step E w (.process i kw) = (match w.pool[i]? with
      | none => w
      | some req => (tokenProcess E w kw req).2) := rfl
    rw [hst]
    cases hi : w.pool[i]? with
    | none => exact .refl _ _
    | some req =>
      simp only []
      rw [tokenProcess_st]
      exact tokFrom_tokenHelper hw kw (List.mem_of_getElem? hi)
  | revokeToken sid v rec => exact tokFrom_revokeToken E w sid v rec
  | revokeGrant sid =>
    have hst : step E w (.revokeGrant sid) = revokeGrantW E w sid := rfl
    rw [hst]
    unfold revokeGrantW
    split
    · exact .refl _ _
    · split
      · exact .refl _ _
      · exact db _ (safe_revokeGrant _ w.st)
  | revokeClientSession sid =>
    have hst : step E w (.revokeClientSession sid) = revokeClientSessionW E w sid := rfl
    rw [hst]
    unfold revokeClientSessionW
    split
    · exact db _ (safe_revokeClientSession _ _ w.st)
    · exact db _ (safe_revokeClientSession _ _ w.st)
    · exact .refl _ _
  | removeSession sid =>
    have hst : step E w (.removeSession sid) = removeSessionW E w sid := rfl
    rw [hst]
    unfold removeSessionW
    split
    · exact db _ (safe_removeSession _ _ _ w.st)
    · exact .refl _ _

/-- Every token that can be found carries the session id of the session it is found in. -/
def AtHome (E : Env) (U : String → Prop) (st : Store) : Prop :=
  ∀ u c g r gr, view U st (.gra u c g) = some (r, .grant gr) → ∀ t ∈ gr.issuedToken,
    ∃ k sid, E.Made k t.cls sid t.value ∧ SidFor E U sid ∧ E.decrypt sid = .ok [u, c, g]

theorem atHome_step {E : Env} {U : String → Prop} {adds : Bool} {w : World} (hw : WInv E (SidFor E U) w)
    (hi : HInv U (fun _ => adds = true) w.st)
    (hU : ∀ n u c g, (SKey.gra u c g).Good U → ¬ U (E.encSid n [u, c, g])) (hh : AtHome E U w.st) {op : WOp}
    (hf : FairW E U adds op) : AtHome E U (step E w op).st := by
  have href := step_refines hw hi hU hf
  have hauth : ∀ sid req, op = .authorize sid req → SidFor E U sid := by rintro sid req rfl; exact hf
  have hw' := (step_spec hw (sidFor_closed E U) op hauth).2.1
  intro u c g r gr hv t ht
  have hgr : (step E w op).st.grantAt r = some gr := grantAt_iff.2 (view_some_obj hv)
  rcases tokFrom_step hw op r gr hgr with h1 | ⟨g0, hg0, hall⟩
  · rw [h1] at ht; cases ht
  · rcases href.gra hi hv with ⟨o, ho⟩ | hlen
    · have : o = .grant g0 := by
        have h1 := view_some_obj ho
        have h2 := grantAt_iff.1 hg0
        have h3 : w.st.obj r = w.st.heap[r]? := rfl
        rw [h3, h2] at h1
        cases h1; rfl
      subst this
      rcases hall t ht with ⟨t0, ht0, hst⟩ | ⟨k, s, hs, hr, hval⟩
      · obtain ⟨k, sid, h1, h2, h3⟩ := hh u c g r g0 ho t0 ht0
        obtain ⟨hc, hvv, _⟩ := static_fields hst
        exact ⟨k, sid, by rw [hc, hvv]; exact h1, h2, h3⟩
      · obtain ⟨i, hi'⟩ := List.getElem?_of_mem ht
        obtain ⟨k', sid', _, hv', hS⟩ := hw'.core.prov r gr i t hgr hi'
        have hsid : SidFor E U s.sid := by
          rw [(hval.inj hv').2.2]
          exact hS
        obtain ⟨hgood, _, _⟩ := sidFor_session hsid hs
        obtain ⟨_, _, hd, hdb⟩ := sessionOf_spec hs
        obtain ⟨o', ho'⟩ := (dbGet_iff hi.inv (k := .gra s.user s.client s.gid) hgood s.ref).1 hdb
        rw [hr] at ho'
        have hk := hi.inv.wf.noalias _ _ _ _ _ ho ho'
        cases hk
        exact ⟨k, s.sid, hval, hsid, hd⟩
    · have := (List.getElem?_eq_some_iff.1 (grantAt_iff.1 hg0)).1
      exact absurd hlen (Nat.not_le.2 this)

end OidcOp
