/-
C16: what was derived from a replayed code stays revoked, also when code exchanges of different threads interleave.
-/
import Verif.Props.Threads

namespace OidcOp
open Spec

/-- What an atomic step adds to a grant is based on nothing or on a token of the grant that is active. -/
theorem atom_new {E : Env} {S : String → Prop} {c c' : Core} (ha : Atom E S c c') {r : Nat} {g g' : Grant}
    (hg : c.st.grantAt r = some g) (hg' : c'.st.grantAt r = some g') {j : Nat} {t : Token}
    (ht : g'.issuedToken[j]? = some t) :
    j < g.issuedToken.length ∨ t.basedOn = none ∨
      ∃ p ∈ g.issuedToken, t.basedOn = some p.value ∧ ItemActive p.item c.now := by
  have hlt := (List.getElem?_eq_some_iff.1 ht).1
  cases ha with
  | tick d =>
    simp only [] at hg'
    rw [hg] at hg'
    cases hg'
    exact .inl hlt
  | db st' k hst =>
    left
    rcases hst.old r g (grantAt_iff.1 hg) with h | h
    · rw [grantAt_iff.2 h] at hg'
      cases hg'
      exact hlt
    · rw [grantAt_iff.2 h] at hg'
      cases hg'
      exact hlt
  | micro r' sid g0 gs hg0 _ hm =>
    by_cases e : r' = r
    · subst e
      rw [hg] at hg0
      cases hg0
      simp only [] at hg'
      rw [grantAt_put_self hg] at hg'
      cases hg'
      cases hm with
      | call => exact .inl hlt
      | mint cl b v t0 _ hf =>
        by_cases hj : j < g.issuedToken.length
        · exact .inl hj
        · right
          have : t = t0 := by
            simp only [List.getElem?_append_right (Nat.le_of_not_lt hj)] at ht
            simp only [List.length_append, List.length_singleton] at hlt
            have : j - g.issuedToken.length = 0 := by omega
            rw [this] at ht
            simpa using ht.symm
          subst this
          cases b with
          | none => exact .inl hf.basedOn
          | some p =>
            obtain ⟨h1, _, h3, _⟩ := hf.base p rfl
            exact .inr ⟨p, h1, hf.basedOn, h3⟩
      | use v =>
        left
        have : (g.updateToken v Token.registerUsage).issuedToken.length = g.issuedToken.length := modifyFirst_length _ _ _
        simp only [] at hlt
        omega
      | revoke ts hr => exact .inl (hr.1 ▸ hlt)
      | attrs _ h1 => exact .inl (h1 ▸ hlt)
    · simp only [] at hg'
      rw [grantAt_put_ne _ e, hg] at hg'
      cases hg'
      exact .inl hlt

/-- The code `v` of the grant has been used and all that is derived from it is revoked. -/
structure Burnt (v : String) (g : Grant) : Prop where
  code : ∃ (i : Nat) (t : Token), g.issuedToken[i]? = some t ∧ t.value = v ∧ t.rules.maxUsage = some 1 ∧ 1 ≤ t.used
  line : ∀ (j : Nat) (t : Token), DerivedFrom g.issuedToken v j → g.issuedToken[j]? = some t → t.revoked = true

theorem burnt_atom {E : Env} {S : String → Prop} {c c' : Core} (hi : CInv E S c) (ha : Atom E S c c') {r : Nat} {g : Grant}
    {v : String} (hg : c.st.grantAt r = some g) (hb : Burnt v g) :
    ∃ g', c'.st.grantAt r = some g' ∧ Burnt v g' := by
  obtain ⟨g', hg', hle⟩ := grantLe_atom ha hg
  obtain ⟨i, b, h1, h2, h3, h4⟩ := hb.code
  have old : ∀ {j : Nat} {t : Token}, g'.issuedToken[j]? = some t → j < g.issuedToken.length →
      ∃ t0, g.issuedToken[j]? = some t0 ∧ TokenLe t0 t := by
    intro j t ht hj
    obtain ⟨t', h5, h6⟩ := hle.tokens j _ (List.getElem?_eq_getElem hj)
    rw [ht] at h5
    cases h5
    exact ⟨_, List.getElem?_eq_getElem hj, h6⟩
  have only : ∀ {j : Nat} {t : Token} {p : Token}, g.issuedToken[j]? = some t → p ∈ g.issuedToken → p.value = t.value →
      p = t := by
    intro j t p ht hp he
    obtain ⟨k, hk⟩ := List.getElem?_of_mem hp
    obtain ⟨_, e⟩ := hi.uniq _ _ _ _ _ _ _ _ hg hg hk ht he
    subst e
    rw [ht] at hk
    exact (Option.some.inj hk).symm
  have back : ∀ j, DerivedFrom g'.issuedToken v j → DerivedFrom g.issuedToken v j := by
    intro j hd
    induction hd with
    | child ht hbo =>
      rcases atom_new ha hg hg' ht with hj | hn | ⟨p, hp, hpo, hact⟩
      · obtain ⟨t0, h5, h6⟩ := old ht hj
        exact .child h5 ((static_fields h6.static).2.2.1 ▸ hbo)
      · rw [hn] at hbo; cases hbo
      · rw [hpo] at hbo
        have e := only h1 hp ((Option.some.inj hbo).trans h2.symm)
        subst e
        have := hact.2.1 1 h3
        simp [Token.item] at this
        omega
    | step _ hq ht hbo ih =>
      obtain ⟨q0, h5, h6⟩ := old hq (derivedFrom_lt ih)
      have hval := (static_fields h6.static).2.1
      rcases atom_new ha hg hg' ht with hj | hn | ⟨p, hp, hpo, hact⟩
      · obtain ⟨t0, h7, h8⟩ := old ht hj
        exact .step ih h5 h7 (by rw [← hval, ← hbo, (static_fields h8.static).2.2.1])
      · rw [hn] at hbo; cases hbo
      · rw [hpo] at hbo
        have e := only h5 hp ((Option.some.inj hbo).trans hval)
        subst e
        have := hact.1
        simp [Token.item, hb.line _ _ ih h5] at this
  refine ⟨g', hg', ⟨?_, fun j t hd ht => ?_⟩⟩
  · obtain ⟨b', h5, h6⟩ := hle.tokens i b h1
    have hf := static_fields h6.static
    exact ⟨i, b', h5, hf.2.1.trans h2, hf.2.2.2.1 ▸ h3, Nat.le_trans h4 h6.used⟩
  · have hd0 := back j hd
    obtain ⟨t0, h5, h6⟩ := old ht (derivedFrom_lt hd0)
    exact h6.revoked (hb.line j t0 hd0 h5)

theorem burnt_chain {E : Env} {S : String → Prop} {c c' : Core} (hi : CInv E S c) (hc : Chain E S c c') {r : Nat} {g : Grant}
    {v : String} (hg : c.st.grantAt r = some g) (hb : Burnt v g) :
    ∃ g', c'.st.grantAt r = some g' ∧ Burnt v g' := by
  induction hc with
  | refl => exact ⟨g, hg, hb⟩
  | snoc hc' ha ih =>
    obtain ⟨g1, h1, h2⟩ := ih
    exact burnt_atom (cinv_chain hi hc') ha h1 h2

/-- A step with threads is a sequence of atomic steps. -/
theorem tstep_chain {E : Env} {t : TWorld} (h : TInv E t) (op : TOp) :
    Chain E (fun _ => True) t.w.core (tstep E t op).w.core := by
  cases op with
  | whole op => exact (step_spec h.w (sidClosed_true E) op (fun _ _ _ => trivial)).1
  | start i kw =>
    have hst : tstep E t (.start i kw) = (match t.w.pool[i]? with
      | some req => if req.grantType = some "authorization_code" then threadStart E t kw req else t
      | none => t) := rfl
    rw [hst]
    split
    · rename_i req hi
      split
      · rename_i hgt
        have hok := h.w.pool req (List.mem_of_getElem? hi)
        unfold threadStart
        split
        · exact .refl _
        · rename_i code hcode
          obtain ⟨r, g, i0, tk, h1, h2, h3, h4⟩ := hok.code code hgt hcode
          have hplus : spaceToPlus code = code := by
            obtain ⟨k, sid, _, hk, _⟩ := h.w.core.prov r g i0 tk h1 h2
            rw [← h3]; exact hk.plus
          simp only [hplus]
          split
          · exact .refl _
          · rename_i s hs
            have hg := sessionByToken_grantAt hs
            have loc : ∀ b, s.grant.getToken code = some b → b.cls = .authorizationCode := by
              intro b hb
              obtain ⟨hm, hval⟩ := getToken_mem hb
              obtain ⟨j, hj⟩ := List.getElem?_of_mem hm
              obtain ⟨e1, e2⟩ := h.w.core.uniq _ _ _ _ _ _ _ _ h1 hg h2 hj (h3.trans hval.symm)
              subst e1 e2
              rw [show t.w.core.st = t.w.st from rfl, hg] at h1
              cases h1
              rw [h2] at hj
              cases hj
              exact h4
            have htri := codeMint_tri (mk := minter E s.sid) (clock := t.w.now) E.cfg kw s.client req code
              ⟨s.grant, t.w.n⟩ (fun b hb => .inl (loc b hb))
            obtain ⟨hm1, _⟩ := htri _ rfl
            cases hcp : codeMint E.cfg (minter E s.sid) t.w.now kw s.client req code ⟨s.grant, t.w.n⟩ with
            | mk res gs =>
              rw [hcp] at hm1
              obtain ⟨hch, _⟩ := commit_chain (S := fun _ => True) hg hm1 (.inl trivial)
              split
              · rename_i heq; cases heq; exact hch
              · rename_i heq; cases heq; exact hch
      · exact .refl _
    · exact .refl _
  | finish j =>
    have hst : tstep E t (.finish j) = (match t.pending[j]? with
      | none => t
      | some p => { w := threadFinish E t p, pending := t.pending.eraseIdx j }) := rfl
    rw [hst]
    cases hj : t.pending[j]? with
    | none => exact .refl _
    | some p =>
      obtain ⟨g, i, b, h1, h2, h3, h4⟩ := h.pend p (List.mem_of_getElem? hj)
      have hobj : t.w.st.obj p.sess.ref = some (.grant g) := grantAt_iff.1 h1
      have hc := Chain.one (Atom.micro (S := fun _ => True) (E := E) t.w.core p.sess.ref "" g
        ⟨g.updateToken p.code Token.registerUsage, t.w.n⟩ h1 (.inl trivial) (.use ⟨g, t.w.n⟩ p.code))
      simp only []
      unfold threadFinish
      rw [hobj]
      simp only []
      split
      · exact hc
      · split
        · exact hc
        · exact hc

theorem trun_chain {E : Env} {t : TWorld} (h : TInv E t) (ops : List TOp) :
    Chain E (fun _ => True) t.w.core (trun E t ops).w.core := by
  induction ops generalizing t with
  | nil => exact .refl _
  | cons op rest ih => exact (tstep_chain h op).trans (ih (tstep_spec h op).1)

/-- Presenting a used code revokes what is derived from it, whatever state the provider is in. -/
theorem replay_burns {E : Env} {w : World} (hwi : WInv E (fun _ => True) w) (hfl : E.cfg.flavor = .oidc)
    {client : String} {cl : TClient} (hcl : E.cfg.cdb.get? client = some cl)
    (hallow : ∀ l, cl.grantTypes = some l → "authorization_code" ∈ l)
    {req : TokenReq} (hgt : req.grantType = some "authorization_code") {code : String} (hcode : req.code = some code)
    {s : Sess} (hs : sessionByToken E w code = .ok s) {i : Nat} {t : Token} (hi : s.grant.issuedToken[i]? = some t)
    (hv : t.value = code) (hcls : t.cls = .authorizationCode) (hused : t.used ≠ 0) :
    (tokenParse E w client { req with clientId := some client }).1 = .ok (.err "invalid_grant") ∧
    ∃ g', (step E w (.parse client req)).core.st.grantAt s.ref = some g' ∧ Burnt code g' ∧
      g'.issuedToken.length = s.grant.issuedToken.length := by
  have hg := sessionByToken_grantAt hs
  have hanc := ancestry_reachable hwi.core (r := s.ref) hg
  have hne : code ≠ "" := by
    rw [← hv]; exact hanc.nonempty t (List.mem_of_getElem? hi)
  obtain ⟨ts, h1, h2⟩ := C17_revoke_descendants s.grant hanc code hne
  have hget : s.grant.getToken code = some t := by
    have := hwi.core.getToken (r := s.ref) hg hi
    rw [hv] at this; exact this
  have hparse : tokenParse E w client { req with clientId := some client } =
      (.ok (.err "invalid_grant"), w.commit s ⟨{ s.grant with issuedToken := ts }, w.n⟩) := by
    have hr : grantTypeRefused cl "authorization_code" = false := by
      unfold grantTypeRefused
      split
      · rename_i l hl; simpa using hallow l hl
      · rfl
    have hcp : codeParse E.cfg w.now { req with clientId := some client } code s.grant =
        (.ok (.err "invalid_grant"), { s.grant with issuedToken := ts }) := by
      unfold codeParse
      rw [hget]
      simp only [hcls, ne_eq, not_true_eq_false, if_false, hfl, hused, not_false_eq_true, and_self, if_true, h1]
    unfold tokenParse
    simp only [hgt, hcl, hr, Bool.false_eq_true, if_false, if_true]
    unfold codeParseW
    simp only [hgt, hcode] at hcp
    simp only [hcode, hs, hcp]
  have hstep : step E w (.parse client req) = w.commit s ⟨{ s.grant with issuedToken := ts }, w.n⟩ := by
    have hst : step E w (.parse client req) = (match tokenParse E w client { req with clientId := some client } with
      | (.ok (.req r), w') => { w' with pool := w'.pool ++ [r] }
      | (_, w') => w') := rfl
    rw [hst, hparse]
  have hst : (w.commit s ⟨{ s.grant with issuedToken := ts }, w.n⟩).st =
      w.st.put s.ref (.grant { s.grant with issuedToken := ts }) := by
    unfold World.commit
    simp only [h2.1, if_true]
  have hsame : SameStatic s.grant.issuedToken ts := by
    unfold SameStatic
    apply List.ext_getElem?
    intro k
    simp only [List.getElem?_map]
    cases hk : s.grant.issuedToken[k]? with
    | none =>
      have : ts[k]? = none := by
        rw [List.getElem?_eq_none_iff] at hk ⊢
        rw [h2.1]
        exact hk
      simp [this]
    | some x =>
      obtain ⟨r, h3, _⟩ := h2.2 k x hk
      simp [h3]
  refine ⟨by rw [hparse], { s.grant with issuedToken := ts }, ?_, ⟨?_, fun j t' hd ht' => ?_⟩, h2.1⟩
  · rw [hstep]
    show (w.commit s _).st.grantAt s.ref = _
    rw [hst]
    exact grantAt_put_self hg _
  · obtain ⟨r, h3, _⟩ := h2.2 i t hi
    have h5 := hwi.core.once s.ref _ i t hg hi hcls
    exact ⟨i, _, h3, hv, h5, Nat.pos_of_ne_zero hused⟩
  · have hd0 := (derivedFrom_static_iff hsame code j).2 hd
    obtain ⟨r, h3, h4⟩ := h2.2 j _ (List.getElem?_eq_getElem (derivedFrom_lt hd0))
    rw [h3] at ht'
    cases ht'
    exact h4.2 (.inr hd0)

/-- C16. After a used code has been presented again, in every later state every token that is derived from the code is
revoked, whenever it was made; and there are no others than there were. -/
theorem C16_forever (E : Env) (w : World) (hw : Reachable E w) (hfl : E.cfg.flavor = .oidc)
    (client : String) (cl : TClient) (hcl : E.cfg.cdb.get? client = some cl)
    (hallow : ∀ l, cl.grantTypes = some l → "authorization_code" ∈ l)
    (req : TokenReq) (hgt : req.grantType = some "authorization_code") (code : String) (hcode : req.code = some code)
    (s : Sess) (hs : sessionByToken E w code = .ok s) (i : Nat) (t : Token) (hi : s.grant.issuedToken[i]? = some t)
    (hv : t.value = code) (hcls : t.cls = .authorizationCode) (hused : t.used ≠ 0) (ops : List WOp) :
    ∃ g, GrantAt (run E (step E w (.parse client req)) ops) s.ref g ∧
      ∀ j t', DerivedFrom g.issuedToken code j → g.issuedToken[j]? = some t' → t'.revoked = true := by
  have hwi := winv_reachable hw
  obtain ⟨_, g', h1, h2, _⟩ := replay_burns hwi hfl hcl hallow hgt hcode hs hi hv hcls hused
  have hw2 : Reachable E (step E w (.parse client req)) := reachable_run hw [.parse client req]
  obtain ⟨g2, h3, h4⟩ := burnt_chain (winv_reachable hw2).core (chain_run hw2 ops) h1 h2
  exact ⟨g2, grantAt_spec.2 h3, h4.line⟩

/-- C16, with code exchanges of different threads interleaved.  Presenting a used code is answered by invalid_grant, and from then on
every token that is derived from the code is revoked: those of the exchange that used the code, those of exchanges that
made their tokens at the same time, whether they have answered or not, and whatever is made later. -/
theorem C16_threads (E : Env) (now : Int) (before : List TOp) (hfl : E.cfg.flavor = .oidc)
    (client : String) (cl : TClient) (hcl : E.cfg.cdb.get? client = some cl)
    (hallow : ∀ l, cl.grantTypes = some l → "authorization_code" ∈ l)
    (req : TokenReq) (hgt : req.grantType = some "authorization_code") (code : String) (hcode : req.code = some code)
    (s : Sess) (hs : sessionByToken E (trun E { w := { now := now } } before).w code = .ok s)
    (i : Nat) (t : Token) (hi : s.grant.issuedToken[i]? = some t)
    (hv : t.value = code) (hcls : t.cls = .authorizationCode) (hused : t.used ≠ 0) (after : List TOp) :
    (tokenParse E (trun E { w := { now := now } } before).w client { req with clientId := some client }).1 =
      .ok (.err "invalid_grant") ∧
    ∃ g, GrantAt (trun E { w := { now := now } } (before ++ .whole (.parse client req) :: after)).w s.ref g ∧
      ∀ j t', DerivedFrom g.issuedToken code j → g.issuedToken[j]? = some t' → t'.revoked = true := by
  have hti := tinv_run (tinv_init E now) before
  obtain ⟨h0, g', h1, h2, _⟩ := replay_burns hti.w hfl hcl hallow hgt hcode hs hi hv hcls hused
  have hti2 := (tstep_spec hti (.whole (.parse client req))).1
  obtain ⟨g2, h3, h4⟩ := burnt_chain hti2.w.core (trun_chain hti2 after) h1 h2
  refine ⟨h0, g2, grantAt_spec.2 ?_, h4.line⟩
  rw [show trun E { w := { now := now } } (before ++ .whole (.parse client req) :: after) =
    trun E (tstep E (trun E { w := { now := now } } before) (.whole (.parse client req))) after from by
      simp [trun, List.foldl_append]]
  exact h3

namespace Ex

/-- C16: two threads have got tokens for the code and a third is past minting; then the code is presented again.  The hypotheses are
met, and the tokens of all three are revoked. -/
def race3 : List TOp :=
  [.whole (.login "d" "c1" (authzReq "c1") event), .whole (.authorize (sid "c1" 0) (authzReq "c1")),
   .whole (.parse "c1" (codeReq (E.mkVal 1 .authorizationCode (sid "c1" 0)))),
   .whole (.parse "c1" (codeReq (E.mkVal 1 .authorizationCode (sid "c1" 0)))),
   .whole (.parse "c1" (codeReq (E.mkVal 1 .authorizationCode (sid "c1" 0)))),
   .start 0 none, .start 1 none, .start 2 none, .finish 0, .finish 0]

example : (sessionByToken E (trun E { w := init } race3).w (E.mkVal 1 .authorizationCode (sid "c1" 0))).toOption.map (fun s =>
        (s.ref, s.grant.issuedToken[0]?.map (fun t => (t.value, t.cls, t.used)))) =
      some (2, some (E.mkVal 1 .authorizationCode (sid "c1" 0), .authorizationCode, 2)) ∧
    E.cfg.flavor = .oidc ∧ E.cfg.cdb.get? "c1" = some {} ∧
    (trun E { w := init } race3).pending.length = 1 ∧
    (((trun E { w := init } race3).w.st.grantAt 2).getD {}).issuedToken.map (fun t => (t.cls, t.revoked)) =
      [(.authorizationCode, false), (.accessToken, false), (.refreshToken, false), (.idToken, false),
       (.accessToken, false), (.refreshToken, false), (.idToken, false),
       (.accessToken, false), (.refreshToken, false), (.idToken, false)] ∧
    (((trun E { w := init } (race3 ++ [.whole (.parse "c1" (codeReq (E.mkVal 1 .authorizationCode (sid "c1" 0)))),
      .finish 0])).w.st.grantAt 2).getD {}).issuedToken.map (fun t => (t.cls, t.revoked)) =
      [(.authorizationCode, false), (.accessToken, true), (.refreshToken, true), (.idToken, true),
       (.accessToken, true), (.refreshToken, true), (.idToken, true),
       (.accessToken, true), (.refreshToken, true), (.idToken, true)] := by
  decide +kernel

end Ex

end OidcOp
