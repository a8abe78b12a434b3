/-
However long the chain of refreshes, replay of the code ends every token in it (C95).
-/
import Verif.Lemmas.Depth
import Verif.Props.Honoured

namespace OidcOp
open Spec

/-- The list is determined by what does not change and by what is revoked. -/
theorem revokedWithin_of {S : Nat → Prop} {ts ts' : List Token} (hs : SameStatic ts' ts) (hw : ∀ k, RevAt ts' k → RevAt ts k ∨ S k)
    (hm : ∀ k, RevAt ts k → RevAt ts' k) : RevokedWithin S ts ts' := by
  refine ⟨by simpa using congrArg List.length hs, fun i t ht => ?_⟩
  obtain ⟨u, hu, he⟩ := hs.symm.get ht
  have hut : u = { t with revoked := u.revoked } := by
    cases u; cases t
    simp only [Token.mk.injEq] at he ⊢
    simp_all
  cases hr : u.revoked with
  | false =>
    left
    rw [hu, hut, hr]
    cases htr : t.revoked with
    | false => rw [← htr]
    | true =>
      obtain ⟨x, hx, hxr⟩ := hm i ⟨t, ht, htr⟩
      rw [hu] at hx; cases hx
      rw [hr] at hxr; cases hxr
  | true =>
    rcases hw i ⟨u, hu, hr⟩ with ⟨x, hx, hxr⟩ | h
    · left
      rw [ht] at hx; cases hx
      rw [hu, hut, hr, ← hxr]
    · right
      exact ⟨h, by rw [hu, hut, hr]⟩

/-- C95, partial: when every token that comes from the code is fewer links away from it than there is room for nested calls, the
replay of the code ends in invalid_grant and exactly the tokens that come from it are revoked.  What is missing is the case of a
longer chain: `C95_deep_chain_refuted`. -/
theorem C95_short_chain_partial (limit : Nat) (code : String) (g : Grant) (hpos : 0 < limit)
    (hshort : Shallow g.issuedToken code limit) :
    ∃ ts, replayLimited limit code g = (.ok (.err "invalid_grant"), { g with issuedToken := ts }) ∧
      RevokedExactly (DerivedFrom g.issuedToken code) g.issuedToken ts := by
  have ho := revokeLimited_outcome g.issuedToken limit code g.issuedToken (SameStatic.refl _)
  have hok := ho.ok.2 ⟨hpos, hshort⟩
  refine ⟨(revokeLimited limit code g.issuedToken).2, ?_, ?_⟩
  · unfold replayLimited
    cases hr : revokeLimited limit code g.issuedToken with
    | mk a b => rw [hr] at hok; simp only [] at hok; subst hok; rfl
  · have hw := revokedWithin_of (S := DerivedFrom g.issuedToken code) ho.static (fun k hk => by
      rcases ho.within k hk with h | ⟨d, _, h⟩
      · exact .inl h
      · exact .inr (derivedIn_from h)) ho.mono
    refine ⟨hw.1, fun i t ht => ?_⟩
    by_cases hd : DerivedFrom g.issuedToken code i
    · obtain ⟨x, hx, hxr⟩ := ho.all hok i hd
      refine ⟨true, ?_, by simp [hd]⟩
      rcases hw.2 i t ht with h | ⟨_, h⟩
      · rw [hx] at h; cases h
        rw [hx, ← hxr]
      · exact h
    · refine ⟨t.revoked, ?_, by simp [hd]⟩
      rcases hw.2 i t ht with h | ⟨h, _⟩
      · exact h
      · exact absurd h hd

/-- C95: the replay gets through exactly when no token is too far from the code; otherwise RecursionError is raised.  In either
case nothing further away than the room allows is revoked. -/
theorem C95_replay_outcome (limit : Nat) (code : String) (g : Grant) :
    ((replayLimited limit code g).1 = .ok (.err "invalid_grant") ↔ 0 < limit ∧ Shallow g.issuedToken code limit) ∧
    ((replayLimited limit code g).1 ≠ .ok (.err "invalid_grant") → (replayLimited limit code g).1 = .error .recursionError) ∧
    ∃ ts, (replayLimited limit code g).2 = { g with issuedToken := ts } ∧
      RevokedWithin (fun i => ∃ d, d ≤ limit ∧ DerivedIn g.issuedToken code d i) g.issuedToken ts := by
  have ho := revokeLimited_outcome g.issuedToken limit code g.issuedToken (SameStatic.refl _)
  have hw := revokedWithin_of (S := fun i => ∃ d, d ≤ limit ∧ DerivedIn g.issuedToken code d i) ho.static ho.within ho.mono
  unfold replayLimited
  cases hr : revokeLimited limit code g.issuedToken with
  | mk a b =>
    rw [hr] at ho hw
    cases a with
    | ok _ => exact ⟨⟨fun _ => ho.ok.1 rfl, fun _ => rfl⟩, fun h => absurd rfl h, b, rfl, hw⟩
    | error e =>
      refine ⟨⟨fun h => (by cases h), fun h => ?_⟩, fun _ => by rw [ho.error e rfl], b, rfl, hw⟩
      have := ho.ok.2 h
      cases this

/-- With room for all the nested calls it is the revocation of the model. -/
theorem revokeLimited_model (limit : Nat) (code : String) (g : Grant) (hanc : Ancestry g.issuedToken) (hc : code ≠ "") (hpos : 0 < limit)
    (hshort : Shallow g.issuedToken code limit) :
    ∃ g', g.revokeToken "" code = .ok g' ∧ replayLimited limit code g = (.ok (.err "invalid_grant"), g') := by
  obtain ⟨ts, h1, h2⟩ := C95_short_chain_partial limit code g hpos hshort
  obtain ⟨ts', h3, h4⟩ := C17_revoke_descendants g hanc code hc
  have : ts = ts' := by
    apply List.ext_getElem?
    intro i
    cases ht : g.issuedToken[i]? with
    | none =>
      have hl : g.issuedToken.length ≤ i := List.getElem?_eq_none_iff.1 ht
      rw [List.getElem?_eq_none (by rw [h2.1]; exact hl), List.getElem?_eq_none (by rw [h4.1]; exact hl)]
    | some t =>
      obtain ⟨r, hr, hr'⟩ := h2.2 i t ht
      obtain ⟨q, hq, hq'⟩ := h4.2 i t ht
      have : r = q := by rw [Bool.eq_iff_iff, hr', hq']
      rw [hr, hq, this]
  exact ⟨_, h3, by rw [h1, this]⟩

/-! ### A chain of any length -/

theorem modifyFirst_get {v : String} {l : List Token} {i : Nat} {t : Token} (h : l[i]? = some t) :
    ∃ t', (modifyFirst v Token.registerUsage l)[i]? = some t' ∧ (t' = t ∨ t' = t.registerUsage) := by
  induction l generalizing i with
  | nil => simp at h
  | cons x r ih =>
    unfold modifyFirst
    split
    · cases i with
      | zero => simp at h; subst h; exact ⟨_, rfl, .inr rfl⟩
      | succ j => exact ⟨t, by simpa using h, .inl rfl⟩
    · cases i with
      | zero => exact ⟨t, h, .inl rfl⟩
      | succ j => simpa using ih (i := j) (by simpa using h)

theorem derivedIn_mono {l l' : List Token} {v : String} {d i : Nat}
    (hk : ∀ (j : Nat) (t : Token), l[j]? = some t → ∃ t' : Token, l'[j]? = some t' ∧ t'.value = t.value ∧ t'.basedOn = t.basedOn)
    (h : DerivedIn l v d i) : DerivedIn l' v d i := by
  induction h with
  | child ht hb =>
    obtain ⟨t', h1, _, h3⟩ := hk _ _ ht
    exact .child h1 (h3.trans hb)
  | step _ hp ht hb ih =>
    obtain ⟨p', h1, h2, _⟩ := hk _ _ hp
    obtain ⟨t', h3, _, h5⟩ := hk _ _ ht
    exact .step ih h1 h3 (by rw [h5, hb, h2])

namespace Ex

/-- The scope of the example. -/
def S3 : List String := ["openid", "email", "offline_access"]

def code1 : String := E.mkVal 1 .authorizationCode (sid "c1" 0)

def refreshRules : UsageRules := { supportsMinting := some [.accessToken, .refreshToken, .idToken], expiresIn := some 86400 }

/-- After the code exchange and `k` refreshes, each with the newest refresh token. -/
structure Chained (k : Nat) (w : World) (s : Sess) (i : Nat) (t : Token) : Prop where
  reach : ∃ ops, w = run E init ops
  now : w.now = 1005
  sess : sessionByToken E w t.value = .ok s
  sid : s.sid = sid "c1" 0
  user : s.user = "d"
  client : s.client = "c1"
  live : Live w s i t [.accessToken, .refreshToken, .idToken]
  cls : t.cls = .refreshToken
  eff : EffScope s.grant t.basedOn S3
  scope : t.scope = S3
  unlimited : t.rules.maxUsage = none
  rules : s.grant.rulesFor .refreshToken = some refreshRules
  used : ∃ c, s.grant.issuedToken[0]? = some c ∧ c.value = code1 ∧ c.cls = .authorizationCode ∧ c.used ≠ 0
  deep : DerivedIn s.grant.issuedToken code1 (k + 1) i

theorem chained_zero : Chained 0 (run E init (start "c1")) sess1 2 refresh1 := by
  refine ⟨⟨_, rfl⟩, by decide +kernel, ?_, rfl, rfl, rfl, live1, by decide +kernel, eff1, by decide +kernel, by decide +kernel,
    by decide +kernel, ⟨((grant1 "c1").issuedToken[0]?).getD default, by decide +kernel, by decide +kernel, by decide +kernel, by decide +kernel⟩,
    .child (t := refresh1) live1.held (by decide +kernel)⟩
  have : refresh1.value = E.mkVal 3 .refreshToken (Ex.sid "c1" 0) := by decide +kernel
  rw [this]; exact sess1_ok

theorem info_val (k : Nat) (c : TokenClass) (x : String) (at' : Int) : E.info (E.mkVal k c x) at' = .ok (some x) := by
  show info (String.ofList (val k c x)) = _
  unfold info
  rw [String.toList_ofList, inside_val]
  simp

theorem chained_succ {k : Nat} {w : World} {s : Sess} {i : Nat} {t : Token} (h : Chained k w s i t) :
    ∃ w' s' i' t', Chained (k + 1) w' s' i' t' := by
  obtain ⟨ops, hops⟩ := h.reach
  have hreach : Reachable E w := ⟨1000, ops, hops⟩
  have hh : HandlersWork E w s := works h.sid h.user
  have hopen : NotExcluded E.cfg s.client "refresh_token" := by
    rw [h.client]; exact ⟨{}, by decide +kernel, fun _ hx => by cases hx⟩
  have hagain : refreshAgain E.cfg none [.accessToken, .refreshToken, .idToken] S3 = true := by decide +kernel
  have hrev : revokeRefreshFor E.cfg (some s.client) = false := by rw [h.client]; decide +kernel
  obtain ⟨r, gs, t1, idt, hrun, -, -, -, -, hts, -, -, -, -, hg, -⟩ :=
    refresh_run E w hreach none (refreshReq t.value none) t.value s i t _ S3 rfl hopen rfl h.sess h.live rfl h.cls h.eff
      (fun _ hx => by cases hx) hh
  simp only [refreshReq, Option.getD_none, hagain, if_true, hrev, afterRefresh, Bool.false_eq_true, if_false] at hts
  -- the new refresh token
  have hf := madeToken_fields w.now s.grant .refreshToken t (E.mkVal (w.n + 1) .refreshToken s.sid) S3 ""
  generalize hnx : nextRefresh w.now s.grant t (E.mkVal (w.n + 1) .refreshToken s.sid) S3 = nx at hts
  have hn : nx.cls = .refreshToken ∧ nx.value = E.mkVal (w.n + 1) .refreshToken s.sid ∧ nx.basedOn = some t.value ∧ nx.scope = S3 ∧
      nx.used = 0 ∧ nx.revoked = false ∧ nx.notBefore = 0 ∧ nx.expiresAt = 1005 + 86400 ∧ nx.rules = t.rules := by
    subst hnx
    unfold nextRefresh
    refine ⟨hf.1, hf.2.1, hf.2.2.1, hf.2.2.2.1, hf.2.2.2.2.1, hf.2.2.2.2.2.1, hf.2.2.2.2.2.2.1, ?_, rfl⟩
    show (madeToken w.now s.grant .refreshToken t (E.mkVal (w.n + 1) .refreshToken s.sid) S3 "").expiresAt = _
    rw [hf.2.2.2.2.2.2.2, h.rules, h.now]
    decide
  have keep : ∀ (j : Nat) (x : Token), s.grant.issuedToken[j]? = some x → ∃ x' : Token, gs.g.issuedToken[j]? = some x' ∧ (x' = x ∨ x' = x.registerUsage) := by
    intro j x hx
    rw [hts]
    exact modifyFirst_get (by rw [List.getElem?_append_left (List.getElem?_eq_some_iff.1 hx).1]; exact hx)
  obtain ⟨nx', hnx', hor⟩ := modifyFirst_get (v := t.value) (l := s.grant.issuedToken ++ t1 :: ([nx] ++ idt))
    (i := s.grant.issuedToken.length + 1) (t := nx) (by
      rw [List.getElem?_append_right (by omega)]
      simp)
  rw [← hts] at hnx'
  have hn' : nx'.cls = .refreshToken ∧ nx'.value = E.mkVal (w.n + 1) .refreshToken s.sid ∧ nx'.basedOn = some t.value ∧ nx'.scope = S3 ∧
      nx'.revoked = false ∧ nx'.notBefore = 0 ∧ nx'.expiresAt = 1005 + 86400 ∧ nx'.rules = t.rules := by
    obtain ⟨a, b, c, d, _, e, f, g, i⟩ := hn
    rcases hor with rfl | rfl
    · exact ⟨a, b, c, d, e, f, g, i⟩
    · exact ⟨a, b, c, d, e, f, g, i⟩
  obtain ⟨n1, n2, n3, n4, n5, n6, n7, n8⟩ := hn'
  have hst : ∀ (j : Nat) (x : Token), s.grant.issuedToken[j]? = some x → ∃ x' : Token, gs.g.issuedToken[j]? = some x' ∧ x'.value = x.value ∧ x'.basedOn = x.basedOn := by
    intro j x hx
    obtain ⟨x', h1, h2⟩ := keep j x hx
    refine ⟨x', h1, ?_⟩
    rcases h2 with rfl | rfl <;> exact ⟨rfl, rfl⟩
  obtain ⟨t', ht', hor'⟩ := keep i t h.live.held
  have htv : t'.value = t.value ∧ t'.scope = S3 := by
    rcases hor' with rfl | rfl
    · exact ⟨rfl, h.scope⟩
    · exact ⟨rfl, h.scope⟩
  refine ⟨_, { s with grant := gs.g }, s.grant.issuedToken.length + 1, nx',
    ⟨ops ++ [.parse s.client (refreshReq t.value none), .process w.pool.length none], rfl⟩, ?_, ?_, h.sid, h.user, h.client, ?_,
    n1, ?_, n4, ?_, ?_, ?_, ?_⟩
  all_goals try rw [show run E init (ops ++ [.parse s.client (refreshReq t.value none), .process w.pool.length none]) =
    run E w [.parse s.client (refreshReq t.value none), .process w.pool.length none] by rw [hops]; simp [run], hrun]
  · exact h.now
  · rw [n2]
    exact commit_session (w := { w with pool := w.pool ++ [{ refreshReq t.value none with clientId := some s.client }] }) h.sess
      ⟨hh.make, hh.read, hh.named, hh.plain, hh.own⟩ gs (info_val _ _ _ _)
  · refine ⟨hnx', ⟨n5, ?_, ?_, ?_⟩, ?_, ?_, by rw [n8]; exact h.live.rules, h.live.access⟩
    · intro m hm
      have : nx'.rules.maxUsage = some m := hm
      rw [n8, h.unlimited] at this; cases this
    · intro hx; exact absurd n6 hx
    · intro _
      show w.now ≤ nx'.expiresAt
      rw [n7, h.now]; decide
    · have ha := h.live.grant
      have hu := h.live.unlimited
      show ItemActive gs.g.item w.now
      rw [hg]
      refine ⟨ha.1, fun m hm => ?_, ha.2.2⟩
      have hm' : s.grant.maxUsage = some m := hm
      rw [hu] at hm'; cases hm'
    · show gs.g.maxUsage = none
      rw [hg]; exact h.live.unlimited
  · show EffScope gs.g nx'.basedOn S3
    rw [n3, ← htv.1, ← htv.2]
    exact .own (List.mem_of_getElem? ht') (by rw [htv.2]; decide)
  · rw [n8]; exact h.unlimited
  · show gs.g.rulesFor .refreshToken = _
    rw [hg]; exact h.rules
  · obtain ⟨c, hc, hv, hcl, hu⟩ := h.used
    obtain ⟨c', hc', hor⟩ := keep 0 c hc
    refine ⟨c', hc', ?_⟩
    rcases hor with rfl | rfl
    · exact ⟨hv, hcl, hu⟩
    · exact ⟨hv, hcl, by show c.used + 1 ≠ 0; omega⟩
  · exact .step (derivedIn_mono hst h.deep) ht' hnx' (by rw [n3, htv.1])

theorem chained (k : Nat) : ∃ w s i t, Chained k w s i t := by
  induction k with
  | zero => exact ⟨_, _, _, _, chained_zero⟩
  | succ k ih => obtain ⟨w, s, i, t, h⟩ := ih; exact chained_succ h

end Ex

/-- C95 is false of the code: whatever room there is for nested calls, there is a history after which the replay of a used code
ends in RecursionError and leaves a refresh token that comes from the code live. -/
theorem C95_deep_chain_refuted (limit : Nat) :
    ∃ (ops : List WOp) (ref : Nat) (g : Grant) (c : Token) (ts : List Token) (i : Nat) (t : Token),
      GrantAt (run Ex.E Ex.init ops) ref g ∧ c ∈ g.issuedToken ∧ c.cls = .authorizationCode ∧ c.used ≠ 0 ∧
      replayLimited limit c.value g = (.error .recursionError, { g with issuedToken := ts }) ∧
      ts[i]? = some t ∧ t.cls = .refreshToken ∧ DerivedFrom ts c.value i ∧ ItemActive t.item (run Ex.E Ex.init ops).now := by
  obtain ⟨w, s, i, t, h⟩ := Ex.chained limit
  obtain ⟨ops, rfl⟩ := h.reach
  have hg := sessionByToken_grantAt h.sess
  have hanc := ancestry_reachable (winv_reachable ⟨1000, ops, rfl⟩).core hg
  obtain ⟨c, hc, hcv, hcc, hcu⟩ := h.used
  obtain ⟨h1, h2, ts, h3, h4⟩ := C95_replay_outcome limit Ex.code1 s.grant
  have hne : (replayLimited limit Ex.code1 s.grant).1 ≠ .ok (.err "invalid_grant") := by
    intro hok
    have := (h1.1 hok).2 _ _ h.deep
    omega
  have hsame : ts[i]? = some t := by
    rcases h4.2 i t h.live.held with hx | ⟨⟨d, hd, hx⟩, _⟩
    · exact hx
    · have := derivedIn_unique hanc hx h.deep
      omega
  have hres : replayLimited limit Ex.code1 s.grant = (.error .recursionError, { s.grant with issuedToken := ts }) := by
    rw [← h2 hne, ← h3]
  refine ⟨ops, s.ref, s.grant, c, ts, i, t, grantAt_iff.1 hg, List.mem_of_getElem? hc, hcc, hcu, by rw [hcv]; exact hres, hsame, h.cls, ?_,
    h.live.active⟩
  rw [hcv]
  refine derivedIn_from (derivedIn_mono ?_ h.deep)
  intro j x hx
  rcases h4.2 j x hx with hy | ⟨_, hy⟩
  · exact ⟨x, hy, rfl, rfl⟩
  · exact ⟨_, hy, rfl, rfl⟩

/-- The partial theorem is about something: the tokens of the first exchange are one link away from the code. -/
example : 0 < 900 ∧ Shallow (Ex.grant1 "c1").issuedToken Ex.code1 900 := by
  refine ⟨by decide, ?_⟩
  have : ∀ d i, DerivedIn (Ex.grant1 "c1").issuedToken Ex.code1 d i → d = 1 := by
    intro d i h
    induction h with
    | child _ _ => rfl
    | step h1 hp ht hb ih =>
      rename_i d i j p t
      have hall : ∀ x ∈ (Ex.grant1 "c1").issuedToken, ∀ y ∈ (Ex.grant1 "c1").issuedToken, x.basedOn = some y.value →
          y.basedOn = none := by decide +kernel
      have h0 := hall t (List.mem_of_getElem? ht) p (List.mem_of_getElem? hp) hb
      cases h1 with
      | child hp' hb' => rw [hp] at hp'; cases hp'; rw [h0] at hb'; cases hb'
      | step _ _ hp' hb' => rw [hp] at hp'; cases hp'; rw [h0] at hb'; cases hb'
  intro d i h
  have := this d i h
  omega

end OidcOp
