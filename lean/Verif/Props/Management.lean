/-
C07, C09 and C17 for the provider as a whole: what revoking and removing by session id does after any history of requests.
-/
import Verif.Props.Isolation
import Verif.Props.Session

namespace OidcOp
open Spec

theorem modifyFirst_markBy {v : String} {ts : List Token}
    (huniq : ∀ (i j : Nat) (a b : Token), ts[i]? = some a → ts[j]? = some b → a.value = v → b.value = v → i = j) :
    modifyFirst v Token.revoke ts = markBy (fun i => ∃ t, ts[i]? = some t ∧ t.value = v) ts := by
  apply List.ext_getElem?
  intro i
  rw [markBy_getElem?]
  induction ts generalizing i with
  | nil => rfl
  | cons x r ih =>
    have hr : ∀ (i j : Nat) (a b : Token), r[i]? = some a → r[j]? = some b → a.value = v → b.value = v → i = j := by
      intro i j a b h1 h2 h3 h4
      have := huniq (i + 1) (j + 1) a b (by simpa using h1) (by simpa using h2) h3 h4
      omega
    unfold modifyFirst
    by_cases hx : x.value = v
    · rw [if_pos hx]
      cases i with
      | zero => simp [hx]
      | succ i =>
        simp only [List.getElem?_cons_succ]
        have hno : ¬ ∃ t, r[i]? = some t ∧ t.value = v := by
          rintro ⟨t, ht, he⟩
          have := huniq 0 (i + 1) x t rfl (by simpa using ht) hx he
          omega
        simp [hno]
    · rw [if_neg hx]
      cases i with
      | zero => simp [hx]
      | succ i =>
        simp only [List.getElem?_cons_succ]
        rw [ih hr]

/-- C17.  In every reachable state, revoking a token of a session revokes this token, with `recursive` also everything
derived from it, and nothing else.  Everything else in the database stays as it is. -/
theorem C17_by_session_id (E : Env) (w : World) (hw : Reachable E w) (sid v : String) (rec : Bool) (s : Sess) (t : Token)
    (hs : sessionOf E w.st sid = .ok s) (ht : t ∈ s.grant.issuedToken) (hv : t.value = v) :
    ∃ ts, (step E w (.revokeToken sid v rec)).st.grantAt s.ref = some { s.grant with issuedToken := ts } ∧
      RevokedExactly (fun i => (∃ x, s.grant.issuedToken[i]? = some x ∧ x.value = v) ∨
        (rec = true ∧ DerivedFrom s.grant.issuedToken v i)) s.grant.issuedToken ts ∧
      (∀ r, r ≠ s.ref → (step E w (.revokeToken sid v rec)).st.obj r = w.st.obj r) ∧
      (step E w (.revokeToken sid v rec)).st.db = w.st.db := by
  have hinv := (winv_reachable hw).core
  have hg := (sessionOf_spec hs).1
  have hanc := (C18_ancestry E w hw).1 _ _ (grantAt_spec.2 hg)
  have huniq : ∀ (i j : Nat) (a b : Token), s.grant.issuedToken[i]? = some a → s.grant.issuedToken[j]? = some b →
      a.value = v → b.value = v → i = j := by
    intro i j a b h1 h2 h3 h4
    exact (hinv.uniq _ _ _ _ i j a b hg hg h1 h2 (h3.trans h4.symm)).2
  have hget : ∃ t', s.grant.getToken v = some t' := by
    cases hh : s.grant.getToken v with
    | some t' => exact ⟨t', rfl⟩
    | none =>
      unfold Grant.getToken at hh
      have := List.find?_eq_none.1 hh t ht
      simp [hv] at this
  obtain ⟨t', hget⟩ := hget
  have hput : ∀ ts : List Token, (w.st.put s.ref (.grant { s.grant with issuedToken := ts })).grantAt s.ref =
        some { s.grant with issuedToken := ts } ∧
      (∀ r, r ≠ s.ref → (w.st.put s.ref (.grant { s.grant with issuedToken := ts })).obj r = w.st.obj r) ∧
      (w.st.put s.ref (.grant { s.grant with issuedToken := ts })).db = w.st.db := by
    intro ts
    refine ⟨grantAt_put_self hg _, ?_, rfl⟩
    intro r hr
    unfold Store.put Store.obj
    simp [List.getElem?_set_ne (Ne.symm hr)]
  have h1 := modifyFirst_markBy huniq
  show ∃ ts, (revokeTokenW E w sid v rec).st.grantAt s.ref = _ ∧ _ ∧ (∀ r, r ≠ s.ref → (revokeTokenW E w sid v rec).st.obj r = _) ∧
    (revokeTokenW E w sid v rec).st.db = _
  unfold revokeTokenW
  rw [hs]
  simp only []
  rw [hget]
  simp only [Grant.updateToken]
  rw [h1]
  cases rec with
  | false =>
    simp only [Bool.false_eq_true, if_false, false_and, or_false]
    obtain ⟨p1, p2, p3⟩ := hput (markBy (fun i => ∃ x, s.grant.issuedToken[i]? = some x ∧ x.value = v) s.grant.issuedToken)
    exact ⟨_, p1, revokedExactly_markBy _ _, p2, p3⟩
  | true =>
    simp only [if_true, true_and]
    rw [revokeDependentFuel_eq s.grant.issuedToken hanc _ v (by intro i t _ _; rw [markBy_length]; omega) (by omega) _
      (sameStatic_markBy _ _)]
    rw [markBy_markBy]
    obtain ⟨p1, p2, p3⟩ := hput (markBy (fun k => (∃ x, s.grant.issuedToken[k]? = some x ∧ x.value = v) ∨
      DerivedFrom s.grant.issuedToken v k) s.grant.issuedToken)
    exact ⟨_, p1, revokedExactly_markBy _ _, p2, p3⟩

/-- C09, by session id.  After any fair history of the provider, revoking the client session of a session id marks the
client session and every grant it has as revoked, and leaves everything else as it is. -/
theorem C09_by_session_id_partial (E : Env) (U : String → Prop) (adds : Bool)
    (hU : ∀ n u c g, (SKey.gra u c g).Good U → ¬ U (E.encSid n [u, c, g]))
    (now : Int) (ops : List WOp) (hops : ∀ op ∈ ops, FairW E U adds op) (n : Nat) (u c g : String)
    (hk : (SKey.gra u c g).Good U) (ci : SInfo) (hc : found (run E { now := now } ops).st (.cli u c) = some (.info ci)) :
    found (step E (run E { now := now } ops) (.revokeClientSession (E.encSid n [u, c, g]))).st (.cli u c) =
      some (.info { ci with revoked := true }) ∧
    (∀ g' gr, (SKey.gra u c g').Good U → found (run E { now := now } ops).st (.gra u c g') = some (.grant gr) →
      found (step E (run E { now := now } ops) (.revokeClientSession (E.encSid n [u, c, g]))).st (.gra u c g') =
        some (.grant { gr with revoked := true })) ∧
    (∀ k : SKey, k.Good U → k ≠ .cli u c → (∀ g', k ≠ .gra u c g') →
      found (step E (run E { now := now } ops) (.revokeClientSession (E.encSid n [u, c, g]))).st k =
        found (run E { now := now } ops).st k) := by
  obtain ⟨-, hh⟩ := fair_run hU ops hops (fair_init (E := E) (U := U) (adds := adds) now).1
    (fair_init (E := E) (U := U) (adds := adds) now).2
  generalize run E { now := now } ops = w at hh hc
  have hi := hh.inv
  have hkc := good_cli_of_gra hk
  have hst : (step E w (.revokeClientSession (E.encSid n [u, c, g]))).st = (revokeClientSession u c w.st).2 := by
    show (revokeClientSessionW E w (E.encSid n [u, c, g])).st = _
    unfold revokeClientSessionW
    rw [E.decrypt_enc n u c g hk.2.1 hk.2.2.1 hk.2.2.2]
  rw [hst]
  rw [found_view hi hkc] at hc
  cases hv : view U w.st (.cli u c) with
  | none => rw [hv] at hc; cases hc
  | some p =>
    obtain ⟨r, o⟩ := p
    rw [hv] at hc; cases hc
    obtain ⟨s', he, hi', hv', _⟩ := revokeClientSession_spec hi hv
    rw [he]
    refine ⟨?_, ?_, ?_⟩
    · rw [found_view hi' hkc, hv']; simp
    · intro g gr hkg hf
      rw [found_view hi hkg] at hf
      cases hx : view U w.st (.gra u c g) with
      | none => rw [hx] at hf; cases hf
      | some q =>
        obtain ⟨rg, og⟩ := q
        rw [hx] at hf; cases hf
        obtain ⟨r', i, h, hm⟩ := hi.links.up2 _ _ _ _ hx
        rw [hv] at h; cases h
        rw [found_view hi' hkg, hv', upd_ne _ _ (by simp)]
        simp [revokedView, hm, hx, Obj.revoke, Grant.revoke]
    · intro k hk' hne hng
      rw [found_view hi' hk', found_view hi hk', hv', upd_ne _ _ hne]
      cases k with
      | usr _ => rfl
      | cli _ _ => rfl
      | gra u' c' g' =>
        have : ¬ (u' = u ∧ c' = c ∧ g' ∈ ci.subordinate) := by
          rintro ⟨rfl, rfl, _⟩; exact hng g' rfl
        simp only [revokedView]
        rw [if_neg this]

/-- C09, one grant.  After any fair history of the provider, revoking the grant of a session id marks this grant as revoked
and leaves everything else as it is. -/
theorem C09_grant_by_session_id_partial (E : Env) (U : String → Prop) (adds : Bool)
    (hU : ∀ n u c g, (SKey.gra u c g).Good U → ¬ U (E.encSid n [u, c, g]))
    (now : Int) (ops : List WOp) (hops : ∀ op ∈ ops, FairW E U adds op) (n : Nat) (u c g : String)
    (hk : (SKey.gra u c g).Good U) (gr : Grant)
    (hg : found (run E { now := now } ops).st (.gra u c g) = some (.grant gr)) :
    found (step E (run E { now := now } ops) (.revokeGrant (E.encSid n [u, c, g]))).st (.gra u c g) =
      some (.grant { gr with revoked := true }) ∧
    (∀ k : SKey, k.Good U → k ≠ .gra u c g →
      found (step E (run E { now := now } ops) (.revokeGrant (E.encSid n [u, c, g]))).st k =
        found (run E { now := now } ops).st k) := by
  obtain ⟨-, hh⟩ := fair_run hU ops hops (fair_init (E := E) (U := U) (adds := adds) now).1
    (fair_init (E := E) (U := U) (adds := adds) now).2
  generalize run E { now := now } ops = w at hh hg
  have hi := hh.inv
  have hst : (step E w (.revokeGrant (E.encSid n [u, c, g]))).st = (revokeGrant ⟨u, some c, some g⟩ w.st).2 := by
    show (revokeGrantW E w (E.encSid n [u, c, g])).st = _
    unfold revokeGrantW
    rw [E.decrypt_enc n u c g hk.2.1 hk.2.2.1 hk.2.2.2]
    rfl
  rw [hst]
  rw [found_view hi hk] at hg
  cases hv : view U w.st (.gra u c g) with
  | none => rw [hv] at hg; cases hg
  | some p =>
    obtain ⟨r, o⟩ := p
    rw [hv] at hg; cases hg
    obtain ⟨s', he, hi', hv', _⟩ := revokeGrant_spec hi hv
    rw [he]
    refine ⟨?_, ?_⟩
    · rw [found_view hi' hk, hv']; simp [Grant.revoke]
    · intro k hk' hne
      rw [found_view hi' hk', found_view hi hk', hv', upd_ne _ _ hne]

/-- C07, by session id.  After any fair history of the provider without `add_grant`, removing a session makes its grant
unreadable, by its path and by its session id, and leaves everything as it is except the client's and the user's record. -/
theorem C07_by_session_id_partial (E : Env) (U : String → Prop)
    (hU : ∀ n u c g, (SKey.gra u c g).Good U → ¬ U (E.encSid n [u, c, g]))
    (now : Int) (ops : List WOp) (hops : ∀ op ∈ ops, FairW E U false op) (n : Nat) (u c g : String)
    (hk : (SKey.gra u c g).Good U) (hc : ¬ U c) :
    found (step E (run E { now := now } ops) (.removeSession (E.encSid n [u, c, g]))).st (.gra u c g) = none ∧
    (∀ s, sessionOf E (step E (run E { now := now } ops) (.removeSession (E.encSid n [u, c, g]))).st (E.encSid n [u, c, g]) ≠ .ok s) ∧
    (∀ k : SKey, k.Good U → k ≠ .gra u c g → k ≠ .cli u c → k ≠ .usr u →
      found (step E (run E { now := now } ops) (.removeSession (E.encSid n [u, c, g]))).st k =
        found (run E { now := now } ops).st k) := by
  obtain ⟨-, hh⟩ := fair_run hU ops hops (fair_init (E := E) (U := U) (adds := false) now).1
    (fair_init (E := E) (U := U) (adds := false) now).2
  generalize run E { now := now } ops = w at hh
  have hi := hh.inv
  have hst : (step E w (.removeSession (E.encSid n [u, c, g]))).st = (removeSession u c g w.st).2 := by
    show (removeSessionW E w (E.encSid n [u, c, g])).st = _
    unfold removeSessionW
    rw [E.decrypt_enc n u c g hk.2.1 hk.2.2.1 hk.2.2.2]
  rw [hst]
  have hfor := foreign_of hk.2.2.1.2 hc
  have hkc := good_cli_of_gra hk
  have main : ∃ s', (removeSession u c g w.st).2 = s' ∧ DbInv U s' ∧ view U s' (.gra u c g) = none ∧
      ∀ k : SKey, k ≠ .gra u c g → k ≠ .cli u c → k ≠ .usr u → view U s' k = view U w.st k := by
    cases hcv : view U w.st (.cli u c) with
    | none =>
      obtain ⟨res, s', he, hi', hv, _⟩ := removeSession_none hi hk hfor hcv
      refine ⟨s', by rw [he], hi', ?_, fun k _ _ _ => by rw [hv]⟩
      rw [hv]
      cases hx : view U w.st (.gra u c g) with
      | none => rfl
      | some x =>
        obtain ⟨_, _, h, _⟩ := hi.links.up2 _ _ _ _ hx
        rw [hcv] at h; cases h
    | some p =>
      obtain ⟨rc, o⟩ := p
      obtain ⟨ci, rfl⟩ := hi.links.typedC _ _ _ _ hcv
      obtain ⟨ru, ui, huv, hm⟩ := hi.links.up1 _ _ _ hcv
      obtain ⟨s', he, hi', hv, _⟩ := removeSession_some hi hk hfor huv hcv
        (not_mem_erase_of_count (hh.once.cli _ _ _ _ _ hcv (by simp))) (not_mem_erase_of_count (hh.once.usr _ _ _ _ huv))
      refine ⟨s', by rw [he], hi', ?_, ?_⟩
      · rw [hv]
        unfold removedView
        split
        · split <;> simp [upd]
        · simp [upd]
      · intro k h1 h2 h3
        rw [hv]
        unfold removedView
        split
        · split <;> simp [upd, h1, h2, h3]
        · simp [upd, h1, h2]
  obtain ⟨s', he, hi', hn, ho⟩ := main
  rw [he]
  refine ⟨by rw [found_view hi' hk, hn]; rfl, ?_, ?_⟩
  · intro s hs
    obtain ⟨_, _, h3, h4⟩ := sessionOf_spec hs
    rw [E.decrypt_enc n u c g hk.2.1 hk.2.2.1 hk.2.2.2] at h3
    simp only [Except.ok.injEq, List.cons.injEq, and_true] at h3
    obtain ⟨rfl, rfl, rfl⟩ := h3
    obtain ⟨o, ho⟩ := (dbGet_iff hi' (k := .gra s.user s.client s.gid) hk s.ref).1 h4
    rw [hn] at ho
    cases ho
  · intro k hk' h1 h2 h3
    rw [found_view hi' hk', found_view hi hk', ho k h1 h2 h3]

/-! ## Cases that meet the hypotheses -/

namespace Ex

/-- C17: the used code of a session has three tokens derived from it; revoking it, with what was derived from it, marks
all four tokens, revoking it alone marks one. -/
example : (∃ s, sessionOf E (run E init (start "c1")).st (sid "c1" 0) = .ok s ∧
      ∃ t ∈ s.grant.issuedToken, t.value = E.mkVal 1 .authorizationCode (sid "c1" 0)) ∧
    (((run E init (start "c1" ++ [.revokeToken (sid "c1" 0) (E.mkVal 1 .authorizationCode (sid "c1" 0)) true])).st.grantAt 2).getD
      {}).issuedToken.map (·.revoked) = [true, true, true, true] ∧
    (((run E init (start "c1" ++ [.revokeToken (sid "c1" 0) (E.mkVal 1 .authorizationCode (sid "c1" 0)) false])).st.grantAt 2).getD
      {}).issuedToken.map (·.revoked) = [true, false, false, false] := by
  refine ⟨⟨{ sid := sid "c1" 0, user := "d", client := "c1", gid := E.uuid 0, ref := 2, grant := grant1 "c1" }, ?_,
    ((grant1 "c1").issuedToken[0]?).getD default, ?_, ?_⟩, ?_, ?_⟩ <;> decide +kernel

/-- C07, C09: the history is fair, and the grant and the client session of its session id are there. -/
example : (∀ op ∈ start "c1", FairW E Users false op) ∧ (SKey.gra "d" "c1" (E.uuid 0)).Good Users ∧ ¬ Users "c1" ∧
    found (run E init (start "c1")).st (.gra "d" "c1" (E.uuid 0)) = some (.grant (grant1 "c1")) ∧
    (∃ ci, found (run E init (start "c1")).st (.cli "d" "c1") = some (.info ci) ∧ ci.revoked = false) :=
  ⟨fair_start, ⟨.inl rfl, ⟨by decide, by decide⟩, ⟨by decide, by decide⟩, E.uuid_clean 0⟩, by unfold Users; decide,
    by decide +kernel, (match found (run E init (start "c1")).st (.cli "d" "c1") with | some (.info ci) => ci | _ => { isUser := true }),
    by decide +kernel, by decide +kernel⟩

end Ex
end OidcOp
