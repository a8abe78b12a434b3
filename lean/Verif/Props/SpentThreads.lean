/-
C25: revoked, used and expired tokens are refused, also when code exchanges or refreshes of different threads interleave.
-/
import Verif.Spec.Refused
import Verif.Props.ReplayRefresh
import Verif.Props.Resource

namespace OidcOp
open Spec

/-- A token that is spent is refused in every state that atomic steps lead to. -/
theorem spent_refused {E : Env} {w w' : World} (hcore : CInv E (fun _ => True) w'.core)
    (hc : Chain E (fun _ => True) w.core w'.core) {r i : Nat} {t : Token} (ht : TokenAt w r i t) (hsp : Spent t w.now) :
    Refused E w' t.value := by
  intro db
  obtain ⟨g, hg, hi⟩ := ht
  obtain ⟨g', t', h5, h6, h7⟩ := tokenAt_later hc (grantAt_spec.1 hg) hi
  have hsp' : Spent t' w'.now := spent_mono h7 (mono_chain hc).2 hsp
  have hval : t'.value = t.value := (static_fields h7.static).2.1
  have hdead : ∀ s t2, sessionByToken E w' t.value = .ok s → s.grant.getToken t.value = some t2 →
      ¬ ItemActive t2.item w'.now := by
    intro s t2 hs h2
    obtain ⟨h3, h4⟩ := getToken_mem h2
    obtain ⟨j, hj⟩ := List.getElem?_of_mem h3
    obtain ⟨e1, e2⟩ := hcore.uniq _ _ _ _ _ _ _ _ h5 (sessionByToken_grantAt hs) h6 hj (by rw [hval, h4])
    subst e1 e2
    have := sessionByToken_grantAt hs
    rw [show w'.st.grantAt s.ref = some g' from h5] at this
    cases this
    rw [h6] at hj
    cases hj
    exact not_active_of_spent hsp' (Int.le_refl _)
  constructor
  · intro info client h
    obtain ⟨s, t2, ev, hs, h2, _, ha, _⟩ := userinfo_session h
    exact hdead s t2 hs h2 ((isActive_clock_iff _ _).1 ha)
  · intro issuer extra username resp h
    unfold introspectProcess at h
    split at h
    · split at h
      · cases h; rfl
      · cases h
    · rename_i s hs
      split at h
      · cases h
      · rename_i t2 h2
        split at h
        · cases h
        · cases h; rfl
        · rename_i x hx
          exact absurd ((introspectToken_active hx).1 rfl).2 (hdead s t2 hs h2)

/-- C25 (partial, as `C25_spent_token_partial`), with code exchanges of different threads interleaved: a token that is revoked, used up or
expired is refused from then on, whatever threads that are in the middle of an exchange do. -/
theorem C25_threads_partial (E : Env) (now : Int) (ops ops' : List TOp) (r i : Nat) (t : Token)
    (ht : TokenAt (trun E { w := { now := now } } ops).w r i t) (hsp : Spent t (trun E { w := { now := now } } ops).w.now) :
    Refused E (trun E { w := { now := now } } (ops ++ ops')).w t.value := by
  have h := tinv_run (tinv_init E now) ops
  have h' := tinv_run (tinv_init E now) (ops ++ ops')
  have hc := trun_chain h ops'
  rw [show trun E (trun E { w := { now := now } } ops) ops' = trun E { w := { now := now } } (ops ++ ops') from by
    simp [trun, List.foldl_append]] at hc
  exact spent_refused h'.w.core hc ht hsp

/-- C25 (partial, as `C25_spent_token_partial`), with refreshes of different threads interleaved. -/
theorem C25_refresh_threads_partial (E : Env) (now : Int) (ops ops' : List FOp) (r i : Nat) (t : Token)
    (ht : TokenAt (frun E { w := { now := now } } ops).w r i t) (hsp : Spent t (frun E { w := { now := now } } ops).w.now) :
    Refused E (frun E { w := { now := now } } (ops ++ ops')).w t.value := by
  have h := finv_run (finv_init E now) ops
  have h' := finv_run (finv_init E now) (ops ++ ops')
  have hc := frun_chain h ops'
  rw [show frun E (frun E { w := { now := now } } ops) ops' = frun E { w := { now := now } } (ops ++ ops') from by
    simp [frun, List.foldl_append]] at hc
  exact spent_refused h'.w.core hc ht hsp

/-- C16 seen from outside, with refreshes interleaved: after a used code has been presented again no token that was derived from it is
good for anything, at any later time: not those that were handed out and not those that threads in the middle of a refresh hand out
afterwards. -/
theorem C16_refused (E : Env) (now : Int) (before : List FOp) (hfl : E.cfg.flavor = .oidc)
    (client : String) (cl : TClient) (hcl : E.cfg.cdb.get? client = some cl)
    (hallow : ∀ l, cl.grantTypes = some l → "authorization_code" ∈ l)
    (req : TokenReq) (hgt : req.grantType = some "authorization_code") (code : String) (hcode : req.code = some code)
    (s : Sess) (hs : sessionByToken E (frun E { w := { now := now } } before).w code = .ok s)
    (i : Nat) (t : Token) (hi : s.grant.issuedToken[i]? = some t)
    (hv : t.value = code) (hcls : t.cls = .authorizationCode) (hused : t.used ≠ 0) (after : List FOp)
    (g : Grant) (hg : GrantAt (frun E { w := { now := now } } (before ++ .whole (.parse client req) :: after)).w s.ref g)
    (j : Nat) (t' : Token) (hd : DerivedFrom g.issuedToken code j) (hj : g.issuedToken[j]? = some t') :
    Refused E (frun E { w := { now := now } } (before ++ .whole (.parse client req) :: after)).w t'.value := by
  obtain ⟨_, g', h1, h2⟩ := C16_refresh_threads E now before hfl client cl hcl hallow req hgt code hcode s hs i t hi hv hcls hused after
  have e : g' = g := by
    unfold GrantAt at h1 hg
    rw [hg] at h1
    cases h1
    rfl
  subst e
  exact spent_refused (finv_run (finv_init E now) _).w.core (.refl _) ⟨_, hg, hj⟩ (.inl (h2 j t' hd hj))

namespace Ex

/-- The hypotheses of C25_refresh_threads_partial: with a thread in the middle, the refresh token is revoked. -/
example : ((((frun E { w := init } replayRace).w.st.grantAt 2).getD {}).issuedToken[2]?.map (fun t => (t.cls, t.revoked))) =
      some (.refreshToken, true) ∧ (frun E { w := init } replayRace).pending.length = 1 := by decide +kernel

/-- The hypotheses of C25_threads_partial: with a thread in the middle, the code is used up. -/
example : ((((trun E { w := init } race3).w.st.grantAt 2).getD {}).issuedToken[0]?.map (fun t => (t.cls, t.rules.maxUsage, t.used))) =
      some (.authorizationCode, some 1, 2) ∧ (trun E { w := init } race3).pending.length = 1 := by decide +kernel

/-- The hypotheses of C16_refused: the tokens that the second thread hands out after the replay are derived from the code. -/
example : ∃ g, (frun E { w := init } (replayRace ++ .whole (.parse "c2" replayReq) :: [.finish 0])).w.st.grantAt 2 = some g ∧
    DerivedFrom g.issuedToken (E.mkVal 1 .authorizationCode (sid "c2" 0)) 7 := by
  have h : ∃ g, (frun E { w := init } (replayRace ++ .whole (.parse "c2" replayReq) :: [.finish 0])).w.st.grantAt 2 = some g ∧
      ∃ p t, g.issuedToken[2]? = some p ∧ p.basedOn = some (E.mkVal 1 .authorizationCode (sid "c2" 0)) ∧
        g.issuedToken[7]? = some t ∧ t.basedOn = some p.value := by
    refine ⟨_, rfl, _, _, rfl, ?_, rfl, ?_⟩ <;> decide +kernel
  obtain ⟨g, h1, p, t, h2, h3, h4, h5⟩ := h
  exact ⟨g, h1, .step (.child h2 h3) h2 h4 h5⟩

end Ex

end OidcOp
