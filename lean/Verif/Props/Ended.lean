/-
C85: a session that has ended stays ended.
-/
import Verif.Lemmas.Ended
import Verif.Props.LoginLife
import Verif.Props.Management

namespace OidcOp
open Spec

theorem part2_setup {L : LoginCfg} {E : Env} {w w' : World} {req : AuthzReq} {hint : List String} {cookies : List SessionCookie}
    {ru : Option (Option String)} {sid user : String} {k : Option SessionCookie}
    (h : processAuthz L E w req hint cookies ru = (.ok (.part2 sid user k), w')) :
    ∃ m w'', setupAuth E L.loads m w req cookies ru = (.ok (.session sid user), w'') := by
  unfold processAuthz at h
  split at h
  · cases h
  · split at h
    · cases h
    · split at h
      · cases h
      · split at h
        · cases h
        · rename_i m _
          split at h
          · cases h
          · cases h
          · cases h
          · rename_i sid1 user1 w1 he
            simp only [Prod.mk.injEq, Except.ok.injEq, ProcRes.part2.injEq] at h
            obtain ⟨⟨rfl, rfl, -⟩, -⟩ := h
            exact ⟨m, w1, he⟩

theorem provHistory_append (p : Prov) (now : Int) (ops ops' : List POp) :
    provHistory p now (ops ++ ops') = provRun p (provHistory p now ops) ops' := by
  simp [provHistory, provRun, List.foldl_append]

/-- C85, for names as in C68.  When a request gets its answer without a login page, it has a cookie for the user named in
the answer and the client of the request.  Take any moment before: if the cookie had been given out by then, its session was
there at that moment, and was not revoked. -/
theorem C85_live_all_along_partial (p : Prov) (U : String → Prop) (hn : Names p U) (now : Int) (ops : List POp)
    (hf : ∀ op ∈ ops, FairP p U op) (req : AuthzReq) (hint : List String) (is : List Nat) (ru : Option (Option String))
    (sid user : String) (k : Option SessionCookie) (w' : World)
    (h : processAuthz p.L p.E (provHistory p now ops).w req hint (pickCookies (provHistory p now ops) is) ru =
      (.ok (.part2 sid user k), w')) :
    ∃ i ∈ is, ∃ ck n c g, (provHistory p now ops).cookies[i]? = some ck ∧ req.clientId = some c ∧
      (SKey.gra user c g).Good U ∧ ck.sid = p.E.encSid n [user, c, g] ∧
      ∀ before after, ops = before ++ after → i < (provHistory p now before).cookies.length →
        (provHistory p now before).cookies[i]? = some ck ∧
        ∃ gr, found (provHistory p now before).w.st (.gra user c g) = some (.grant gr) ∧ gr.revoked = false := by
  have hQ := passing_vetted p (names_ne hn)
  obtain ⟨h2, -⟩ := endInv_history hn hQ now ops hf
  obtain ⟨m, w'', he⟩ := part2_setup h
  have hpick : ∀ k ∈ pickCookies (provHistory p now ops) is, ∃ i ∈ is, (provHistory p now ops).cookies[i]? = some k := by
    intro k hk
    unfold pickCookies at hk
    rw [List.mem_filterMap] at hk
    exact hk
  have hck : ∀ k ∈ pickCookies (provHistory p now ops) is, SidFor p.E U k.sid := by
    intro k hk
    obtain ⟨i, _, hi⟩ := hpick k hk
    exact h2.inv.cookies k (List.mem_of_getElem? hi)
  obtain ⟨ck, hckm, c, s0, ev, hcf, hrc, hso, hact, -⟩ :=
    C38_reuse_partial p.E p.L.loads m _ w'' req _ ru sid user (plainCookies_of (fun u hu => (hn.users u hu).2) hck) he
  obtain ⟨i, him, hi⟩ := hpick ck hckm
  obtain ⟨n, u', c', g', hgood, hke⟩ := hck ck hckm
  have hd := p.E.decrypt_enc n u' c' g' hgood.2.1 hgood.2.2.1 hgood.2.2.2
  obtain ⟨g1, hcf⟩ := hcf
  rw [hke] at hcf hso
  rw [hd] at hcf
  simp only [Except.ok.injEq, List.cons.injEq] at hcf
  obtain ⟨rfl, rfl, _⟩ := hcf
  refine ⟨i, him, ck, n, c', g', hi, hrc, hgood, hke, ?_⟩
  rintro before after rfl hlt
  clear h he hpick hck hckm
  obtain ⟨h1, -⟩ := endInv_history hn hQ now before (fun op ho => hf op (List.mem_append_left _ ho))
  rw [provHistory_append] at hi hso hact h2
  obtain ⟨-, hl, -⟩ := endInv_run hn hQ after (fun op ho => hf op (List.mem_append_right _ ho)) h1
  generalize provHistory p now before = s at *
  generalize provRun p s after = s2 at *
  obtain ⟨l, hl1⟩ := hl.cookies
  have hi0 : s.cookies[i]? = some ck := by
    rw [hl1, List.getElem?_append_left hlt] at hi
    exact hi
  refine ⟨hi0, ?_⟩
  obtain ⟨n', u, c, m', q1, q2, q3, -⟩ := h1.cooks ck (List.mem_of_getElem? hi0)
  have hd' := p.E.decrypt_enc n' u c (p.E.uuid m') q1.2.1 q1.2.2.1 q1.2.2.2
  rw [← q3, hke, hd] at hd'
  cases hd'
  have hv := session_view h2.inv.world.hinv hgood hso
  rcases hl.grants _ _ _ _ _ hv with ⟨gr, v1, v2⟩ | ⟨m2, v1, v2⟩
  · refine ⟨gr, by rw [found_view h1.inv.world.hinv.inv hgood, v1]; rfl, ?_⟩
    cases hr : gr.revoked with
    | false => rfl
    | true =>
      have := (v2.revoked hr).1
      have h3 := hact.1
      rw [show s0.grant.item.revoked = s0.grant.revoked from rfl, this] at h3
      cases h3
  · have := p.E.uuid_inj v2
    omega

/-- The state right after a management operation. -/
theorem provHistory_snoc (p : Prov) (now : Int) (ops : List POp) (op : POp) :
    provHistory p now (ops ++ [op]) = provStep p (provHistory p now ops) op := by
  rw [provHistory_append]; rfl

/-- C85, for names as in C68.  Once the session of a user with a client has been revoked, no cookie from before gets an
answer for the user and the client, whatever happens next. -/
theorem C85_revoked_partial (p : Prov) (U : String → Prop) (hn : Names p U) (now : Int) (ops ops' : List POp)
    (n : Nat) (user c g : String) (hk : (SKey.gra user c g).Good U)
    (hf : ∀ op ∈ ops ++ .revokeClientSession (p.E.encSid n [user, c, g]) :: ops', FairP p U op)
    (req : AuthzReq) (hint : List String) (is : List Nat) (ru : Option (Option String)) (sid : String) (k : Option SessionCookie) (w' : World)
    (hreq : req.clientId = some c) (his : ∀ i ∈ is, i < (provHistory p now ops).cookies.length) :
    processAuthz p.L p.E (provHistory p now (ops ++ .revokeClientSession (p.E.encSid n [user, c, g]) :: ops')).w req hint
      (pickCookies (provHistory p now (ops ++ .revokeClientSession (p.E.encSid n [user, c, g]) :: ops')) is) ru ≠
      (.ok (.part2 sid user k), w') := by
  intro h
  have hQ := passing_vetted p (names_ne hn)
  obtain ⟨h1, wops, hw1, hw2⟩ := endInv_history hn hQ now ops (fun op ho => hf op (List.mem_append_left _ ho))
  obtain ⟨i, hi, ck, n', c', g', hck, hrc, hgood, hsid, hlive⟩ :=
    C85_live_all_along_partial p U hn now _ hf req hint is ru sid user k w' h
  rw [hreq] at hrc
  cases hrc
  obtain ⟨-, gr0, v0, v0'⟩ := hlive ops _ rfl (his i hi)
  obtain ⟨-, gr, v1, v1'⟩ := hlive (ops ++ [.revokeClientSession (p.E.encSid n [user, c, g])]) ops' (by simp) (by
    rw [provHistory_snoc]; exact his i hi)
  rw [provHistory_snoc] at v1
  simp only [provStep] at v1
  have hci : ∃ ci, found (provHistory p now ops).w.st (.cli user c) = some (.info ci) := by
    rw [found_view h1.inv.world.hinv.inv hgood] at v0
    cases hv : view U (provHistory p now ops).w.st (.gra user c g') with
    | none => rw [hv] at v0; cases v0
    | some x =>
      obtain ⟨rc, ci, hc, -⟩ := h1.inv.world.hinv.inv.links.up2 _ _ _ _ hv
      exact ⟨ci, by rw [found_view h1.inv.world.hinv.inv (good_cli_of_gra hgood), hc]; rfl⟩
  obtain ⟨ci, hci⟩ := hci
  rw [hw2] at v0 v1 hci
  rw [(C09_by_session_id_partial p.E U false hn.sids now wops hw1 n user c g hk ci hci).2.1 g' gr0 hgood v0] at v1
  cases v1
  cases v1'

/-- C85, for names as in C68.  Once a session has been removed, its cookies get no answer, whatever happens next. -/
theorem C85_removed_partial (p : Prov) (U : String → Prop) (hn : Names p U) (now : Int) (ops ops' : List POp)
    (n : Nat) (user c g : String)
    (hf : ∀ op ∈ ops ++ .removeSession (p.E.encSid n [user, c, g]) :: ops', FairP p U op)
    (hk : (SKey.gra user c g).Good U) (hc : ¬ U c)
    (req : AuthzReq) (hint : List String) (is : List Nat) (ru : Option (Option String)) (sid u : String) (k : Option SessionCookie) (w' : World)
    (his : ∀ i ∈ is, ∃ ck n', (provHistory p now ops).cookies[i]? = some ck ∧ ck.sid = p.E.encSid n' [user, c, g]) :
    processAuthz p.L p.E (provHistory p now (ops ++ .removeSession (p.E.encSid n [user, c, g]) :: ops')).w req hint
      (pickCookies (provHistory p now (ops ++ .removeSession (p.E.encSid n [user, c, g]) :: ops')) is) ru ≠
      (.ok (.part2 sid u k), w') := by
  intro h
  have hQ := passing_vetted p (names_ne hn)
  obtain ⟨h1, wops, hw1, hw2⟩ := endInv_history hn hQ now ops (fun op ho => hf op (List.mem_append_left _ ho))
  obtain ⟨i, hi, ck, n', c', g', hck, hrc, hgood, hsid, hlive⟩ :=
    C85_live_all_along_partial p U hn now _ hf req hint is ru sid u k w' h
  obtain ⟨ck', n'', e1, e2⟩ := his i hi
  have hlt := (List.getElem?_eq_some_iff.1 e1).1
  obtain ⟨e3, -⟩ := hlive ops _ rfl hlt
  obtain ⟨-, gr, v1, v1'⟩ := hlive (ops ++ [.removeSession (p.E.encSid n [user, c, g])]) ops' (by simp) (by
    rw [provHistory_snoc]; exact hlt)
  rw [e1] at e3
  cases e3
  have hd := p.E.decrypt_enc n'' user c g hk.2.1 hk.2.2.1 hk.2.2.2
  rw [← e2, hsid, p.E.decrypt_enc n' u c' g' hgood.2.1 hgood.2.2.1 hgood.2.2.2] at hd
  cases hd
  rw [provHistory_snoc] at v1
  simp only [provStep] at v1
  rw [hw2] at v1
  rw [(C07_by_session_id_partial p.E U hn.sids now wops hw1 n user c g hk hc).1] at v1
  cases v1

namespace Ex

/-- The session id in the first cookie of the history of C68. -/
def firstSid : String := (((provHistory prov 1000 session).cookies[0]?).getD default).sid

/-- A request with all cookies, some time after the history of C68 and something else. -/
def continued (ops : List POp) : Except Exc ProcRes :=
  let s := provHistory prov 1000 (session ++ ops)
  (processAuthz prov.L prov.E s.w { authzReq "c1" with state := some "v" } [] (pickCookies s [0, 1]) none).1

def answeredFor : Except Exc ProcRes → Option String
  | .ok (.part2 _ u _) => some u
  | _ => none

/-- It gets its answer, but not once the session has been revoked. -/
example : answeredFor (continued []) = some "d" ∧
    continued [.revokeClientSession firstSid, .tick 7] = .ok (.loginPage { acr := "password" }) := by decide +kernel

/-- The hypotheses of `C85_revoked_partial` and `C85_removed_partial` can be met. -/
example : firstSid = prov.E.encSid 0 ["d", "c1", prov.E.uuid 0] ∧ (SKey.gra "d" "c1" (prov.E.uuid 0)).Good isD ∧ ¬ isD "c1" ∧
    (∀ op ∈ session ++ .revokeClientSession (prov.E.encSid 0 ["d", "c1", prov.E.uuid 0]) :: [.tick 7], FairP prov isD op) ∧
    (∀ op ∈ session ++ .removeSession (prov.E.encSid 0 ["d", "c1", prov.E.uuid 0]) :: [.tick 7], FairP prov isD op) ∧
    (provHistory prov 1000 session).cookies.length = 2 := by
  have hg : (SKey.gra "d" "c1" (prov.E.uuid 0)).Good isD :=
    ⟨rfl, ⟨by decide, by decide⟩, ⟨by decide, by decide⟩, prov.E.uuid_clean 0⟩
  have hc : ¬ isD "c1" := by unfold isD; decide
  refine ⟨by decide +kernel, hg, hc, ?_, ?_, by decide +kernel⟩
  · intro op hop
    rcases List.mem_append.1 hop with h | h
    · exact fair_session op h
    · simp only [List.mem_cons, List.not_mem_nil, or_false] at h
      rcases h with rfl | rfl
      · exact ⟨0, _, _, _, hg, rfl⟩
      · trivial
  · intro op hop
    rcases List.mem_append.1 hop with h | h
    · exact fair_session op h
    · simp only [List.mem_cons, List.not_mem_nil, or_false] at h
      rcases h with rfl | rfl
      · exact ⟨0, _, _, _, hg, hc, rfl⟩
      · trivial

/-- C85 is false of the code in one more respect: the cookie of a session that has been removed is not as good as no cookie.
Only `Revoked` is caught, which nothing raises, and the request fails with an exception instead of leading to a login page. -/
theorem C85_removed_login_refuted :
    ¬ (∀ (p : Prov) (U : String → Prop), Names p U → ∀ (now : Int) (ops : List POp), (∀ op ∈ ops, FairP p U op) →
      ∀ (req : AuthzReq) (hint : List String) (is : List Nat) (ru : Option (Option String)),
      (∀ k ∈ pickCookies (provHistory p now ops) is, ∀ s, sessionOf p.E (provHistory p now ops).w.st k.sid ≠ .ok s) →
      (processAuthz p.L p.E (provHistory p now ops).w req hint (pickCookies (provHistory p now ops) is) ru).1 =
        (processAuthz p.L p.E (provHistory p now ops).w req hint [] ru).1) := by
  intro h
  have hg : (SKey.gra "d" "c1" (prov.E.uuid 0)).Good isD :=
    ⟨rfl, ⟨by decide, by decide⟩, ⟨by decide, by decide⟩, prov.E.uuid_clean 0⟩
  have hc : ¬ isD "c1" := by unfold isD; decide
  have hf : ∀ op ∈ session ++ [.removeSession (prov.E.encSid 0 ["d", "c1", prov.E.uuid 0])], FairP prov isD op := by
    intro op hop
    rcases List.mem_append.1 hop with h | h
    · exact fair_session op h
    · simp only [List.mem_cons, List.not_mem_nil, or_false] at h
      subst h
      exact ⟨0, _, _, _, hg, hc, rfl⟩
  have := h prov isD names_prov 1000 (session ++ [.removeSession (prov.E.encSid 0 ["d", "c1", prov.E.uuid 0])]) hf
    (authzReq "c1") [] [0] none (by
      intro k hk s hs
      have hk' : pickCookies (provHistory prov 1000 (session ++ [.removeSession (prov.E.encSid 0 ["d", "c1", prov.E.uuid 0])])) [0] =
          [{ sid := prov.E.encSid 0 ["d", "c1", prov.E.uuid 0], timestamp := 1000 }] := by decide +kernel
      rw [hk', List.mem_singleton] at hk
      subst hk
      have he : sessionOf prov.E (provHistory prov 1000 (session ++ [.removeSession (prov.E.encSid 0 ["d", "c1", prov.E.uuid 0])])).w.st
          (prov.E.encSid 0 ["d", "c1", prov.E.uuid 0]) = .error .valueError := by decide +kernel
      rw [he] at hs
      cases hs)
  revert this
  decide +kernel

/-- C85 is false of the code for the names of C80: a user with such a name has one cookie of their own, and one of a session
of the user admin.  After all sessions of admin with the client have been revoked the first cookie gets an answer for admin. -/
theorem C85_name_refuted :
    ¬ (∀ (p : Prov) (now : Int) (ops : List POp) (n : Nat) (user c g : String) (req : AuthzReq) (is : List Nat) (sid : String)
      (k : Option SessionCookie), (found (provHistory p now ops).w.st (.gra user c g)).isSome → req.clientId = some c →
      (∀ i ∈ is, i < (provHistory p now ops).cookies.length) →
      (processAuthz p.L p.E (provHistory p now (ops ++ [.revokeClientSession (p.E.encSid n [user, c, g])])).w req []
        (pickCookies (provHistory p now (ops ++ [.revokeClientSession (p.E.encSid n [user, c, g])])) is) none).1 ≠
        .ok (.part2 sid user k)) := by
  intro h
  have h1 := h trickProv 1000 trickOps 2 "admin" "c1" (trickProv.E.uuid 2) { authzReq "c1" with state := some "v" } [0]
    (trickProv.E.encSid 4 ["admin", "c1", trickProv.E.uuid 4])
    (some { sid := trickProv.E.encSid 4 ["admin", "c1", trickProv.E.uuid 4], timestamp := 4000 })
    (by decide +kernel) rfl (by decide +kernel)
  revert h1
  decide +kernel

end Ex

end OidcOp
