/-
Property theorems about what the session manager tells of a session: C118.

`history ops` is the session database after a history of operations (Spec/Session.lean), `found` what `get` delivers for a
user, a client session or a grant, `dec` the decryption of session ids.
-/
import Verif.Props.Session
import Verif.Spec.Queries
import Verif.Lemmas.Queries

namespace OidcOp
open Spec

/-- C118, one session.  After any history, asked for a session that exists, the session manager tells who it is for and what
was asked for, as it is stored - unless the grant and the authentication event are asked for together. -/
theorem C118_session_told_partial (U : String → Prop) (ops : List SOp) (hfair : ∀ op ∈ ops, FairOp U op)
    (hrem : ∀ u c g, SOp.removeSession u c g ∈ ops → ¬ addedWith ops g)
    (dec : String → Except Exc (List String)) (sid u c g : String) (hsid : dec sid = .ok [u, c, g])
    (hk : (SKey.gra u c g).Good U) (gr : Grant) (hg : found (history ops) (.gra u c g) = some (.grant gr))
    (a : Ask) (ha : ¬ (a.grant = true ∧ a.event = true)) :
    ∃ t, getSessionInfo dec sid a (history ops) = .ok t ∧ TellsStored (history ops) sid u c g a gr t ∧
      (a.user = true → ∃ i, t.user = some (.info i) ∧ c ∈ i.subordinate) ∧
      (a.client = true → ∃ i, t.client = some (.info i) ∧ g ∈ i.subordinate) := by
  obtain ⟨ui, ci, hu, hmc, hc, hmg⟩ := records_above (hinv_history ops hfair hrem).inv hk hg
  have r1 : recordAt ⟨u, none, none⟩ (history ops) = .ok (.info ui) := recordAt_ok hu
  have r2 : recordAt ⟨u, some c, none⟩ (history ops) = .ok (.info ci) := recordAt_ok hc
  have r3 : recordAt ⟨u, some c, some g⟩ (history ops) = .ok (.grant gr) := recordAt_ok hg
  have hr : askRequest ⟨u, some c, some g⟩ (history ops) = .ok gr.authzReq := by simp [askRequest, r3, Obj.request]
  have he : whenAsked a.event (askEvent a.grant ⟨u, some c, some g⟩ (history ops)) =
      .ok (if a.event then some gr.authnEvent else none) := by
    cases hae : a.event with
    | false => rfl
    | true =>
      cases hag : a.grant with
      | true => exact absurd ⟨hag, hae⟩ ha
      | false => exact whenAsked_ok true (by simp [askEvent, r3, Obj.event])
  refine ⟨{ sessionId := sid, userId := u, clientId := c, grantId := g,
            user := if a.user then some (.info ui) else none, client := if a.client then some (.info ci) else none,
            grant := if a.grant then some (.grant gr) else none,
            event := if a.event then some gr.authnEvent else none,
            request := if a.request then some gr.authzReq else none }, ?_, ?_, ?_, ?_⟩
  · unfold getSessionInfo
    rw [threeParts_ok hsid]
    simp only [ok_bind, whenAsked_ok _ r1, whenAsked_ok _ r2, whenAsked_ok _ r3, he, whenAsked_ok _ hr]
  · simp [TellsStored, hu, hc]
  · intro h; exact ⟨ui, by simp [h], hmc⟩
  · intro h; exact ⟨ci, by simp [h], hmg⟩

/-- C118, the short forms: the grant, its authentication event and its authorization request, and whether the client session is
revoked. -/
theorem C118_parts_told_partial (U : String → Prop) (ops : List SOp) (hfair : ∀ op ∈ ops, FairOp U op)
    (hrem : ∀ u c g, SOp.removeSession u c g ∈ ops → ¬ addedWith ops g)
    (dec : String → Except Exc (List String)) (sid u c g : String) (hsid : dec sid = .ok [u, c, g])
    (hk : (SKey.gra u c g).Good U) (gr : Grant) (hg : found (history ops) (.gra u c g) = some (.grant gr)) :
    getGrant dec sid (history ops) = .ok gr ∧
    getAuthenticationEvent dec sid (history ops) = .ok gr.authnEvent ∧
    getAuthorizationRequest dec sid (history ops) = .ok gr.authzReq ∧
    (∃ i, found (history ops) (.cli u c) = some (.info i) ∧
      clientSessionIsRevoked dec sid (history ops) = .ok i.revoked) := by
  obtain ⟨ui, ci, hu, hmc, hc, hmg⟩ := records_above (hinv_history ops hfair hrem).inv hk hg
  have r2 : recordAt ⟨u, some c, none⟩ (history ops) = .ok (.info ci) := recordAt_ok hc
  have r3 : recordAt ⟨u, some c, some g⟩ (history ops) = .ok (.grant gr) := recordAt_ok hg
  obtain ⟨t, ht, hs, _⟩ := C118_session_told_partial U ops hfair hrem dec sid u c g hsid hk gr hg { event := true } (by simp)
  obtain ⟨t', ht', hs', _⟩ := C118_session_told_partial U ops hfair hrem dec sid u c g hsid hk gr hg { request := true } (by simp)
  refine ⟨?_, ?_, ?_, ci, hc, ?_⟩
  · unfold getGrant; rw [threeParts_ok hsid, ok_bind]; simp only [r3]
  · unfold getAuthenticationEvent
    have : t.event = some gr.authnEvent := by simpa using hs.2.2.2.2.2.2.2.1
    rw [ht, ok_bind]; simp only [this]
  · unfold getAuthorizationRequest
    have : t'.request = some gr.authzReq := by simpa using hs'.2.2.2.2.2.2.2.2
    rw [ht', ok_bind]; simp only [this]
  · unfold clientSessionIsRevoked; rw [threeParts_ok hsid, ok_bind]; simp only [r2]

/-- C118 fails when the grant and the authentication event are asked for together: that never gets an answer, whatever the
session. -/
theorem C118_session_told_refuted (dec : String → Except Exc (List String)) (sid : String) (a : Ask) (s : Store)
    (h1 : a.grant = true) (h2 : a.event = true) : ∃ e, getSessionInfo dec sid a s = .error e := by
  unfold getSessionInfo
  cases threeParts dec sid with
  | error e => exact ⟨e, rfl⟩
  | ok p =>
    rw [ok_bind]
    cases whenAsked a.user (recordAt ⟨p.1, none, none⟩ s) with
    | error e => exact ⟨e, rfl⟩
    | ok ui =>
      rw [ok_bind]
      cases whenAsked a.client (recordAt ⟨p.1, some p.2.1, none⟩ s) with
      | error e => exact ⟨e, rfl⟩
      | ok ci =>
        rw [ok_bind]
        cases whenAsked a.grant (recordAt ⟨p.1, some p.2.1, some p.2.2⟩ s) with
        | error e => exact ⟨e, rfl⟩
        | ok gr => rw [ok_bind, h1, h2]; exact ⟨.typeError, rfl⟩

/-- C118, a session that does not exist.  Whatever the database holds, nothing of a grant that `get` does not find is told:
asking for the grant, its event, its request, or one of its tokens is refused. -/
theorem C118_unknown_session_refused (s : Store) (dec : String → Except Exc (List String)) (sid u c g : String)
    (hsid : dec sid = .ok [u, c, g]) (hg : found s (.gra u c g) = none) :
    (∀ a : Ask, a.grant = true ∨ a.event = true ∨ a.request = true → ∃ e, getSessionInfo dec sid a s = .error e) ∧
    (∃ e, getGrant dec sid s = .error e) ∧ (∃ e, getAuthenticationEvent dec sid s = .error e) ∧
    (∃ e, getAuthorizationRequest dec sid s = .error e) ∧ (∀ v, ∃ e, findToken dec sid v s = .error e) := by
  obtain ⟨e3, r3⟩ : ∃ e, recordAt ⟨u, some c, some g⟩ s = .error e := recordAt_error hg
  have key : ∀ a : Ask, a.grant = true ∨ a.event = true ∨ a.request = true → ∃ e, getSessionInfo dec sid a s = .error e := by
    intro a ha
    unfold getSessionInfo
    rw [threeParts_ok hsid, ok_bind]
    show ∃ e, (whenAsked a.user (recordAt ⟨u, none, none⟩ s) >>= _) = Except.error e
    cases whenAsked a.user (recordAt ⟨u, none, none⟩ s) with
    | error e => exact ⟨e, rfl⟩
    | ok ui =>
      rw [ok_bind]
      show ∃ e, (whenAsked a.client (recordAt ⟨u, some c, none⟩ s) >>= _) = Except.error e
      cases whenAsked a.client (recordAt ⟨u, some c, none⟩ s) with
      | error e => exact ⟨e, rfl⟩
      | ok ci =>
        rw [ok_bind]
        show ∃ e, (whenAsked a.grant (recordAt ⟨u, some c, some g⟩ s) >>= _) = Except.error e
        rw [r3]
        cases hag : a.grant with
        | true => exact ⟨e3, rfl⟩
        | false =>
          rw [show whenAsked false (Except.error e3 : Except Exc Obj) = .ok none from rfl, ok_bind]
          show ∃ e, (whenAsked a.event (askEvent false ⟨u, some c, some g⟩ s) >>= _) = Except.error e
          rw [show askEvent false ⟨u, some c, some g⟩ s = .error e3 by simp [askEvent, r3]]
          cases hae : a.event with
          | true => exact ⟨e3, rfl⟩
          | false =>
            rw [show whenAsked false (Except.error e3 : Except Exc (Option AuthnEvent)) = .ok none from rfl, ok_bind]
            show ∃ e, (whenAsked a.request (askRequest ⟨u, some c, some g⟩ s) >>= _) = Except.error e
            rw [show askRequest ⟨u, some c, some g⟩ s = .error e3 by simp [askRequest, r3]]
            have : a.request = true := by simpa [hag, hae] using ha
            rw [this]; exact ⟨e3, rfl⟩
  refine ⟨key, ?_, ?_, ?_, ?_⟩
  · unfold getGrant; rw [threeParts_ok hsid, ok_bind]; simp only [r3]; exact ⟨_, rfl⟩
  · obtain ⟨e, h⟩ := key { event := true } (by simp)
    unfold getAuthenticationEvent; rw [h]; exact ⟨e, rfl⟩
  · obtain ⟨e, h⟩ := key { request := true } (by simp)
    unfold getAuthorizationRequest; rw [h]; exact ⟨e, rfl⟩
  · intro v; unfold findToken; rw [threeParts_ok hsid, ok_bind]; simp only [r3]; exact ⟨_, rfl⟩

/-- C118, what a login stored is what is told.  After any history, the session that is created last is told with the event and
the request it was created with. -/
theorem C118_created_told_partial (U : String → Prop) (ops : List SOp) (u c : String) (g : Grant)
    (hfair : ∀ op ∈ ops, FairOp U op)
    (hrem : ∀ u c g, SOp.removeSession u c g ∈ ops → ¬ addedWith ops g)
    (hk : (SKey.gra u c g.id).Good U)
    (dec : String → Except Exc (List String)) (sid : String) (hsid : dec sid = .ok [u, c, g.id]) :
    getAuthenticationEvent dec sid (history (ops ++ [.createSession u c g])) = .ok g.authnEvent ∧
    getAuthorizationRequest dec sid (history (ops ++ [.createSession u c g])) = .ok g.authzReq := by
  have hops : ∀ op ∈ ops ++ [.createSession u c g], FairOp U op := by
    intro op hop
    rcases List.mem_append.1 hop with h | h
    · exact hfair op h
    · simp only [List.mem_singleton] at h; subst h; exact hk
  have hrem' : ∀ u' c' g', SOp.removeSession u' c' g' ∈ ops ++ [.createSession u c g] →
      ¬ addedWith (ops ++ [.createSession u c g]) g' := by
    intro u' c' g' h
    have h' : SOp.removeSession u' c' g' ∈ ops := by simpa using h
    rintro ⟨u2, c2, g2, hm, he⟩
    exact hrem _ _ _ h' ⟨u2, c2, g2, by simpa using hm, he⟩
  have hi := (hinv_history ops hfair hrem).inv
  obtain ⟨s', r, he, hi', _, _, hv, _⟩ := createSession_spec hi hk
  have hh : history (ops ++ [.createSession u c g]) = s' := by
    unfold history; rw [List.foldl_append]
    show (createSession u c g (history ops)).2 = s'
    rw [he]
  have hf : found (history (ops ++ [.createSession u c g])) (.gra u c g.id) = some (.grant g) := by
    rw [hh, found_view hi' hk, hv]; rfl
  have := C118_parts_told_partial U _ hops hrem' dec sid u c g.id hsid hk g hf
  exact ⟨this.2.1, this.2.2.1⟩

/-- C118, all logins of a user at a client.  After any history, the authentication events of a user and a client that have
sessions are those of their grants, in the order in which the client session lists them: none is missing and none belongs to
another user or client.  It is the same whether they are asked for with a session id or by name. -/
theorem C118_events_told_partial (U : String → Prop) (ops : List SOp) (hfair : ∀ op ∈ ops, FairOp U op)
    (hrem : ∀ u c g, SOp.removeSession u c g ∈ ops → ¬ addedWith ops g)
    (dec : String → Except Exc (List String)) (u c : String) (hk : (SKey.cli u c).Good U) (ci : SInfo)
    (hc : found (history ops) (.cli u c) = some (.info ci)) :
    getAuthenticationEvents dec "" u c (history ops) = .ok (ci.subordinate.map (loginOf (history ops) u c)) ∧
    (∀ sid g u' c', sid ≠ "" → dec sid = .ok [u, c, g] →
      getAuthenticationEvents dec sid u' c' (history ops) = .ok (ci.subordinate.map (loginOf (history ops) u c))) ∧
    (∀ g, (SKey.gra u c g).Good U →
      ((∃ gr, found (history ops) (.gra u c g) = some (.grant gr)) ↔ g ∈ ci.subordinate)) := by
  have hi := (hinv_history ops hfair hrem).inv
  have hres : ∀ g ∈ ci.subordinate, ∃ gr, found (history ops) (.gra u c g) = some (.grant gr) := by
    intro g hg
    rw [found_view hi hk] at hc
    cases hv : view U (history ops) (.cli u c) with
    | none => rw [hv] at hc; cases hc
    | some p =>
      obtain ⟨r, o⟩ := p
      rw [hv] at hc; cases hc
      obtain ⟨x, hx⟩ := hi.links.down2 _ _ _ _ _ hv hg
      obtain ⟨j, hj⟩ := hi.links.typedG _ _ _ x.1 x.2 hx
      exact ⟨j, by rw [found_view hi (view_some hx).1, hx]; simp [hj]⟩
  have hl := mapM_records ci.subordinate hres
  have r2 : recordAt ⟨u, some c, none⟩ (history ops) = .ok (.info ci) := recordAt_ok hc
  refine ⟨?_, ?_, ?_⟩
  · unfold getAuthenticationEvents
    rw [show eventsOf dec "" u c = .ok (u, c) by simp [eventsOf, hk.2.1.1, hk.2.2.1], ok_bind]
    simp only [r2, ok_bind, subordinateOf]; exact hl
  · intro sid g u' c' hne hd
    unfold getAuthenticationEvents
    rw [show eventsOf dec sid u' c' = .ok (u, c) by simp [eventsOf, hne, threeParts_ok hd, ok_bind], ok_bind]
    simp only [r2, ok_bind, subordinateOf]; exact hl
  · intro g hkg
    refine ⟨?_, hres g⟩
    rintro ⟨gr, hg⟩
    obtain ⟨_, ci', _, _, hc', hmg⟩ := records_above hi hkg hg
    rw [hc] at hc'; cases hc'; exact hmg

/-- C118: each login counts once as long as no grant has been made with `add_grant`. -/
theorem C118_events_once_partial (U : String → Prop) (ops : List SOp) (hfair : ∀ op ∈ ops, FairOp U op)
    (hno : ∀ g, ¬ addedWith ops g) (u c : String) (hk : (SKey.cli u c).Good U) (ci : SInfo)
    (hc : found (history ops) (.cli u c) = some (.info ci)) : ci.subordinate.Nodup := by
  have hh := hinv_history ops hfair (fun _ _ _ _ => hno _)
  rw [found_view hh.inv hk] at hc
  cases hv : view U (history ops) (.cli u c) with
  | none => rw [hv] at hc; cases hc
  | some p =>
    obtain ⟨r, o⟩ := p
    rw [hv] at hc; cases hc
    exact List.nodup_iff_count.2 (fun g => hh.once.cli _ _ _ _ _ hv (hno g))

/-- C118 fails for a grant that was made with `add_grant`: its login is told twice. -/
theorem C118_events_once_refuted :
    let s := history [.createSession "bob" "c1" { id := "g1", authnEvent := some { uid := "bob", authnTime := 1 } },
      .addGrant "bob" "c1" { id := "g2", authnEvent := some { uid := "bob", authnTime := 2 } }]
    getAuthenticationEvents (fun _ => .error .valueError) "" "bob" "c1" s =
      .ok [some { uid := "bob", authnTime := 1 }, some { uid := "bob", authnTime := 2 },
        some { uid := "bob", authnTime := 2 }] := by
  decide +kernel

/-- C118: who has no session at the client has no events, and neither has nobody. -/
theorem C118_events_unknown_refused (s : Store) (dec : String → Except Exc (List String)) (u c : String) :
    (found s (.cli u c) = none → ∃ e, getAuthenticationEvents dec "" u c s = .error e) ∧
    ((u = "" ∨ c = "") → getAuthenticationEvents dec "" u c s = .error .attributeError) := by
  constructor
  · intro h
    unfold getAuthenticationEvents eventsOf
    by_cases hx : u ≠ "" ∧ c ≠ ""
    · simp only [ne_eq, not_true_eq_false, if_false, if_pos hx, ok_bind]
      obtain ⟨e, he⟩ : ∃ e, recordAt ⟨u, some c, none⟩ s = .error e := recordAt_error h
      rw [he]; exact ⟨e, rfl⟩
    · simp only [ne_eq, not_true_eq_false, if_false, if_neg hx]; exact ⟨_, rfl⟩
  · intro h
    unfold getAuthenticationEvents eventsOf
    have hx : ¬ (u ≠ "" ∧ c ≠ "") := by
      rintro ⟨h1, h2⟩; rcases h with h | h
      · exact h1 h
      · exact h2 h
    simp only [ne_eq, not_true_eq_false, if_false, if_neg hx]; rfl

/-- C118, tokens: a token is found in a session if and only if it was issued there. -/
theorem C118_token_found (s : Store) (dec : String → Except Exc (List String)) (sid u c g v : String)
    (hsid : dec sid = .ok [u, c, g]) (gr : Grant) (hg : found s (.gra u c g) = some (.grant gr)) :
    (∀ t, findToken dec sid v s = .ok (some t) → t ∈ gr.issuedToken ∧ t.value = v) ∧
    (findToken dec sid v s = .ok none ↔ ∀ t ∈ gr.issuedToken, t.value ≠ v) ∧
    ((∃ t ∈ gr.issuedToken, t.value = v) → ∃ t, findToken dec sid v s = .ok (some t)) := by
  have r3 : recordAt ⟨u, some c, some g⟩ s = .ok (.grant gr) := recordAt_ok hg
  have he : findToken dec sid v s = .ok (gr.issuedToken.find? (fun t => decide (t.value = v))) := by
    unfold findToken; rw [threeParts_ok hsid, ok_bind]; simp only [r3]
  rw [he]
  refine ⟨?_, ?_, ?_⟩
  · intro t h
    simp only [Except.ok.injEq] at h
    exact ⟨List.mem_of_find?_eq_some h, by simpa using List.find?_some h⟩
  · simp only [Except.ok.injEq, List.find?_eq_none, decide_eq_true_eq, ne_eq]
  · rintro ⟨t, hm, hv⟩
    cases hq : gr.issuedToken.find? (fun t => decide (t.value = v)) with
    | some t' => exact ⟨t', rfl⟩
    | none =>
      have := List.find?_eq_none.1 hq t hm
      simp [hv] at this

/-- C118, changing a record: after any history, setting attributes of a grant (any of them) or of session information (other
than the list of what belongs to it) is what is read afterwards, and nothing else that can be read changes. -/
theorem C118_update_told_partial (U : String → Prop) (ops : List SOp) (hfair : ∀ op ∈ ops, FairOp U op)
    (hrem : ∀ u c g, SOp.removeSession u c g ∈ ops → ¬ addedWith ops g)
    (k : SKey) (hk : k.Good U) (o : Obj) (ho : found (history ops) k = some o) (f : Obj → Obj)
    (hkeep : match o, f o with
      | .grant _, .grant _ => True
      | .info i, .info i' => i'.subordinate = i.subordinate
      | _, _ => False) :
    ∃ s', dbUpdate k.path f (history ops) = (.ok (), s') ∧ found s' k = some (f o) ∧
      ∀ k' : SKey, k'.Good U → k' ≠ k → found s' k' = found (history ops) k' := by
  have hi := (hinv_history ops hfair hrem).inv
  rw [found_view hi hk] at ho
  cases hv : view U (history ops) k with
  | none => rw [hv] at ho; cases ho
  | some p =>
    obtain ⟨r, o'⟩ := p
    rw [hv] at ho
    simp only [Option.map_some, Option.some.injEq] at ho
    subst ho
    have hget : dbGet k.path (history ops) = .ok r := (dbGet_iff hi hk r).2 ⟨_, hv⟩
    have hm := mutate_eq (view_some_obj hv) f
    -- storing the changed record again changes nothing that can be read
    have key : ∃ s', dbSet k.path r ((history ops).put r (f o')) = (.ok (), s') ∧ DbInv U s' ∧
        view U s' = upd (view U (history ops)) k (some (r, f o')) := by
      cases k with
      | gra u c g =>
        obtain ⟨gr, rfl⟩ := hi.links.typedG _ _ _ _ _ hv
        cases hfo : f (.grant gr) with
        | info i => rw [hfo] at hkeep; exact hkeep.elim
        | grant gr' =>
          have hp := inv_put_grant hi hv gr'
          obtain ⟨s', he, hi', hv', _⟩ := dbSet_grant_same hp.1 (u := u) (c := c) (g := g) (r := r) (gr := gr') (by rw [hp.2]; simp)
          exact ⟨s', he, hi', by rw [hv', hp.2]⟩
      | cli u c =>
        obtain ⟨i, rfl⟩ := hi.links.typedC _ _ _ _ hv
        cases hfo : f (.info i) with
        | grant gr => rw [hfo] at hkeep; exact hkeep.elim
        | info i' =>
          rw [hfo] at hkeep
          have hp := inv_put_info hi hv i' (fun x => by rw [hkeep])
          obtain ⟨s', he, hi', hv', _⟩ := dbSet_cli_same hp.1 (u := u) (c := c) (r := r) (ci := i') (by rw [hp.2]; simp)
          exact ⟨s', he, hi', by rw [hv', hp.2]⟩
      | usr u =>
        obtain ⟨i, rfl⟩ := hi.links.typedU _ _ _ hv
        cases hfo : f (.info i) with
        | grant gr => rw [hfo] at hkeep; exact hkeep.elim
        | info i' =>
          rw [hfo] at hkeep
          have hp := inv_put_info hi hv i' (fun x => by rw [hkeep])
          have hvp : view U ((history ops).put r (.info i')) (.usr u) = some (r, .info i') := by rw [hp.2]; simp
          have hr := view_some_obj hvp
          have hb : view U (((history ops).put r (.info i')).bind u r) = view U ((history ops).put r (.info i')) := by
            have := view_bind ((history ops).put r (.info i')) (k := .usr u) hk hr
            rw [upd_same _ _ _ hvp] at this; exact this
          refine ⟨_, dbSet_usr u r _, ⟨hp.1.wf.bind (k := .usr u) hk hr (fun k o h => hp.1.wf.noalias _ _ _ _ _ h hvp), ?_⟩, ?_⟩
          · exact hb ▸ hp.1.links
          · exact hb.trans hp.2
    obtain ⟨s', he, hi', hv'⟩ := key
    refine ⟨s', ?_, ?_, ?_⟩
    · unfold dbUpdate; rw [hget]; simp only []; rw [hm]; exact he
    · rw [found_view hi' hk, hv']; simp
    · intro k' hk' hne
      rw [found_view hi' hk', found_view hi hk', hv', upd_ne _ _ hne]

/-! ### A provider with three sessions -/

/-- Alice has logged in twice at `c1`, bob once; alice's first session has been used since. -/
def exAsked : List SOp :=
  [ .createSession "alice" "c1" { id := "g1", authnEvent := some { uid := "alice", authnTime := 1 }, authzReq := some { state := some "s1" } },
    .createSession "bob" "c1" { id := "g2", authnEvent := some { uid := "bob", authnTime := 2 } },
    .createSession "alice" "c1" { id := "g3", authnEvent := some { uid := "alice", authnTime := 3 } },
    .alias "alice" "c1" "g1" "Z0FBQUFBQmh=",
    .store "alice" "c1" "g1" ]

/-- The session ids of the example. -/
def exDec (sid : String) : Except Exc (List String) :=
  if sid = "sid1" then .ok ["alice", "c1", "g1"]
  else if sid = "sid9" then .ok ["alice", "c1", "g9"]
  else .error .valueError

theorem exAsked_fair : ∀ op ∈ exAsked, FairOp exUser op := by
  simp [exAsked, FairOp, SKey.Good, CleanId, exUser]
  decide

theorem exAsked_added : ∀ g, ¬ addedWith exAsked g := by
  simp [exAsked, addedWith]

/-- The premises hold of alice's first session. -/
example : ∃ gr, found (history exAsked) (.gra "alice" "c1" "g1") = some (.grant gr) ∧ (SKey.gra "alice" "c1" "g1").Good exUser ∧
    exDec "sid1" = .ok ["alice", "c1", "g1"] ∧
    getAuthenticationEvent exDec "sid1" (history exAsked) = .ok (some { uid := "alice", authnTime := 1 }) := by
  refine ⟨_, rfl, ?_, by decide, by decide +kernel⟩
  simp [SKey.Good, CleanId, exUser]; decide

/-- The events of alice at `c1` are alice's two, not bob's, and asking for a session that is not there is refused. -/
example : getAuthenticationEvents exDec "sid1" "" "" (history exAsked) =
      .ok [some { uid := "alice", authnTime := 1 }, some { uid := "alice", authnTime := 3 }] ∧
    getAuthenticationEvents exDec "" "bob" "c1" (history exAsked) = .ok [some { uid := "bob", authnTime := 2 }] ∧
    getSessionInfo exDec "sid9" { event := true } (history exAsked) = .error .valueError ∧
    getSessionInfo exDec "sid1" { grant := true, event := true } (history exAsked) = .error .typeError := by
  refine ⟨?_, ?_, ?_, ?_⟩ <;> decide +kernel

/-- Without anything of the grant being asked for, the answer says nothing about whether there is such a session. -/
example : (getSessionInfo exDec "sid9" {} (history exAsked)).isOk = true := by decide +kernel

/-- Changing a grant's time of expiry. -/
example : ∃ s', dbUpdate ⟨"alice", some "c1", some "g1"⟩
      (fun o => match o with | .grant g => .grant { g with expiresAt := 9 } | o => o) (history exAsked) = (.ok (), s') ∧
    (match found s' (.gra "alice" "c1" "g1") with | some (.grant g) => g.expiresAt | _ => 0) = 9 :=
  ⟨_, rfl, by decide +kernel⟩

end OidcOp
