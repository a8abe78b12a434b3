/-
C119: sessions are isolated from each other, and so are clients.
-/
import Verif.Lemmas.ClientIsolation
import Verif.Props.Isolation

namespace OidcOp
open Spec

/-- C119.  After any fair history, whatever operation comes next: every record that the operation is not about - users, client
sessions, grants with all their tokens - is found exactly as it was before, also those of the same user and the same client. -/
theorem C119_session_isolation (E : Env) (U : String → Prop) (adds : Bool)
    (hU : ∀ n u c g, (SKey.gra u c g).Good U → ¬ U (E.encSid n [u, c, g]))
    (now : Int) (ops : List WOp) (hops : ∀ op ∈ ops, FairW E U adds op) (op : WOp) (hop : FairW E U adds op)
    (k : SKey) (hk : k.Good U) (hnot : ¬ Concerns E (run E { now := now } ops) op k) :
    found (step E (run E { now := now } ops) op).st k = found (run E { now := now } ops).st k := by
  obtain ⟨hw, hi⟩ := fair_run hU ops hops (fair_init (E := E) (U := U) (adds := adds) now).1 (fair_init (E := E) (U := U) (adds := adds) now).2
  have href := step_refinesK hw hi hU hop
  rw [found_view (href.hinv hi).inv hk, found_view hi.inv hk, href.other hi hnot]

/-- A record of a client that an operation concerns makes it an operation about this client. -/
theorem concerns_client {E : Env} {w : World} {op : WOp} {k : SKey} {c : String} (hc : keyClient k = some c)
    (h : Concerns E w op k) : AboutClient E w c op := by
  have three : ∀ {u c' g : String}, k = .usr u ∨ k = .cli u c' ∨ k = .gra u c' g → c' = c := by
    intro u c' g h
    rcases h with rfl | rfl | rfl
    · cases hc
    · exact Option.some.inj hc
    · exact Option.some.inj hc
  cases op with
  | tick d => exact h.elim
  | login u c' req ev => exact three h
  | again u c' req ev => exact three h
  | addGrant u c' g => exact three h
  | authorize sid req =>
    obtain ⟨u, c', g, hd, rfl⟩ := h
    cases hc; exact ⟨u, [g], hd⟩
  | parse client req =>
    obtain ⟨v, s, hv, hs, rfl⟩ := h
    cases hc; exact ⟨v, s, hv, hs, rfl⟩
  | process i kw =>
    obtain ⟨req, hp, v, s, hv, hs, rfl⟩ := h
    cases hc; exact ⟨req, v, s, hp, hv, hs, rfl⟩
  | revokeToken sid v rec =>
    obtain ⟨u, c', g, hd, rfl⟩ := h
    cases hc; exact ⟨u, [g], hd⟩
  | revokeGrant sid =>
    obtain ⟨u, c', g, hd, rfl⟩ := h
    cases hc; exact ⟨u, [g], hd⟩
  | revokeClientSession sid =>
    obtain ⟨u, c', rest, hd, h⟩ := h
    have : c' = c := by
      rcases h with rfl | ⟨g, rfl⟩
      · exact Option.some.inj hc
      · exact Option.some.inj hc
    subst this; exact ⟨u, rest, hd⟩
  | removeSession sid =>
    obtain ⟨u, c', g, hd, h⟩ := h
    have := three h
    subst this; exact ⟨u, [g], hd⟩

/-- C119, clients.  As long as no operation is about sessions with a client, none of the client's sessions, with whatever user,
changes. -/
theorem C119_client_isolation (E : Env) (U : String → Prop) (adds : Bool)
    (hU : ∀ n u c g, (SKey.gra u c g).Good U → ¬ U (E.encSid n [u, c, g]))
    (now : Int) (ops later : List WOp) (hops : ∀ op ∈ ops ++ later, FairW E U adds op)
    (c : String) (hnot : ∀ pre op post, later = pre ++ op :: post → ¬ AboutClient E (run E { now := now } (ops ++ pre)) c op)
    (k : SKey) (hk : k.Good U) (hc : keyClient k = some c) :
    found (run E { now := now } (ops ++ later)).st k = found (run E { now := now } ops).st k := by
  induction later generalizing ops with
  | nil => simp
  | cons op r ih =>
    have h1 := C119_session_isolation E U adds hU now ops (fun o ho => hops o (by simp [ho])) op (hops op (by simp)) k hk
      (fun h => hnot [] op r rfl (by simpa using concerns_client hc h))
    have h2 := ih (ops ++ [op]) (by simpa using hops) (by
      intro pre op' post he
      have := hnot (op :: pre) op' post (by rw [he]; rfl)
      simpa using this)
    rw [List.append_assoc] at h2
    rw [List.singleton_append] at h2
    rw [h2, ← h1, run_append]
    rfl

theorem commit_same {E : Env} {w : World} {v : String} {s : Sess} (hs : sessionByToken E w v = .ok s) (n : Nat) :
    (w.commit s ⟨s.grant, n⟩).st = w.st := by
  simp only [World.commit, if_true]
  exact put_self (sessionByToken_grantAt hs)

/-- The session that a parsed code leads to changes only if the code is one of it that has been used. -/
theorem codeParse_grant {cfg : TokenCfg} {clock : Int} {req : TokenReq} {code : String} {g : Grant}
    (h : ∀ t, g.getToken code = some t → t.used = 0) : (codeParse cfg clock req code g).2 = g := by
  unfold codeParse
  cases hg : g.getToken code with
  | none => rfl
  | some t =>
    simp only []
    have hu := h t hg
    split
    · rfl
    · rw [if_neg (by simp [hu])]
      split
      · rfl
      · repeat' split
        all_goals rfl

theorem codeProcess_foreign {cfg : TokenCfg} {mk : Minter} {clock : Int} {kw : Option Bool} {sc c code : String} {req : TokenReq}
    {gs : GS} (hc : req.clientId = some c) (hne : sc ≠ c) :
    codeProcess cfg mk clock kw sc req code gs = (.ok (.err "invalid_grant"), gs) := by
  have : codeMint cfg mk clock kw sc req code gs = (.ok (.err "invalid_grant"), gs) := by
    unfold codeMint
    rw [hc]
    simp only [ne_eq, hne, not_false_eq_true, if_true]; rfl
  unfold codeProcess
  simp only [SE.bind_apply, this]; rfl

theorem refreshProcess_foreign {cfg : TokenCfg} {mk : Minter} {clock : Int} {kw : Option Bool} {sc c v : String} {req : TokenReq}
    {gs : GS} (hc : req.clientId = some c) (hne : sc ≠ c) :
    refreshProcess cfg mk clock kw sc req v gs = (.ok (.err "invalid_grant"), gs) := by
  unfold refreshProcess
  rw [hc]
  simp only [ne_eq, hne, not_false_eq_true, if_true]; rfl

/-- C119, requests that are received.  Whatever the state, receiving a token request changes no session at all, whatever codes and
refresh tokens it presents, unless it presents a code that has been used. -/
theorem C119_received_changes_nothing_partial (E : Env) (w : World) (c : String) (req : TokenReq)
    (hun : ∀ v s t, req.code = some v → sessionByToken E w v = .ok s → s.grant.getToken v = some t → t.used = 0) :
    (step E w (.parse c req)).st = w.st := by
  have h1 : (step E w (.parse c req)).st = (tokenParse E w c { req with clientId := some c }).2.st := by
    show (match tokenParse E w c { req with clientId := some c } with
      | (.ok (.req r), w') => { w' with pool := w'.pool ++ [r] }
      | (_, w') => w').st = _
    split
    · rename_i r w' hp; rw [hp]
    · rename_i r w' _ hp; rw [hp]
  rw [h1]
  unfold tokenParse
  split
  · rfl
  · split
    · rfl
    · split
      · rfl
      · split
        · unfold codeParseW
          split
          · rfl
          · rename_i code hcode
            split
            · split <;> rfl
            · rename_i s hs
              have hg : (codeParse E.cfg w.now { req with clientId := some c } code s.grant).2 = s.grant :=
                codeParse_grant (fun t ht => hun code s t hcode hs ht)
              cases hp : codeParse E.cfg w.now { req with clientId := some c } code s.grant with
              | mk res g' =>
                rw [hp] at hg
                simp only [] at hg
                subst hg
                exact commit_same hs _
        · split <;> rfl

/-- What is processed for a client concerns only grants of this client. -/
theorem tokenHelper_own {E : Env} {U A : String → Prop} {w : World} (hw : WInv E (SidFor E U) w) (hi : HInv U A w.st)
    (hU : ∀ n u c g, (SKey.gra u c g).Good U → ¬ U (E.encSid n [u, c, g])) (kw : Option Bool) {req : TokenReq}
    (hp : req ∈ w.pool) {c : String} (hc : req.clientId = some c) :
    RefinesK U A (fun k => keyClient k = some c) w.st (tokenHelper E w kw req).2.st := by
  have hok := hw.pool req hp
  unfold tokenHelper
  split
  · exact .refl _ _ _ _
  · rename_i gt hgt
    split
    · rename_i hc'
      subst hc'
      split
      · exact .refl _ _ _ _
      · rename_i code hcode
        obtain ⟨r, g, i, t, h1, h2, h3, h4⟩ := hok.code code hgt hcode
        have hplus : spaceToPlus code = code := by
          obtain ⟨k, sid, _, hk, _⟩ := hw.core.prov r g i t h1 h2
          rw [← h3]; exact hk.plus
        simp only [hplus]
        split
        · exact .refl _ _ _ _
        · rename_i s hs
          obtain ⟨sid, h5, h6⟩ := issued_sidFor hw hs h1 h2 h3
          by_cases hsc : s.client = c
          · split <;> exact commit_refinesK (P := fun k => keyClient k = some c) hi hU h5 h6 _ (congrArg some hsc)
          · rw [codeProcess_foreign hc hsc]
            show RefinesK U A _ w.st (w.commit s ⟨s.grant, w.n⟩).st
            rw [commit_same hs]
            exact .refl _ _ _ _
    · split
      · rename_i hc'
        subst hc'
        split
        · exact .refl _ _ _ _
        · rename_i v hv
          obtain ⟨r, g, i, t, h1, h2, h3, _⟩ := hok.refresh v hgt hv
          split
          · exact .refl _ _ _ _
          · rename_i s hs
            obtain ⟨sid, h5, h6⟩ := issued_sidFor hw hs h1 h2 h3
            by_cases hsc : s.client = c
            · split <;> exact commit_refinesK (P := fun k => keyClient k = some c) hi hU h5 h6 _ (congrArg some hsc)
            · rw [refreshProcess_foreign hc hsc]
              show RefinesK U A _ w.st (w.commit s ⟨s.grant, w.n⟩).st
              rw [commit_same hs]
              exact .refl _ _ _ _
      · exact .refl _ _ _ _

/-- C119, requests that are processed.  After any fair history, processing a token request that was received for a client leaves
everything but this client's sessions as it is, whatever codes and refresh tokens the request presents: the sessions of all other
clients and the records of the users. -/
theorem C119_processed_only_own (E : Env) (U : String → Prop) (adds : Bool)
    (hU : ∀ n u c g, (SKey.gra u c g).Good U → ¬ U (E.encSid n [u, c, g]))
    (now : Int) (ops : List WOp) (hops : ∀ op ∈ ops, FairW E U adds op)
    (i : Nat) (kw : Option Bool) (req : TokenReq) (hreq : (run E { now := now } ops).pool[i]? = some req)
    (c : String) (hc : req.clientId = some c) (k : SKey) (hk : k.Good U) (hne : keyClient k ≠ some c) :
    found (step E (run E { now := now } ops) (.process i kw)).st k = found (run E { now := now } ops).st k := by
  obtain ⟨hw, hi⟩ := fair_run hU ops hops (fair_init (E := E) (U := U) (adds := adds) now).1 (fair_init (E := E) (U := U) (adds := adds) now).2
  have hst : (step E (run E { now := now } ops) (.process i kw)).st =
      (tokenHelper E (run E { now := now } ops) kw req).2.st := by
    show (match (run E { now := now } ops).pool[i]? with
      | none => run E { now := now } ops
      | some req => (tokenProcess E (run E { now := now } ops) kw req).2).st = _
    rw [hreq]; exact tokenProcess_st _ _ _ _
  have href := tokenHelper_own hw hi hU kw (List.mem_of_getElem? hreq) hc
  rw [hst, found_view (href.hinv hi).inv hk, found_view hi.inv hk, href.other hi hne]

namespace Ex

/-- The client `c1` has exchanged its code for tokens; now client `c2` presents the used code. -/
def replayedByOther : List WOp := start "c1" ++ [.parse "c2" (codeReq (E.mkVal 1 .authorizationCode (sid "c1" 0)))]

/-- C119 fails for used codes: a request of one client revokes the tokens of another. -/
theorem C119_used_code_refuted :
    (match found (run E init (start "c1")).st (.gra "d" "c1" (E.uuid 0)) with
      | some (.grant g) => g.issuedToken.map (fun t => (t.cls, t.revoked))
      | _ => []) = [(.authorizationCode, false), (.accessToken, false), (.refreshToken, false), (.idToken, false)] ∧
    (match found (run E init replayedByOther).st (.gra "d" "c1" (E.uuid 0)) with
      | some (.grant g) => g.issuedToken.map (fun t => (t.cls, t.revoked))
      | _ => []) = [(.authorizationCode, false), (.accessToken, true), (.refreshToken, true), (.idToken, true)] := by
  decide +kernel

/-- The same user with two clients: the exchange at the second client is not about the first, whose grant has tokens. -/
example : ¬ AboutClient E (run E init (start "c1")) "c1" (.login "d" "c2" (authzReq "c2") event) ∧
    found (run E init (start "c1")).st (.gra "d" "c1" (E.uuid 0)) = some (.grant (grant1 "c1")) := by
  refine ⟨?_, by decide +kernel⟩
  show ¬ ("c2" = "c1")
  decide

/-- Client `c2` presents the code of `c1` before it has been used; the request is received and waits to be processed, as one of
`c2`. -/
def presentedByOther : List WOp := (start "c1").take 3 ++ [.parse "c2" (codeReq (E.mkVal 1 .authorizationCode (sid "c1" 0)))]

example : ((run E init presentedByOther).pool[0]?).map (fun r => (r.clientId, r.code.isSome)) = some (some "c2", true) ∧
    (tokenProcess E (run E init presentedByOther) none ((run E init presentedByOther).pool.headD {})).1 =
      .ok (.err "invalid_grant") := by
  decide +kernel

end Ex
end OidcOp
