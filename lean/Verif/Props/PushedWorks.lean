/-
C34: a pushed request can be used by the client that pushed it.
-/
import Verif.Props.ProviderExamples

namespace OidcOp
open Spec

/-- Pushed requests are kept until they are resolved. -/
def KeptPushes (s : PState) : Prop :=
  ∀ y ∈ s.pushed, (∃ x ∈ s.resolved, x.urn = y.urn) ∨ s.par.get? y.urn = some y.req

theorem keptPushes_par {client : String} (s s' : PState) (h : KeptPushes s) (hs : ParStep client s s') : KeptPushes s' := by
  cases hs with
  | none => exact h
  | resolve hr =>
    rename_i uri r
    intro y hy
    rcases h y hy with ⟨x, hx, e⟩ | hp
    · exact .inl ⟨x, List.mem_append_left _ hx, e⟩
    · by_cases he : uri = y.urn
      · exact .inl ⟨_, List.mem_append_right _ (List.mem_singleton.2 rfl), he⟩
      · refine .inr ?_
        show (s.par.erase uri).get? y.urn = _
        rw [Dict.get?_erase_ne _ he]
        exact hp

theorem keptPushes_push {p : Prov} {client : String} {req : AuthzReq} {s : PState} (hi : ParInv p s) (h : KeptPushes s) :
    KeptPushes (processPush p client req s) := by
  intro y hy
  simp only [processPush, List.mem_append, List.mem_singleton] at hy
  rcases hy with hy | rfl
  · rcases h y hy with hx | hp
    · exact .inl hx
    · refine .inr ?_
      show (s.par.set (p.urn s.pushes) req).get? y.urn = _
      rw [Dict.get?_set_ne _ _ (Ne.symm (urn_fresh hi y hy))]
      exact hp
  · exact .inr (Dict.get?_set_self _ _ _)

theorem KeptPushes.same {s s' : PState} (h : KeptPushes s) (e : SamePar s s') : KeptPushes s' := by
  unfold KeptPushes
  rw [e.pushed, e.resolved, e.par]
  exact h

theorem keptPushes_step (p : Prov) {s : PState} (hi : ParInv p s) (h : KeptPushes s) (op : POp) : KeptPushes (provStep p s op) := by
  cases op with
  | push client req =>
    have h1 := parsePush_par (I := KeptPushes) (client := client) keptPushes_par p req h
    have h2 := parsePush_par (I := ParInv p) (client := client) parInv_step p req hi
    simp only [provStep]
    split
    · rename_i r s' he; rw [he] at h1 h2; exact keptPushes_push h2 h1
    · rename_i x s' _ he; rw [he] at h1; exact h1
  | request client req cookies hint ru =>
    have h1 := parseAuthz_par (I := KeptPushes) (client := client) keptPushes_par p req h
    simp only [provStep]
    split
    · rename_i r s' he; rw [he] at h1; exact h1.same (settle_par ..)
    · rename_i x s' _ he; rw [he] at h1; exact h1
  | loggedIn i user =>
    simp only [provStep]
    split
    · exact h
    · rename_i req m _
      exact (h.same (s' := { s with logins := s.logins ++ [⟨user, req, m, s.w.now⟩] }) ⟨rfl, rfl, rfl, rfl⟩).same (finishLogin_par ..)
  | _ => exact h.same ⟨rfl, rfl, rfl, rfl⟩

theorem keptPushes_history (p : Prov) (now : Int) (ops : List POp) : KeptPushes (provHistory p now ops) := by
  have h0 : KeptPushes { w := { now := now } } := by simp [KeptPushes]
  have hi : ParInv p { w := { now := now } } := ⟨rfl, by simp, by simp, by simp, by simp⟩
  unfold provHistory provRun
  generalize ({ w := { now := now } } : PState) = s at h0 hi
  induction ops generalizing s with
  | nil => exact h0
  | cons op r ih => exact ih _ (keptPushes_step p hi h0 op) (parInv_provStep p hi op)

/-- A request without request_uri leaves the store as it is. -/
theorem parseAuthz_plain (p : Prov) (client : String) (req : AuthzReq) (hr : req.requestUri = none) (s s' : PState) :
    (parseAuthz p client req s).1 = (parseAuthz p client req s').1 := by
  have hround : ∀ (r : AuthzReq) (s : PState), r.requestUri = none → parseRound p client r s = (postParseAuthz p client r, s) := by
    intro r s h
    unfold parseRound doRequestUri
    rw [h]
    rfl
  have hpost : ∀ r r', postParseAuthz p client r = .ok (.req r') → r.requestUri = none → r'.requestUri = none := by
    intro r r' h h0
    obtain ⟨_, c, u, _, _, _, e⟩ := postParse_spec h
    rw [e]
    exact h0
  unfold parseAuthz
  rw [hround _ s (show ({ req with clientId := some client } : AuthzReq).requestUri = none from hr),
    hround _ s' (show ({ req with clientId := some client } : AuthzReq).requestUri = none from hr)]
  cases hq : postParseAuthz p client { req with clientId := some client } with
  | error e => rfl
  | ok x =>
    cases x with
    | err a b => rfl
    | req r1 =>
      simp only []
      have h1 := hpost _ _ hq hr
      unfold parseAgain
      cases p.oidc with
      | false => rfl
      | true =>
        simp only [if_true]
        rw [hround _ s h1, hround _ s' h1]
        cases postParseAuthz p client r1 with
        | error e => rfl
        | ok y => cases y <;> rfl

/-- C34, the other direction.  After every history, the client that pushed a request can use its URN as long as nobody has: the outcome
is the same as if it had sent the request that was pushed to the authorization endpoint, whatever else comes with the URN. -/
theorem C34_as_if_sent (p : Prov) (hp : p.hasPar = true) (now : Int) (ops : List POp)
    (hops : ∀ client req, POp.push client req ∈ ops → req.requestUri = none) (y : Pushed)
    (hy : y ∈ (provHistory p now ops).pushed) (hun : ∀ x ∈ (provHistory p now ops).resolved, x.urn ≠ y.urn)
    (hu : "urn:uuid:".toList.isPrefixOf y.urn.toList = true) (req : AuthzReq) (hr : req.requestUri = some y.urn) :
    (parseAuthz p y.client req (provHistory p now ops)).1 = (parseAuthz p y.client y.req (provHistory p now ops)).1 := by
  obtain ⟨hown, hnone⟩ := ownPushes_history p now ops hops y hy
  have hpar : (provHistory p now ops).par.get? y.urn = some y.req := by
    rcases keptPushes_history p now ops y hy with ⟨x, hx, e⟩ | h
    · exact absurd e (hun x hx)
    · exact h
  generalize provHistory p now ops = s at hpar
  have hself : ({ y.req with clientId := some y.client } : AuthzReq) = y.req := by
    rw [← hown]
  have key : ∃ s', parseRound p y.client { req with clientId := some y.client } s = (postParseAuthz p y.client y.req, s') := by
    unfold parseRound
    rw [parse_urn hp hu _ _ (show ({ req with clientId := some y.client } : AuthzReq).requestUri = _ from hr), hpar]
    exact ⟨_, rfl⟩
  obtain ⟨s', hk⟩ := key
  rw [parseAuthz_plain p y.client y.req hnone s s']
  unfold parseAuthz
  rw [hk, hself]
  have : parseRound p y.client y.req s' = (postParseAuthz p y.client y.req, s') := by
    unfold parseRound doRequestUri
    rw [hnone]
    rfl
  rw [this]

namespace Ex

/-- The hypotheses are met, and the request passes. -/
example : (parseAuthz prov "c1" { urnReq 0 with state := some "other" } (provHistory prov 1000 [.push "c1" (authzReq "c1"), .tick 5])).1 =
    .ok (.req (authzReq "c1")) := by
  rw [C34_as_if_sent prov rfl 1000 [.push "c1" (authzReq "c1"), .tick 5] (by
      intro client req h
      simp only [List.mem_cons, List.not_mem_nil, or_false, reduceCtorEq, POp.push.injEq] at h
      obtain ⟨-, rfl⟩ := h
      rfl) ⟨urnStr 0, "c1", authzReq "c1", 1000⟩ (by decide +kernel) (by decide +kernel) (by decide +kernel) _ rfl]
  decide +kernel

end Ex

end OidcOp
