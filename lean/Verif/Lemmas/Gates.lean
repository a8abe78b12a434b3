/-
An invariant of the provider's histories in which grants are made only for requests that have passed some checks, and only
for users who have authenticated for the client.
-/
import Verif.Lemmas.GrantKeys
import Verif.Lemmas.GrantScope
import Verif.Lemmas.Login

namespace OidcOp
open Spec

/-- The grant was made for a request of the client that passes `Q`, and for an authenticated user. -/
structure GoodGrant (E : Env) (Q : String → AuthzReq → Prop) (LG : String → String → AuthnEvent → Prop) (u c : String) (g : Grant) :
    Prop where
  req : ∃ req, g.authzReq = some req ∧ req.clientId = some c ∧ Q c req ∧ g.sub = E.subOf u req ∧
    (g.scope = [] ∨ g.scope = req.scope.getD [])
  event : ∃ ev, g.authnEvent = some ev ∧ ev.uid = u ∧ LG u c ev ∧
    (g.issuedAt = ev.authnTime ∨ ev.authnTime ≤ g.issuedAt ∧ g.issuedAt < ev.validUntil)

theorem GoodGrant.mono {E : Env} {Q : String → AuthzReq → Prop} {LG LG' : String → String → AuthnEvent → Prop} {u c : String} {g : Grant}
    (h : GoodGrant E Q LG u c g) (hl : ∀ u c ev, LG u c ev → LG' u c ev) : GoodGrant E Q LG' u c g :=
  ⟨h.req, by
    obtain ⟨ev, h1, h2, h3, h4⟩ := h.event
    exact ⟨ev, h1, h2, hl _ _ _ h3, h4⟩⟩

/-- The invariant of the world. -/
structure GInv (E : Env) (U : String → Prop) (Q : String → AuthzReq → Prop) (LG : String → String → AuthnEvent → Prop) (w : World) :
    Prop where
  winv : WInv E (SidFor E U) w
  hinv : HInv U (fun _ => false = true) w.st
  keys : ∀ u c g r gr, view U w.st (.gra u c g) = some (r, .grant gr) → GoodGrant E Q LG u c gr
  all : ∀ r g, w.st.grantAt r = some g → ∃ u c, GoodGrant E Q LG u c g
  reach : Reachable E w

theorem GInv.mono {E : Env} {U : String → Prop} {Q : String → AuthzReq → Prop} {LG LG' : String → String → AuthnEvent → Prop} {w : World}
    (h : GInv E U Q LG w) (hl : ∀ u c ev, LG u c ev → LG' u c ev) : GInv E U Q LG' w :=
  ⟨h.winv, h.hinv, fun u c g r gr hv => (h.keys u c g r gr hv).mono hl, fun r g hg => by
    obtain ⟨u, c, hh⟩ := h.all r g hg
    exact ⟨u, c, hh.mono hl⟩, h.reach⟩

/-- The operations of such histories. -/
def Gate (E : Env) (U : String → Prop) (Q : String → AuthzReq → Prop) (LG : String → String → AuthnEvent → Prop) (w : World) :
    WOp → Prop
  | .login u c req ev => (SKey.cli u c).Good U ∧ req.clientId = some c ∧ Q c req ∧ ev.uid = u ∧ LG u c ev ∧
      w.now = ev.authnTime
  | .again u c req ev => (SKey.cli u c).Good U ∧ req.clientId = some c ∧ Q c req ∧ ev.uid = u ∧ LG u c ev ∧
      ev.authnTime ≤ w.now ∧ w.now < ev.validUntil
  | .addGrant _ _ _ => False
  | .authorize sid req => SidFor E U sid ∧ ∀ s, sessionOf E w.st sid = .ok s → s.grant.authzReq = some req
  | op => FairW E U false op

theorem Gate.fair {E : Env} {U : String → Prop} {Q : String → AuthzReq → Prop} {LG : String → String → AuthnEvent → Prop} {w : World}
    {op : WOp} (h : Gate E U Q LG w op) : FairW E U false op := by
  cases op with
  | login => exact h.1
  | again => exact h.1
  | addGrant => exact h.elim
  | authorize => exact h.1
  | _ => exact h

theorem set_clientId {req : AuthzReq} {c : String} (h : req.clientId = some c) : { req with clientId := some c } = req := by
  rw [← h]

theorem goodGrant_new {E : Env} {Q : String → AuthzReq → Prop} {LG : String → String → AuthnEvent → Prop} {w : World} {u c : String}
    {req : AuthzReq} {ev : AuthnEvent} {rules : Rules} (h1 : req.clientId = some c) (h2 : Q c req) (h3 : ev.uid = u)
    (h4 : LG u c ev) (h5 : w.now = ev.authnTime ∨ ev.authnTime ≤ w.now ∧ w.now < ev.validUntil) :
    GoodGrant E Q LG u c (newGrant E w u { req with clientId := some c } ev rules) := by
  rw [set_clientId h1]
  exact ⟨⟨req, rfl, h1, h2, rfl, .inl rfl⟩, ⟨ev, rfl, h3, h4, h5⟩⟩

theorem GoodGrant.revoke {E : Env} {Q : String → AuthzReq → Prop} {LG : String → String → AuthnEvent → Prop} {u c : String} {g : Grant}
    (h : GoodGrant E Q LG u c g) : GoodGrant E Q LG u c g.revoke := ⟨h.req, h.event⟩

/-- What an operation does to a grant that was there before. -/
theorem goodGrant_step {E : Env} {U : String → Prop} {Q : String → AuthzReq → Prop} {LG : String → String → AuthnEvent → Prop} {w : World}
    {op : WOp} (hgate : Gate E U Q LG w op) {u c : String} {r : Nat} {g g' : Grant} (hg : w.st.grantAt r = some g)
    (hle : GrantLe g g') (hg' : (step E w op).st.grantAt r = some g') (h : GoodGrant E Q LG u c g) :
    GoodGrant E Q LG u c g' := by
  obtain ⟨req, h1, h2, h3, h4, h5⟩ := h.req
  refine ⟨⟨req, by rw [hle.authzReq, h1], h2, h3, by rw [hle.sub, h4], ?_⟩, by rw [hle.authnEvent, hle.issuedAt]; exact h.event⟩
  rcases scope_step op hg hg' with hs | ⟨sid, rq, s, rfl, hs1, hs2, hs3⟩
  · rw [hs]; exact h5
  · have := hgate.2 s hs1
    have hgs := (sessionOf_spec hs1).1
    rw [hs2, hg] at hgs
    cases hgs
    rw [h1] at this
    cases this
    exact .inr hs3

theorem gate_step {E : Env} {U : String → Prop} {Q : String → AuthzReq → Prop} {LG : String → String → AuthnEvent → Prop} {w : World}
    (hU : ∀ n u c g, (SKey.gra u c g).Good U → ¬ U (E.encSid n [u, c, g]))
    (h : GInv E U Q LG w) {op : WOp} (hgate : Gate E U Q LG w op) : GInv E U Q LG (step E w op) := by
  have hfair := hgate.fair
  have hauth : ∀ sid req, op = .authorize sid req → SidFor E U sid := by
    rintro sid req rfl; exact hfair
  have hcl := sidFor_closed E U
  have href := step_refines h.winv h.hinv hU hfair
  have hnew : ∀ g, Creates E w op g → ∃ u c, (SKey.cli u c).Good U ∧ GoodGrant E Q LG u c g ∧
      ((∃ req ev, op = .login u c req ev ∧ g = newGrant E w u { req with clientId := some c } ev (E.authz.rulesOf (some c))) ∨
       (∃ req ev, op = .again u c req ev ∧ g = newGrant E w u { req with clientId := some c } ev [])) := by
    rintro g (⟨u, c, req, ev, rfl, rfl⟩ | ⟨u, c, req, ev, rfl, rfl⟩ | ⟨u, c, g0, rfl, _⟩)
    · obtain ⟨g1, g2, g3, g4, g5, g6⟩ := hgate
      exact ⟨u, c, g1, goodGrant_new g2 g3 g4 g5 (.inl g6), .inl ⟨req, ev, rfl, rfl⟩⟩
    · obtain ⟨g1, g2, g3, g4, g5, g6⟩ := hgate
      exact ⟨u, c, g1, goodGrant_new g2 g3 g4 g5 (.inr g6), .inr ⟨req, ev, rfl, rfl⟩⟩
    · exact hgate.elim
  refine ⟨(step_spec h.winv hcl op hauth).2.1, href.hinv h.hinv, ?_, ?_, reachable_run h.reach [op]⟩
  · intro u c g r gr hv
    have hgr : (step E w op).st.grantAt r = some gr := grantAt_iff.2 (view_some_obj hv)
    rcases origins_step h.winv hcl op hauth hgr with ⟨g0, hg0, hle⟩ | ⟨g0, hcr, he⟩
    · rcases href.gra h.hinv hv with ⟨o, ho⟩ | hlen
      · have : o = .grant g0 := by
          have h1 := view_some_obj ho
          have h2 := grantAt_iff.1 hg0
          have h3 : w.st.obj r = w.st.heap[r]? := rfl
          rw [h3, h2] at h1
          cases h1; rfl
        subst this
        exact goodGrant_step hgate hg0 hle hgr (h.keys _ _ _ _ _ ho)
      · have := (List.getElem?_eq_some_iff.1 (grantAt_iff.1 hg0)).1
        exact absurd hlen (Nat.not_le.2 this)
    · obtain ⟨u', c', hgood, hgg, hop⟩ := hnew g0 hcr
      have hkey : (SKey.gra u' c' g0.id).Good U := by
        have hid : g0.id = E.uuid w.n := by rcases hop with ⟨_, _, _, rfl⟩ | ⟨_, _, _, rfl⟩ <;> rfl
        rw [hid]
        exact ⟨hgood.1, hgood.2.1, hgood.2.2, E.uuid_clean _⟩
      -- the new grant is under its own key, everything else is as before
      have hplace : (∃ r0, view U (step E w op).st (.gra u' c' g0.id) = some (r0, .grant g0)) ∧
          ∀ k : SKey, k ≠ .usr u' → k ≠ .cli u' c' → k ≠ .gra u' c' g0.id → view U (step E w op).st k = view U w.st k := by
        rcases hop with ⟨req, ev, rfl, rfl⟩ | ⟨req, ev, rfl, rfl⟩
        · obtain ⟨s', r0, he0, _, _, ho, hn, _⟩ := createSession_spec h.hinv.inv hkey
          have : (step E w (.login u' c' req ev)).st = s' := by
            show (createSession u' c' (newGrant E w u' { req with clientId := some c' } ev (E.authz.rulesOf (some c'))) w.st).2 = s'
            rw [he0]
          rw [this]
          exact ⟨⟨r0, hn⟩, ho.other⟩
        · obtain ⟨s', he0, _, _, ho, hn⟩ := createGrant_outside h.hinv.inv hkey
          have : (step E w (.again u' c' req ev)).st = s' := by
            show (createGrant u' c' (newGrant E w u' { req with clientId := some c' } ev []) w.st).2 = s'
            rw [he0]
          rw [this]
          exact ⟨⟨_, hn⟩, ho.other⟩
      obtain ⟨⟨r0, hn⟩, hother⟩ := hplace
      by_cases e : SKey.gra u c g = .gra u' c' g0.id
      · rw [e, hn] at hv
        cases hv
        cases e
        exact hgg
      · rw [hother _ (by simp) (by simp) e] at hv
        exact h.keys _ _ _ _ _ hv
  · intro r g' hg'
    rcases origins_step h.winv hcl op hauth hg' with ⟨g0, hg0, hle⟩ | ⟨g0, hcr, he⟩
    · obtain ⟨u, c, hh⟩ := h.all r g0 hg0
      exact ⟨u, c, goodGrant_step hgate hg0 hle hg' hh⟩
    · obtain ⟨u', c', _, hgg, _⟩ := hnew g0 hcr
      rcases he with rfl | rfl
      · exact ⟨u', c', hgg⟩
      · exact ⟨u', c', hgg.revoke⟩

theorem ginv_init (E : Env) (U : String → Prop) (Q : String → AuthzReq → Prop) (LG : String → String → AuthnEvent → Prop) (now : Int) :
    GInv E U Q LG { now := now } := by
  obtain ⟨h1, h2⟩ := fair_init (E := E) (U := U) (adds := false) now
  refine ⟨h1, h2, ?_, ?_, reachable_init _ _⟩
  · intro u c g r gr hv
    have := view_lt hv
    simp at this
  · intro r g hg
    have := grantAt_iff.1 hg
    simp at this

/-- The session of a genuine session id belongs to the user and the client in it. -/
theorem session_good {E : Env} {U : String → Prop} {Q : String → AuthzReq → Prop} {LG : String → String → AuthnEvent → Prop} {w : World}
    (h : GInv E U Q LG w) {n : Nat} {u c g : String} (hk : (SKey.gra u c g).Good U) {s : Sess}
    (hs : sessionOf E w.st (E.encSid n [u, c, g]) = .ok s) : GoodGrant E Q LG u c s.grant := by
  obtain ⟨h1, _, h3, h4⟩ := sessionOf_spec hs
  rw [E.decrypt_enc n u c g hk.2.1 hk.2.2.1 hk.2.2.2] at h3
  simp only [Except.ok.injEq, List.cons.injEq, and_true] at h3
  obtain ⟨rfl, rfl, rfl⟩ := h3
  obtain ⟨o, ho⟩ := (dbGet_iff h.hinv.inv (k := .gra s.user s.client s.gid) hk s.ref).1 h4
  have h5 := view_some_obj ho
  rw [show w.st.obj s.ref = w.st.heap[s.ref]? from rfl, grantAt_iff.1 h1] at h5
  cases h5
  exact h.keys _ _ _ _ _ ho

end OidcOp
