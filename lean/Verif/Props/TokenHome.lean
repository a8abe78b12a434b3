/-
C72: a token leads back to the session it was issued in.
-/
import Verif.Lemmas.TokenHome
import Verif.Props.Isolation

namespace OidcOp
open Spec

theorem home_run {E : Env} {U : String → Prop} {adds : Bool}
    (hU : ∀ n u c g, (SKey.gra u c g).Good U → ¬ U (E.encSid n [u, c, g])) (ops : List WOp)
    (hf : ∀ op ∈ ops, FairW E U adds op) {w : World} (hw : WInv E (SidFor E U) w)
    (hi : HInv U (fun _ => adds = true) w.st) (hh : AtHome E U w.st) : AtHome E U (run E w ops).st := by
  induction ops generalizing w with
  | nil => exact hh
  | cons op r ih =>
    have hop := hf op (by simp)
    have h1 := (step_spec hw (sidFor_closed E U) op (fun sid req e => by subst e; exact hop)).2.1
    have h2 := (step_refines hw hi hU hop).hinv hi
    exact ih (fun o ho => hf o (by simp [ho])) h1 h2 (atHome_step hw hi hU hh hop)

theorem home_init (E : Env) (U : String → Prop) (now : Int) : AtHome E U ({ now := now } : World).st := by
  intro u c g r gr hv
  have := view_lt hv
  simp at this

/-- The invariants that every fair history keeps. -/
theorem home_history {E : Env} {U : String → Prop} {adds : Bool}
    (hU : ∀ n u c g, (SKey.gra u c g).Good U → ¬ U (E.encSid n [u, c, g])) (now : Int) (ops : List WOp)
    (hf : ∀ op ∈ ops, FairW E U adds op) :
    WInv E (SidFor E U) (run E { now := now } ops) ∧ HInv U (fun _ => adds = true) (run E { now := now } ops).st ∧
      AtHome E U (run E { now := now } ops).st := by
  obtain ⟨h1, h2⟩ := fair_init (E := E) (U := U) (adds := adds) now
  obtain ⟨h3, h4⟩ := fair_run hU ops hf h1 h2
  exact ⟨h3, h4, home_run hU ops hf h1 h2 (home_init E U now)⟩

/-- What is found under a grant's key. -/
theorem found_grant_view {U : String → Prop} {s : Store} (hi : DbInv U s) {u c g : String} (hk : (SKey.gra u c g).Good U)
    {gr : Grant} (hf : found s (.gra u c g) = some (.grant gr)) : ∃ r, view U s (.gra u c g) = some (r, .grant gr) := by
  rw [found_view hi hk] at hf
  cases hv : view U s (.gra u c g) with
  | none => rw [hv] at hf; cases hf
  | some p =>
    obtain ⟨r, o⟩ := p
    rw [hv] at hf
    simp only [Option.map_some, Option.some.injEq] at hf
    exact ⟨r, by rw [hf]⟩

/-- C72.  After any fair history: if the session of user `u` with client `c` under grant id `g` holds a token, looking
up a session by that token's value gives exactly that session, as long as the token handler accepts the value, and
otherwise the handler's refusal. -/
theorem C72_token_leads_home (E : Env) (U : String → Prop) (adds : Bool)
    (hU : ∀ n u c g, (SKey.gra u c g).Good U → ¬ U (E.encSid n [u, c, g]))
    (hne : ∀ n u c g, E.encSid n [u, c, g] ≠ "")
    (now : Int) (ops : List WOp) (hops : ∀ op ∈ ops, FairW E U adds op)
    (u c g : String) (hk : (SKey.gra u c g).Good U) (gr : Grant)
    (hf : found (run E { now := now } ops).st (.gra u c g) = some (.grant gr)) (t : Token) (ht : t ∈ gr.issuedToken) :
    (∃ s, sessionByToken E (run E { now := now } ops) t.value = .ok s ∧ s.user = u ∧ s.client = c ∧ s.gid = g ∧
      s.grant = gr) ∨
    ∃ e, E.info t.value (run E { now := now } ops).now = .error e ∧
      sessionByToken E (run E { now := now } ops) t.value = .error e := by
  obtain ⟨hw, hi, hh⟩ := home_history hU now ops hops
  generalize run E { now := now } ops = w at *
  obtain ⟨r, hv⟩ := found_grant_view hi.inv hk hf
  obtain ⟨k, sid, h1, h2, h3⟩ := hh u c g r gr hv t ht
  cases hinfo : E.info t.value w.now with
  | error e => exact .inr ⟨e, rfl, by simp only [sessionByToken, hinfo]⟩
  | ok x =>
    left
    have hx : x = some sid := h1.seal hinfo
    obtain ⟨n, u', c', g', hgood, rfl⟩ := h2
    have hcl := E.encSid_clean n u' c' g' hgood.2.1 hgood.2.2.1 hgood.2.2.2
    have hcompat : compatibleSid E w.n (E.encSid n [u', c', g']) = E.encSid n [u', c', g'] := by
      unfold compatibleSid
      rw [unpackSessionKey_clean hcl]
    have htr : truthyStr (some (E.encSid n [u', c', g'])) = some (E.encSid n [u', c', g']) := by
      simp [truthyStr, hne]
    have hdb : dbGet ⟨u, some c, some g⟩ w.st = .ok r := (dbGet_iff hi.inv hk r).2 ⟨_, hv⟩
    have hobj := view_some_obj hv
    refine ⟨{ sid := E.encSid n [u', c', g'], user := u, client := c, gid := g, ref := r, grant := gr }, ?_, rfl, rfl, rfl, rfl⟩
    simp only [sessionByToken, hinfo, hx, htr, hcompat, sessionOf, h3, hdb, hobj]

/-- C72, as a negative: no token of one session ever leads to another one. -/
theorem C72_never_another_session (E : Env) (U : String → Prop) (adds : Bool)
    (hU : ∀ n u c g, (SKey.gra u c g).Good U → ¬ U (E.encSid n [u, c, g]))
    (hne : ∀ n u c g, E.encSid n [u, c, g] ≠ "")
    (now : Int) (ops : List WOp) (hops : ∀ op ∈ ops, FairW E U adds op)
    (u c g : String) (hk : (SKey.gra u c g).Good U) (gr : Grant)
    (hf : found (run E { now := now } ops).st (.gra u c g) = some (.grant gr)) (t : Token) (ht : t ∈ gr.issuedToken)
    (s : Sess) (hs : sessionByToken E (run E { now := now } ops) t.value = .ok s) :
    s.user = u ∧ s.client = c ∧ s.gid = g ∧ s.grant = gr := by
  rcases C72_token_leads_home E U adds hU hne now ops hops u c g hk gr hf t ht with ⟨s', h1, h2⟩ | ⟨e, _, h⟩
  · rw [hs] at h1; cases h1; exact h2
  · rw [hs] at h; cases h

namespace Ex

theorem encSid_ne (n : Nat) (u c g : String) : E.encSid n [u, c, g] ≠ "" := by
  intro h
  have he : 'e' ∈ (E.encSid n [u, c, g]).toList := by
    show 'e' ∈ (String.ofList (enc ([u, c, g].map String.toList))).toList
    simp [enc]
  rw [h] at he
  exact absurd he (by decide)

/-- The session of the examples holds four tokens, and its access token is accepted. -/
example : found (run E init (start "c1")).st (.gra "d" "c1" (E.uuid 0)) = some (.grant (grant1 "c1")) ∧
    (∃ t ∈ (grant1 "c1").issuedToken, t.cls = .accessToken ∧
      ∃ x, E.info t.value (run E init (start "c1")).now = .ok x) ∧
    ∀ op ∈ start "c1", FairW E Users false op :=
  ⟨by decide +kernel, ⟨((grant1 "c1").issuedToken[1]?).getD default, by decide +kernel, by decide +kernel,
    some (sid "c1" 0), by decide +kernel⟩, fair_start⟩

end Ex
end OidcOp
