/-
Usage rules: C59 and C60.
-/
import Verif.Spec.UsageRules

namespace OidcOp
open Spec

theorem nonempty_iff (r : UsageRules) : r.nonempty = true ↔ r ≠ {} := by
  obtain ⟨a, b, c⟩ := r
  unfold UsageRules.nonempty
  cases a <;> cases b <;> cases c <;> simp

theorem rules_get?_append (a b : Rules) (c : TokenClass) :
    Rules.get? (a ++ b) c = (Rules.get? a c).or (Rules.get? b c) := by
  unfold Rules.get?
  rw [List.find?_append]
  cases List.find? (fun p => decide (p.1 = c)) a <;> simp

theorem rules_get?_cons (p : TokenClass × UsageRules) (r : Rules) (c : TokenClass) :
    Rules.get? (p :: r) c = if p.1 = c then some p.2 else Rules.get? r c := by
  unfold Rules.get?
  rw [List.find?_cons]
  by_cases h : p.1 = c <;> simp [h]

theorem rules_get?_map (base : Rules) (f : TokenClass × UsageRules → UsageRules) (c : TokenClass) :
    Rules.get? (base.map (fun p => (p.1, f p))) c = (Rules.get? base c).map (fun u => f (c, u)) := by
  induction base with
  | nil => rfl
  | cons p t ih =>
    rw [List.map_cons, rules_get?_cons, rules_get?_cons, ih]
    obtain ⟨k, u⟩ := p
    by_cases h : k = c
    · subst h; simp
    · simp [h]

theorem rules_get?_isNone (base : Rules) (c : TokenClass) :
    base.any (fun q => decide (q.1 = c)) = (Rules.get? base c).isSome := by
  induction base with
  | nil => rfl
  | cons p t ih =>
    rw [List.any_cons, rules_get?_cons, ih]
    by_cases h : p.1 = c <;> simp [h]

theorem rules_get?_filter (base pc : Rules) (c : TokenClass) :
    Rules.get? (pc.filter (fun p => !(base.any (fun q => decide (q.1 = p.1))))) c =
      if (Rules.get? base c).isSome then none else Rules.get? pc c := by
  induction pc with
  | nil =>
    have : ∀ b : Bool, (none : Option UsageRules) = if b = true then none else none := by intro b; cases b <;> rfl
    exact this _
  | cons p t ih =>
    by_cases hb : (Rules.get? base p.1).isSome
    · rw [List.filter_cons_of_neg (by rw [rules_get?_isNone]; simp [hb]), ih, rules_get?_cons]
      by_cases h : p.1 = c
      · rw [← h]; simp [hb]
      · rw [if_neg h]
    · rw [List.filter_cons_of_pos (by rw [rules_get?_isNone]; simp [hb]), rules_get?_cons, ih, rules_get?_cons]
      by_cases h : p.1 = c
      · rw [← h, if_pos rfl, if_pos rfl, if_neg hb]
      · rw [if_neg h, if_neg h]

/-- The merged rules of a class. -/
theorem usageRules_get? (server : Option Rules) (pc : Rules) (c : TokenClass) :
    Rules.get? (usageRules server (some pc)) c =
      match Rules.get? (server.getD []) c, Rules.get? pc c with
      | none, r => r
      | some s, none => some s
      | some s, some r => if r.nonempty then some (s.update r) else some {} := by
  unfold usageRules
  simp only []
  generalize server.getD [] = base
  split
  · rename_i he
    cases base with
    | nil => rfl
    | cons => cases he
  · have hm : base.map (fun p => match Rules.get? pc p.1 with
          | some r => if r.nonempty then (p.1, p.2.update r) else (p.1, {})
          | none => p) =
        base.map (fun p => (p.1, match Rules.get? pc p.1 with
          | some r => if r.nonempty then p.2.update r else {}
          | none => p.2)) := by
      refine List.map_congr_left (fun p _ => ?_)
      cases Rules.get? pc p.1 with
      | none => rfl
      | some r => cases hr : r.nonempty <;> simp [hr]
    refine (congrArg (fun l => Rules.get? (l ++ _) c) hm).trans ?_
    rw [rules_get?_append, rules_get?_map, rules_get?_filter]
    cases hb : Rules.get? base c with
    | none => simp
    | some s =>
      simp only [Option.map_some, Option.isSome_some, if_true, Option.or_none]
      cases Rules.get? pc c with
      | none => rfl
      | some r => cases hr : r.nonempty <;> simp [hr]

/-- C59.  The rules for a client with rules of its own are, class by class and rule by rule, its own where it has them, else
the server's; an empty entry of the client's empties the class. -/
theorem C59_merge (server : Option Rules) (client : Rules) (c : TokenClass) :
    Merged (Rules.get? (server.getD []) c) (Rules.get? client c) (Rules.get? (usageRules server (some client)) c) := by
  rw [usageRules_get?]
  unfold Merged
  cases Rules.get? (server.getD []) c with
  | none => rfl
  | some s =>
    cases Rules.get? client c with
    | none => rfl
    | some r =>
      refine ⟨?_, fun hr => ?_⟩
      · rintro rfl; rfl
      · have := (nonempty_iff r).2 hr
        simp only [this, if_true]
        refine ⟨_, rfl, ?_, ?_, ?_⟩ <;> unfold Own UsageRules.update <;> simp only []
        · cases r.maxUsage <;> rfl
        · cases r.supportsMinting <;> rfl
        · cases r.expiresIn <;> rfl

/-- C59.  Without a client, or for a client without rules of its own, the rules are the server's. -/
theorem C59_server_only (server : Option Rules) : usageRules server none = server.getD [] := rfl

/-- The rules are merged for authorization requests of a client. -/
theorem C59_rulesOf (cfg : AuthzCfg) (client : String) (rs : Rules) (hc : client ≠ "")
    (h : cfg.perClient.get? client = some rs) (c : TokenClass) :
    Merged (Rules.get? (cfg.usageRules.getD []) c) (Rules.get? rs c) (Rules.get? (cfg.rulesOf (some client)) c) := by
  unfold AuthzCfg.rulesOf truthyStr
  simp only [if_neg hc, h]
  exact C59_merge _ _ _

namespace Ex

def serverRules : Rules :=
  [(.authorizationCode, { expiresIn := some 300, supportsMinting := some [.accessToken] }), (.accessToken, { expiresIn := some 600 })]
def clientRules : Rules := [(.authorizationCode, { expiresIn := some 60 }), (.accessToken, {}), (.refreshToken, { expiresIn := some 9 })]

/-- All the cases at once: a rule of its own beside one of the server's, an emptied class, a new class. -/
example : usageRules (some serverRules) (some clientRules) =
    [(.authorizationCode, { expiresIn := some 60, supportsMinting := some [.accessToken] }), (.accessToken, {}),
     (.refreshToken, { expiresIn := some 9 })] := by decide

end Ex

/-! ### C60 -/

theorem update_self_nonempty (u g : UsageRules) (h : u ≠ {}) : u.update g ≠ {} := by
  intro e
  apply h
  obtain ⟨a, b, c⟩ := u
  obtain ⟨a', b', c'⟩ := g
  simp only [UsageRules.update, UsageRules.mk.injEq] at e
  cases a <;> cases b <;> cases c <;> cases a' <;> cases b' <;> cases c' <;> simp_all

/-- A call for a configured class, or for a grant without rules for it, changes nothing. -/
theorem getUsageRules_state {s : UsageState} {k : UsageCall} (h : Configured s k ∨ NoGrantRules k) :
    (getUsageRules k.cls k.grantRules k.cid s).2 = s := by
  unfold getUsageRules
  cases hl : s.lookup k.cls k.cid with
  | error e => rfl
  | ok p =>
    obtain ⟨u, ref⟩ := p
    simp only []
    rcases h with ⟨r, h1, h2, h3⟩ | h
    · have hne : ((Rules.get? (usageRules s.server (s.clientRules k.cid)) k.cls).getD {}).nonempty = true := by
        rw [nonempty_iff]
        unfold UsageState.clientRules
        cases hc : (if k.cid = "" then none else s.clients.get? k.cid) with
        | none => rw [C59_server_only, h1]; exact h2
        | some pc =>
          have hg : s.clients.get? k.cid = some pc := by
            split at hc
            · cases hc
            · exact hc
          have hpc := h3 pc hg
          rw [usageRules_get?, h1]
          cases hp : Rules.get? pc k.cls with
          | none => exact h2
          | some q =>
            rw [hp] at hpc
            have hq : q.nonempty = true := (nonempty_iff q).2 (fun e => hpc (by rw [e]))
            simp only [hq, if_true, Option.getD_some]
            exact update_self_nonempty r q h2
      have hr : ref = .copy := by
        unfold UsageState.lookup at hl
        simp only [hne, if_true] at hl
        simp only [UsageState.refOf, h1] at hl
        cases hl
        rfl
      subst hr
      cases Rules.get? k.grantRules k.cls with
      | none => rfl
      | some g => simp only []; split <;> rfl
    · rcases h with h | h <;> rw [h]
      rfl

/-- C60, in part.  If the server has rules for the token classes in question and no client empties them, then no series of
calls changes anything: every call gives the same rules whatever calls went before.  What is missing: classes the server has
no rules for. -/
theorem C60_history_independent_partial (s : UsageState) (calls : List UsageCall)
    (h : ∀ k ∈ calls, Configured s k ∨ NoGrantRules k) (c : TokenClass) (grantRules : Rules) (cid : String) :
    usageHistory s calls = s ∧
      (getUsageRules c grantRules cid (usageHistory s calls)).1 = (getUsageRules c grantRules cid s).1 := by
  have : usageHistory s calls = s := by
    induction calls with
    | nil => rfl
    | cons k t ih =>
      rw [usageHistory, getUsageRules_state (h k List.mem_cons_self)]
      exact ih (fun x hx => h x (List.mem_cons_of_mem _ hx))
  exact ⟨this, by rw [this]⟩

/-- C60.  What one call returns is, rule by rule, the grant's own where it has one, else what it would be without the
grant's. -/
theorem C60_grant_first (s : UsageState) (k : UsageCall) (g u : UsageRules) (hg : Rules.get? k.grantRules k.cls = some g)
    (h : (getUsageRules k.cls k.grantRules k.cid s).1 = .ok u) :
    ∃ b, (getUsageRules k.cls [] k.cid s).1 = .ok b ∧ Own g.maxUsage b.maxUsage u.maxUsage ∧
      Own g.supportsMinting b.supportsMinting u.supportsMinting ∧ Own g.expiresIn b.expiresIn u.expiresIn := by
  unfold getUsageRules at h ⊢
  cases hl : s.lookup k.cls k.cid with
  | error e => rw [hl] at h; cases h
  | ok p =>
    obtain ⟨b, ref⟩ := p
    rw [hl] at h
    refine ⟨b, rfl, ?_⟩
    simp only [hg] at h
    by_cases hn : g.nonempty = true
    · simp only [hn, if_true, Except.ok.injEq] at h
      subst h
      unfold Own UsageRules.update
      refine ⟨?_, ?_, ?_⟩
      · cases g.maxUsage <;> rfl
      · cases g.supportsMinting <;> rfl
      · cases g.expiresIn <;> rfl
    · have he : g = {} := Decidable.byContradiction (fun e => hn ((nonempty_iff g).2 e))
      subst he
      simp only [hn, Bool.false_eq_true, if_false, Except.ok.injEq] at h
      subst h
      exact ⟨rfl, rfl, rfl⟩

/-- C60, what the defaults are.  Where neither the server nor the client has rules and no grant had rules of its own: a code is used
once, within five minutes, for an access, a refresh and an ID token; an access token lasts an hour and gives nothing; a refresh token
gives all three without end; and there are no rules for ID tokens, which is a KeyError. -/
theorem C60_defaults (clients : Dict Rules) (cid : String) (h : clients.get? cid = none) :
    let ask := fun c => (getUsageRules c [] cid { clients := clients, defaults := defaultUsage }).1
    ask .authorizationCode =
      .ok { maxUsage := some 1, supportsMinting := some [.accessToken, .refreshToken, .idToken], expiresIn := some 300 } ∧
    ask .accessToken = .ok { supportsMinting := some [], expiresIn := some 3600 } ∧
    ask .refreshToken = .ok { supportsMinting := some [.accessToken, .refreshToken, .idToken] } ∧
    ask .idToken = .error .keyError := by
  have hc : ∀ d, UsageState.clientRules { clients := clients, defaults := d } cid = none := by
    intro d
    unfold UsageState.clientRules
    split
    · rfl
    · exact h
  simp only [getUsageRules, UsageState.lookup, hc]
  exact ⟨rfl, rfl, rfl, rfl⟩

namespace Ex

def usage0 : UsageState := { defaults := defaultUsage }

/-- A grant with a lifetime of its own. -/
def longGrant : Rules := [(.accessToken, { expiresIn := some 999999 })]

/-- C60 is false: without configured rules, the rules of one grant become the default for all others. -/
theorem C60_defaults_refuted : ¬ ∀ (s : UsageState) (calls : List UsageCall) (c : TokenClass) (g : Rules) (cid : String),
    (getUsageRules c g cid (usageHistory s calls)).1 = (getUsageRules c g cid s).1 := by
  intro h
  have := h usage0 [⟨.accessToken, longGrant, "rp1"⟩] .accessToken [] "rp2"
  revert this
  decide

example : (getUsageRules .accessToken [] "rp2" usage0).1 = .ok { supportsMinting := some [], expiresIn := some 3600 } ∧
    (getUsageRules .accessToken [] "rp2" (usageHistory usage0 [⟨.accessToken, longGrant, "rp1"⟩])).1 =
      .ok { supportsMinting := some [], expiresIn := some 999999 } := by decide

/-- … and if only the client has rules for the class, its record in the client database is changed. -/
theorem C60_client_refuted : (usageHistory { clients := [("rp1", [(.accessToken, { expiresIn := some 60 })])], defaults := defaultUsage }
    [⟨.accessToken, longGrant, "rp1"⟩]).clients = [("rp1", [(.accessToken, { expiresIn := some 999999 })])] := by decide

/-- With the class configured nothing happens. -/
def usage1 : UsageState := { server := some serverRules, clients := [("rp1", [(.accessToken, { maxUsage := some 3 })])], defaults := defaultUsage }

example : Configured usage1 ⟨.accessToken, longGrant, "rp1"⟩ :=
  ⟨{ expiresIn := some 600 }, by decide, by decide, by
    intro pc h
    have : usage1.clients.get? "rp1" = some [(.accessToken, { maxUsage := some 3 })] := by decide
    rw [this] at h
    cases h
    decide⟩

example : (getUsageRules .accessToken longGrant "rp1" usage1).1 = .ok { maxUsage := some 3, expiresIn := some 999999 } ∧
    usageHistory usage1 [⟨.accessToken, longGrant, "rp1"⟩] = usage1 := by decide

end Ex

end OidcOp
