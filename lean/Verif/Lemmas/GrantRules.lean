/-
The usage rules of grants and tokens in a history: grants that hold tokens have rules that the authorization handler set, and their
tokens have the rules and the life time of these.
-/
import Verif.Lemmas.GrantScope

namespace OidcOp
open Spec

/-- The rules for a token class. -/
abbrev ruleIn (u : Rules) (c : TokenClass) : Option UsageRules := Rules.get? u c

/-- The token has the rules and the life time of usage rules with the property `R`. -/
structure TokRuled (R : Rules → Prop) (t : Token) : Prop where
  rules : ∃ u, R u ∧ t.rules = setDefaults t.cls ((ruleIn u t.cls).getD {})
  ends : ∃ u, R u ∧ (if t.basedOn = none then t.expiresAt = rootEnd t.issuedAt (ruleIn u t.cls)
    else t.expiresAt = endOf t.issuedAt (ruleIn u t.cls))

/-- The grant's rules have the property, and its tokens follow such rules. -/
structure Ruled (R : Rules → Prop) (g : Grant) : Prop where
  own : R g.usageRules
  tokens : ∀ t ∈ g.issuedToken, TokRuled R t

/-- The same for grants that hold tokens. -/
def WeakRuled (R : Rules → Prop) (g : Grant) : Prop := g.issuedToken = [] ∨ Ruled R g

section
variable {R : Rules → Prop}

theorem TokRuled.static {t t' : Token} (h : TokRuled R t) (h1 : t'.cls = t.cls) (h2 : t'.rules = t.rules)
    (h3 : t'.basedOn = t.basedOn) (h4 : t'.issuedAt = t.issuedAt) (h5 : t'.expiresAt = t.expiresAt) : TokRuled R t' := by
  refine ⟨?_, ?_⟩
  · rw [h1, h2]; exact h.rules
  · rw [h1, h3, h4, h5]; exact h.ends

theorem Ruled.revMono {g : Grant} (h : Ruled R g) {ts : List Token} (hr : RevMono g.issuedToken ts) :
    Ruled R { g with issuedToken := ts } := by
  refine ⟨h.own, fun t' ht' => ?_⟩
  obtain ⟨i, hi⟩ := List.getElem?_of_mem ht'
  have hlt : i < g.issuedToken.length := by
    rw [← hr.1]
    exact (List.getElem?_eq_some_iff.1 hi).1
  obtain ⟨r, h1, _⟩ := hr.2 i _ (List.getElem?_eq_getElem hlt)
  rw [hi] at h1
  cases h1
  exact (h.tokens _ (List.getElem_mem hlt)).static rfl rfl rfl rfl rfl

theorem mem_modifyFirst_or {v : String} {f : Token → Token} {ts : List Token} {t' : Token} (h : t' ∈ modifyFirst v f ts) :
    t' ∈ ts ∨ ∃ t ∈ ts, t' = f t := by
  induction ts with
  | nil => cases h
  | cons t ts ih =>
    unfold modifyFirst at h
    split at h
    · rcases List.mem_cons.1 h with rfl | h
      · exact .inr ⟨t, List.mem_cons_self, rfl⟩
      · exact .inl (List.mem_cons_of_mem _ h)
    · rcases List.mem_cons.1 h with rfl | h
      · exact .inl List.mem_cons_self
      · rcases ih h with h | ⟨t0, h0, h⟩
        · exact .inl (List.mem_cons_of_mem _ h)
        · exact .inr ⟨t0, List.mem_cons_of_mem _ h0, h⟩

theorem Ruled.updateToken {g : Grant} (h : Ruled R g) (v : String) (f : Token → Token)
    (hf : ∀ t, TokRuled R t → TokRuled R (f t)) : Ruled R (g.updateToken v f) := by
  refine ⟨h.own, fun t' ht' => ?_⟩
  rcases mem_modifyFirst_or ht' with h1 | ⟨t, h1, rfl⟩
  · exact h.tokens _ h1
  · exact hf _ (h.tokens _ h1)

theorem TokRuled.registerUsage {t : Token} (h : TokRuled R t) : TokRuled R t.registerUsage := h.static rfl rfl rfl rfl rfl
theorem TokRuled.revoke {t : Token} (h : TokRuled R t) : TokRuled R t.revoke := h.static rfl rfl rfl rfl rfl

theorem Ruled.snoc {g : Grant} (h : Ruled R g) {t : Token} (ht : TokRuled R t) (n : Nat) :
    Ruled R { g with issuedToken := g.issuedToken ++ [t], used := n } := by
  refine ⟨h.own, fun t' ht' => ?_⟩
  rcases List.mem_append.1 ht' with h1 | h1
  · exact h.tokens _ h1
  · rw [List.mem_singleton] at h1
    subst h1
    exact ht

/-- The computation keeps to the rules. -/
def Keeps {α : Type} (R : Rules → Prop) (m : SE GS α) : Prop := ∀ s, Ruled R s.g → Ruled R (m s).2.g

variable {α β : Type}

theorem Keeps.bind {m : SE GS α} {f : α → SE GS β} (hm : Keeps R m) (hf : ∀ a, Keeps R (f a)) : Keeps R (m >>= f) := by
  intro s hs
  have h := hm s hs
  rw [SE.bind_apply]
  cases hms : m s with
  | mk x s' =>
    rw [hms] at h
    cases x with
    | error e => exact h
    | ok a => exact hf a s' h

theorem Keeps.pure (a : α) : Keeps R (pure a : SE GS α) := fun _ h => h
theorem Keeps.raise (e : Exc) : Keeps R (SE.raise e : SE GS α) := fun _ h => h
theorem Keeps.ofExcept (x : Except Exc α) : Keeps R (SE.ofExcept x : SE GS α) := fun _ h => h

theorem Keeps.get : Keeps R (SE.get : SE GS GS) := fun _ h => h

/-- What minting at the token endpoint appends. -/
theorem mintEP_ruled (mk : Minter) (clock : Int) (c : TokenClass) (b : Token) (sc : Option (List String)) (tt : String) (s : GS)
    (hs : Ruled R s.g) :
    (∃ t, mintEP mk clock c (some b) sc tt s =
        (.ok t, ⟨{ s.g with issuedToken := s.g.issuedToken ++ [t], used := s.g.used + 1 }, s.n + 1⟩) ∧ TokRuled R t ∧ t.cls = c) ∨
    (∃ e, mintEP mk clock c (some b) sc tt s = (.error e, ⟨s.g, s.n + 1⟩)) := by
  unfold mintEP
  simp only []
  cases hm : s.g.mintToken clock c (some b) (s.g.rulesFor c) sc tt (mk s.n c) with
  | mk x g' =>
    have hns := mintToken_not_some s.g clock c (some b) (s.g.rulesFor c) sc tt (mk s.n c)
    rw [hm] at hns
    cases x with
    | error e =>
      right
      exact ⟨e, by simp only []; rw [show g' = s.g from hns (by simp)]⟩
    | ok o =>
      cases o with
      | none =>
        right
        exact ⟨_, by simp only []; rw [show g' = s.g from hns (by simp)]⟩
      | some t =>
        left
        obtain ⟨_, _, _, ⟨v, scope, ty, _, _, ht⟩, rfl⟩ := mintToken_some hm
        have hx := withExpiry_eq (clock := clock) (rules := s.g.rulesFor c) (t := t) (by rw [ht]; rfl)
        refine ⟨{ t with expiresAt := endOf clock (s.g.rulesFor c) }, ?_, ⟨⟨s.g.usageRules, hs.own, ?_⟩, ⟨s.g.usageRules, hs.own, ?_⟩⟩, ?_⟩
        · simp only [hx, updateLast_append]
        · rw [ht, Option.or_self]; rfl
        · rw [ht, if_neg (by simp [newToken])]; rfl
        · rw [ht]; rfl

/-- What minting at the authorization endpoint appends. -/
theorem keeps_mintAuthz (mk : Minter) (clock : Int) (c : TokenClass) (sc : Option (List String)) : Keeps R (mintAuthz mk clock c sc) := by
  intro s hs
  unfold mintAuthz
  simp only []
  cases hm : s.g.mintToken clock c none (some ((s.g.rulesFor c).getD {})) sc "" (mk s.n c) with
  | mk x g' =>
    have hns := mintToken_not_some s.g clock c none (some ((s.g.rulesFor c).getD {})) sc "" (mk s.n c)
    rw [hm] at hns
    cases x with
    | error e =>
      rw [show g' = s.g from hns (by simp)]
      exact hs
    | ok o =>
      cases o with
      | none =>
        rw [show g' = s.g from hns (by simp)]
        exact hs
      | some t =>
        obtain ⟨_, _, _, ⟨v, scope, ty, _, _, ht⟩, rfl⟩ := mintToken_some hm
        have hx := withExpiry_root (clock := clock) (rules := s.g.rulesFor c) (t := t) (by rw [ht]; rfl)
        simp only [hx, updateLast_append]
        refine hs.snoc ⟨⟨s.g.usageRules, hs.own, ?_⟩, ⟨s.g.usageRules, hs.own, ?_⟩⟩ _
        · rw [ht]; rfl
        · rw [ht, if_pos (by simp [newToken])]; rfl

theorem keeps_mintEP (mk : Minter) (clock : Int) (c : TokenClass) (b : Token) (sc : Option (List String)) (tt : String) :
    Keeps R (mintEP mk clock c (some b) sc tt) := by
  intro s hs
  rcases mintEP_ruled mk clock c b sc tt s hs with ⟨t, he, ht, _⟩ | ⟨e, he⟩
  · rw [he]; exact hs.snoc ht _
  · rw [he]; exact hs

theorem keeps_mintOrSkip (mk : Minter) (clock : Int) (c : TokenClass) (b : Token) (tt : String) (w : Bool) :
    Keeps R (mintOrSkip mk clock c b tt w) := by
  intro s hs
  have h := keeps_mintEP mk clock c b none tt s hs
  unfold mintOrSkip
  split
  · split <;> (rename_i hm; rw [hm] at h; exact h)
  · exact hs

theorem keeps_mintIdToken (mk : Minter) (clock : Int) (b : Token) (sc : Option (List String)) (w : Bool) :
    Keeps R (mintIdToken mk clock b sc w) := by
  intro s hs
  have h := keeps_mintEP mk clock .idToken b sc "" s hs
  unfold mintIdToken
  split
  · split <;> (rename_i hm; rw [hm] at h; exact h)
  · exact hs

theorem keeps_mintRefresh (mk : Minter) (clock : Int) (b : Token) (hb : TokRuled R b) (hc : b.cls = .refreshToken) (sc : List String)
    (w : Bool) : Keeps R (mintRefresh mk clock b sc w) := by
  intro s hs
  unfold mintRefresh
  split
  · rcases mintEP_ruled mk clock .refreshToken b (some sc) "" s hs with ⟨t, he, ht, hcl⟩ | ⟨e, he⟩
    · rw [he]
      have hupd : ({ s.g with issuedToken := s.g.issuedToken ++ [t], used := s.g.used + 1 } : Grant).updateLast
          (fun r => { r with rules := b.rules }) =
          { s.g with issuedToken := s.g.issuedToken ++ [{ t with rules := b.rules }], used := s.g.used + 1 } := by
        simp [Grant.updateLast]
      simp only [hupd]
      have ht' : TokRuled R { t with rules := b.rules } := by
        refine ⟨?_, ht.ends⟩
        obtain ⟨u, h1, h2⟩ := hb.rules
        refine ⟨u, h1, ?_⟩
        rw [hc] at h2
        simp only [hcl]
        exact h2
      exact hs.snoc ht' _
    · rw [he]; exact hs
  · exact hs

theorem keeps_dpop (e : Bool) (req : TokenReq) : Keeps R (dpopStep e req) := by
  intro s hs
  unfold dpopStep
  repeat' split
  all_goals exact ⟨hs.own, hs.tokens⟩

theorem keeps_codeProcess (cfg : TokenCfg) (mk : Minter) (clock : Int) (kw : Option Bool) (client : String) (req : TokenReq)
    (code : String) : Keeps R (codeProcess cfg mk clock kw client req code) := by
  unfold codeProcess
  refine .bind ?_ ?_
  · unfold codeMint
    split
    · exact .raise _
    · split
      · exact .pure _
      · refine .bind (.ofExcept _) fun _ => .bind (keeps_dpop _ _) fun _ => .bind .get fun s => ?_
        split
        · exact .raise _
        · simp only []
          split
          · exact .raise _
          · refine .bind (.ofExcept _) fun _ => ?_
            split
            · exact .pure _
            · refine .bind (keeps_mintOrSkip _ _ _ _ _ _) fun _ => .bind (keeps_mintOrSkip _ _ _ _ _ _) fun _ => .bind (.ofExcept _) fun _ =>
                .bind (keeps_mintIdToken _ _ _ _ _) fun _ => ?_
              split <;> exact .pure _
  · intro m s hs
    unfold codeFinish
    split
    · exact hs
    · exact hs.updateToken _ _ fun _ h => h.registerUsage

theorem keeps_refreshProcess (cfg : TokenCfg) (mk : Minter) (clock : Int) (kw : Option Bool) (client : String) (req : TokenReq)
    (v : String) (s : GS) (hs : Ruled R s.g) (hcls : ∀ t, s.g.getToken v = some t → t.cls = .refreshToken) :
    Ruled R (refreshProcess cfg mk clock kw client req v s).2.g := by
  unfold refreshProcess
  cases req.clientId with
  | none => exact hs
  | some rc =>
    simp only []
    by_cases hne : client ≠ rc
    · rw [if_pos hne]; exact hs
    · rw [if_neg hne, SE.bind_apply]
      have hd : ∃ tt j, dpopStep cfg.dpopAdvertised req s = (.ok tt, ⟨{ s.g with dpopJkt := j }, s.n⟩) := by
        unfold dpopStep
        repeat' split
        · exact ⟨_, _, rfl⟩
        · exact ⟨_, s.g.dpopJkt, rfl⟩
        · exact ⟨_, s.g.dpopJkt, rfl⟩
      obtain ⟨tt, j, hd⟩ := hd
      rw [hd]
      have hs' : Ruled R ({ s.g with dpopJkt := j } : Grant) := ⟨hs.own, hs.tokens⟩
      simp only [SE.bind_apply, SE.get_apply]
      have hg : ({ s.g with dpopJkt := j } : Grant).getToken v = s.g.getToken v := rfl
      rw [hg]
      cases ht : s.g.getToken v with
      | none => exact hs'
      | some tok =>
        have hb := hs.tokens _ (getToken_mem ht).1
        have hc := hcls tok ht
        simp only []
        refine Keeps.bind (.ofExcept _) (fun _ => .bind (keeps_mintEP _ _ _ _ _ _) fun _ => ?_) ⟨_, s.n⟩ hs'
        split
        · exact .raise _
        · refine .bind (keeps_mintRefresh _ _ _ hb hc _ _) fun _ => .bind (keeps_mintIdToken _ _ _ _ _) fun _ => ?_
          split
          · exact .pure _
          · refine .bind (fun s hs => hs.updateToken _ _ fun _ h => h.registerUsage) fun _ => .bind (fun s hs => ?_) fun _ => .pure _
            unfold revokeIf
            split
            · exact hs.updateToken _ _ fun _ h => h.revoke
            · exact hs

/-- On a grant without tokens the computation mints nothing. -/
def Barren {α : Type} (m : SE GS α) : Prop := ∀ s, s.g.issuedToken = [] → (m s).2.g.issuedToken = []

theorem Barren.bind {m : SE GS α} {f : α → SE GS β} (hm : Barren m) (hf : ∀ a, Barren (f a)) : Barren (m >>= f) := by
  intro s hs
  have h := hm s hs
  rw [SE.bind_apply]
  cases hms : m s with
  | mk x s' =>
    rw [hms] at h
    cases x with
    | error e => exact h
    | ok a => exact hf a s' h

theorem Barren.getBind {k : GS → SE GS β} (hk : ∀ s, s.g.issuedToken = [] → (k s s).2.g.issuedToken = []) :
    Barren (SE.get >>= k) := by
  intro s hs
  simp only [SE.bind_apply, SE.get_apply]
  exact hk s hs

theorem barren_dpop (e : Bool) (req : TokenReq) : Barren (dpopStep e req) := by
  intro s hs
  unfold dpopStep
  repeat' split
  all_goals exact hs

theorem getToken_nil {g : Grant} (h : g.issuedToken = []) (v : String) : g.getToken v = none := by
  unfold Grant.getToken
  rw [h]
  rfl

theorem barren_codeProcess (cfg : TokenCfg) (mk : Minter) (clock : Int) (kw : Option Bool) (client : String) (req : TokenReq)
    (code : String) : Barren (codeProcess cfg mk clock kw client req code) := by
  unfold codeProcess
  refine .bind ?_ ?_
  · unfold codeMint
    split
    · exact fun _ h => h
    · split
      · exact fun _ h => h
      · refine .bind (fun _ h => h) fun _ => .bind (barren_dpop _ _) fun _ => .getBind fun s hs => ?_
        rw [getToken_nil hs]
        exact hs
  · intro m s hs
    unfold codeFinish
    split
    · exact hs
    · simp only [Grant.updateToken, hs, modifyFirst]

theorem barren_refreshProcess (cfg : TokenCfg) (mk : Minter) (clock : Int) (kw : Option Bool) (client : String) (req : TokenReq)
    (v : String) : Barren (refreshProcess cfg mk clock kw client req v) := by
  unfold refreshProcess
  split
  · exact fun _ h => h
  · split
    · exact fun _ h => h
    · refine .bind (barren_dpop _ _) fun _ => .getBind fun s hs => ?_
      rw [getToken_nil hs]
      exact hs

theorem keeps_createAuthnResponse (mk : Minter) (clock : Int) (filter : List String → List String) (req : AuthzReq) :
    Keeps R (createAuthnResponse mk clock filter req) := by
  have hif : ∀ c w, Keeps R (mintIfAsked mk clock c w) := by
    intro c w s hs
    have h := keeps_mintAuthz mk clock c none s hs
    unfold mintIfAsked
    split
    · split <;> (rename_i hm; rw [hm] at h; exact h)
    · exact hs
  have hid : ∀ sc w, Keeps R (mintIdTokenAuthz mk clock sc w) := by
    intro sc w s hs
    unfold mintIdTokenAuthz
    split
    · split
      · exact hs
      · rename_i x
        have h := keeps_mintAuthz mk clock .idToken (some x) s hs
        split <;> (rename_i hm; rw [hm] at h; exact h)
    · exact hs
  unfold createAuthnResponse
  simp only []
  split
  · exact .pure _
  · split
    · exact .raise _
    · refine .bind (hif _ _) fun _ => .bind (hif _ _) fun _ => .bind (hid _ _) fun _ => ?_
      split
      · exact .pure _
      · split <;> exact .pure _

/-- The authorization handler leaves a grant with the configured rules. -/
theorem ruled_authzCall {cfg : AuthzCfg} (hcfg : cfg.usageRules ≠ none) (claims : List String → Except Exc (Dict (Dict Json)))
    (clock : Int) (client : String) (req : AuthzReq) (hR : R (cfg.rulesOf req.clientId)) {g : Grant} (hg : WeakRuled R g) :
    Ruled R (authzCall cfg claims clock client req g).2 := by
  have htok : ∀ t ∈ g.issuedToken, TokRuled R t := by
    rcases hg with h | h
    · rw [h]; simp
    · exact h.tokens
  cases hu : cfg.usageRules with
  | none => exact absurd hu hcfg
  | some u =>
    unfold authzCall
    simp only [hu]
    cases cfg.expiresIn <;> simp only [] <;> split <;> split <;> exact ⟨hR, htok⟩

/-- All grants in the store. -/
def RuledStore (R : Rules → Prop) (st : Store) : Prop := ∀ r g, st.grantAt r = some g → WeakRuled R g

theorem RuledStore.db {N : NewP} {st st' : Store} (h : RuledStore R st) (hN : ∀ g, N.holds g → g.issuedToken = [])
    (hd : DbStep N st st') : RuledStore R st' := by
  intro r g' hg'
  rw [grantAt_iff] at hg'
  rcases hd.new r g' hg' with ⟨g, hg⟩ | h1
  · have hw := h r g (grantAt_iff.2 hg)
    rcases hd.old r g hg with h2 | h2 <;> (rw [h2] at hg'; cases hg')
    · exact hw
    · rcases hw with h3 | h3
      · exact .inl h3
      · exact .inr ⟨h3.own, h3.tokens⟩
  · exact .inl (hN _ h1)

theorem RuledStore.put {st : Store} (h : RuledStore R st) {r : Nat} {g g' : Grant} (hg : st.grantAt r = some g)
    (hg' : WeakRuled R g') : RuledStore R (st.put r (.grant g')) := by
  intro r' g1 h1
  by_cases e : r = r'
  · subst e
    rw [grantAt_put_self hg] at h1
    cases h1
    exact hg'
  · rw [grantAt_put_ne _ e] at h1
    exact h r' g1 h1

theorem RuledStore.commit {w : World} (h : RuledStore R w.st) {s : Sess} (hg : w.st.grantAt s.ref = some s.grant) (gs : GS)
    (hgs : WeakRuled R gs.g) : RuledStore R (w.commit s gs).st := by
  unfold World.commit
  simp only []
  split
  · exact h.put hg hgs
  · exact (h.put hg hgs).db (N := Nothing) (fun _ h => h.elim) (safe_aliasSid _ _ _)

theorem WeakRuled.revMono {g : Grant} (h : WeakRuled R g) {ts : List Token} (hr : RevMono g.issuedToken ts) :
    WeakRuled R { g with issuedToken := ts } := by
  rcases h with h | h
  · left
    have := hr.1
    rw [h] at this
    exact List.eq_nil_of_length_eq_zero this
  · exact .inr (h.revMono hr)

theorem WeakRuled.updateRevoke {g : Grant} (h : WeakRuled R g) (v : String) : WeakRuled R (g.updateToken v Token.revoke) := by
  rcases h with h | h
  · left
    simp only [Grant.updateToken, h, modifyFirst]
  · exact .inr (h.updateToken _ _ fun _ h => h.revoke)

theorem ruled_tokenParse (E : Env) (w : World) (h : RuledStore R w.st) (client : String) (req : TokenReq) :
    RuledStore R (tokenParse E w client req).2.st := by
  unfold tokenParse
  repeat' split
  all_goals try exact h
  unfold codeParseW
  repeat' split
  all_goals try exact h
  rename_i s hs _ res g' hp
  have hgr := sessionByToken_grantAt hs
  refine h.commit hgr _ ?_
  have hw := h _ _ hgr
  simp only []
  unfold codeParse at hp
  repeat' split at hp
  all_goals (simp only [Prod.mk.injEq] at hp; obtain ⟨_, hp⟩ := hp; subst hp)
  all_goals try exact hw
  have hrev : ∀ {g g' : Grant} {a b : String}, WeakRuled R g → g.revokeToken a b = .ok g' → WeakRuled R g' := by
    intro g g' a b hg hr
    unfold Grant.revokeToken at hr
    split at hr
    · rename_i ts hts
      cases hr
      exact hg.revMono (revokeTokensFuel_revMono _ _ _ _ _ _ hts)
    · cases hr
  exact hrev hw ‹_›

theorem ruled_tokenHelper (E : Env) {S : String → Prop} (w : World) (hwi : WInv E S w) (h : RuledStore R w.st) (kw : Option Bool)
    {req : TokenReq} (hp : req ∈ w.pool) : RuledStore R (tokenHelper E w kw req).2.st := by
  have hok := hwi.pool req hp
  unfold tokenHelper
  split
  · exact h
  · split
    · split
      · exact h
      · rename_i code _
        simp only []
        split
        · exact h
        · rename_i s hs
          have hgr := sessionByToken_grantAt hs
          have key : WeakRuled R (codeProcess E.cfg (minter E s.sid) w.now kw s.client req (spaceToPlus code) ⟨s.grant, w.n⟩).2.g := by
            rcases h _ _ hgr with h1 | h1
            · exact .inl (barren_codeProcess _ _ _ _ _ _ _ ⟨s.grant, w.n⟩ h1)
            · exact .inr (keeps_codeProcess _ _ _ _ _ _ _ ⟨s.grant, w.n⟩ h1)
          split <;> (rename_i hp; rw [hp] at key; exact h.commit hgr _ key)
    · split
      · rename_i hgt
        subst hgt
        split
        · exact h
        · rename_i v hv
          split
          · exact h
          · rename_i s hs
            have hgr := sessionByToken_grantAt hs
            have hcls : ∀ t, s.grant.getToken v = some t → t.cls = .refreshToken := by
              intro t ht
              obtain ⟨hm, hval⟩ := getToken_mem ht
              obtain ⟨i, hi⟩ := List.getElem?_of_mem hm
              obtain ⟨r, g, j, t', h1, h2, h3, h4, _⟩ := hok.refresh v (by assumption) hv
              obtain ⟨e1, e2⟩ := hwi.core.uniq _ _ _ _ _ _ _ _ h1 hgr h2 hi (h3.trans hval.symm)
              subst e1 e2
              have h1' : w.st.grantAt s.ref = some g := h1
              rw [hgr] at h1'
              cases h1'
              rw [hi] at h2
              cases h2
              exact h4
            have key : WeakRuled R (refreshProcess E.cfg (minter E s.sid) w.now kw s.client req v ⟨s.grant, w.n⟩).2.g := by
              rcases h _ _ hgr with h1 | h1
              · exact .inl (barren_refreshProcess _ _ _ _ _ _ _ ⟨s.grant, w.n⟩ h1)
              · exact .inr (keeps_refreshProcess _ _ _ _ _ _ _ ⟨s.grant, w.n⟩ h1 hcls)
            split <;> (rename_i hp; rw [hp] at key; exact h.commit hgr _ key)
      · exact h

theorem ruled_tokenProcess (E : Env) {S : String → Prop} (w : World) (hwi : WInv E S w) (h : RuledStore R w.st) (kw : Option Bool)
    {req : TokenReq} (hp : req ∈ w.pool) : RuledStore R (tokenProcess E w kw req).2.st := by
  have h := ruled_tokenHelper E w hwi h kw hp
  unfold tokenProcess
  cases hh : tokenHelper E w kw req with
  | mk res w' =>
    rw [hh] at h
    simp only [] at h
    repeat' split
    all_goals first
      | exact h
      | (simp_all)

theorem ruled_authzPart2 (E : Env) (hE : E.authz.usageRules ≠ none) (w : World) (h : RuledStore R w.st) (sid : String) (req : AuthzReq)
    (hR : R (E.authz.rulesOf req.clientId)) : RuledStore R (authzPart2 E w sid req).st := by
  have key : RuledStore R (postAuthentication E w sid req).2.st := by
    unfold postAuthentication
    split
    · exact h
    · rename_i s hs
      have hg := (sessionOf_spec hs).1
      have hac := ruled_authzCall (R := R) hE (E.claims sid s.grant) w.now s.client req hR (h _ _ hg)
      split
      · rename_i hp
        rw [hp] at hac
        exact h.commit hg _ (.inr hac)
      · rename_i g1 hp
        rw [hp] at hac
        split
        · exact h.commit hg _ (.inr hac)
        · have hk := keeps_createAuthnResponse (R := R) (minter E sid) w.now (E.filter s.client) req ⟨g1, w.n⟩ hac
          split <;> (rename_i hq; rw [hq] at hk; exact h.commit hg _ (.inr hk))
  unfold authzPart2
  split
  · rename_i s1 r1 b1 w' hp
    rw [hp] at key
    split <;> exact key
  · rename_i w' _ hp
    rw [hp] at key
    exact key

/-- One operation. -/
theorem ruled_step {E : Env} {S : String → Prop} {w : World} (hE : E.authz.usageRules ≠ none) (hwi : WInv E S w)
    (h : RuledStore R w.st) (op : WOp) (hR : ∀ sid req, op = .authorize sid req → R (E.authz.rulesOf req.clientId)) :
    RuledStore R (step E w op).st := by
  cases op with
  | tick d => exact h
  | login u c req ev => exact h.db (N := NoTokens) (fun _ h => h) (safe_createSession u c _ rfl w.st)
  | again u c req ev => exact h.db (N := NoTokens) (fun _ h => h) (safe_createGrant u c _ rfl w.st)
  | addGrant u c g => exact h.db (N := NoTokens) (fun _ h => h) (safe_addGrant u c _ rfl w.st)
  | authorize sid req => exact ruled_authzPart2 E hE w h sid req (hR _ _ rfl)
  | parse client req =>
    have hn := ruled_tokenParse E w h client { req with clientId := some client }
    have hst : step E w (.parse client req) = (match tokenParse E w client { req with clientId := some client } with
      | (.ok (.req r), w') => { w' with pool := w'.pool ++ [r] }
      | (_, w') => w') := rfl
    rw [hst]
    split <;> (rename_i hp; rw [hp] at hn; exact hn)
  | process i kw =>
    have hst : step E w (.process i kw) = (match w.pool[i]? with
      | none => w
      | some req => (tokenProcess E w kw req).2) := rfl
    rw [hst]
    split
    · exact h
    · rename_i hp
      exact ruled_tokenProcess E w hwi h kw (List.mem_of_getElem? hp)
  | revokeToken sid v rec =>
    show RuledStore R (revokeTokenW E w sid v rec).st
    unfold revokeTokenW
    split
    · exact h
    · rename_i s hs
      split
      · exact h
      · have hg := (sessionOf_spec hs).1
        have hw := (h _ _ hg).updateRevoke v
        refine h.put hg ?_
        split
        · split
          · rename_i ts hts
            exact hw.revMono (revokeDependentFuel_revMono _ _ _ _ hts)
          · exact hw
        · exact hw
  | revokeGrant sid =>
    show RuledStore R (revokeGrantW E w sid).st
    unfold revokeGrantW
    split
    · exact h
    · split
      · exact h
      · exact h.db (N := Nothing) (fun _ h => h.elim) (safe_revokeGrant _ _)
  | revokeClientSession sid =>
    show RuledStore R (revokeClientSessionW E w sid).st
    unfold revokeClientSessionW
    split
    · exact h.db (N := Nothing) (fun _ h => h.elim) (safe_revokeClientSession _ _ _)
    · exact h.db (N := Nothing) (fun _ h => h.elim) (safe_revokeClientSession _ _ _)
    · exact h
  | removeSession sid =>
    show RuledStore R (removeSessionW E w sid).st
    unfold removeSessionW
    split
    · exact h.db (N := Nothing) (fun _ h => h.elim) (safe_removeSession _ _ _ _)
    · exact h

end

/-- All histories from a state whose grants follow the rules. -/
theorem ruled_run {R : Rules → Prop} {E : Env} (hE : E.authz.usageRules ≠ none) (ops : List WOp)
    (hR : ∀ sid req, .authorize sid req ∈ ops → R (E.authz.rulesOf req.clientId)) :
    ∀ {w : World}, WInv E (fun _ => True) w → RuledStore R w.st → RuledStore R (run E w ops).st := by
  induction ops with
  | nil => intro w _ h; exact h
  | cons op rest ih =>
    intro w hwi h
    obtain ⟨_, hw', _⟩ := step_spec hwi (sidClosed_true E) op (fun _ _ _ => trivial)
    exact ih (fun sid req hm => hR sid req (List.mem_cons_of_mem _ hm)) hw'
      (ruled_step hE hwi h op (fun sid req he => hR sid req (he ▸ List.mem_cons_self)))

end OidcOp
