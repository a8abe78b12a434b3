/-
The token endpoint at work on a live token: nothing but the keys can stop it.
-/
import Verif.Lemmas.Steps
import Verif.Props.RefreshIssue

namespace OidcOp
open Spec

/-- The grant is active, and stays so whatever is minted from it. -/
structure OpenGrant (g : Grant) (clock : Int) : Prop where
  active : g.isActive clock = true
  unlimited : g.maxUsage = none

/-- The grant after a token has been added. -/
def Grant.plus (g : Grant) (t : Token) : Grant :=
  { g with issuedToken := g.issuedToken ++ [t], used := g.used + 1 }

theorem OpenGrant.of_item {g g' : Grant} {clock : Int} (h : OpenGrant g clock) (hm : g'.maxUsage = g.maxUsage)
    (hr : g'.revoked = g.revoked) (hn : g'.notBefore = g.notBefore) (he : g'.expiresAt = g.expiresAt) :
    OpenGrant g' clock := by
  refine ⟨?_, hm.trans h.unlimited⟩
  have h1 := h.active
  have h2 := h.unlimited
  unfold Grant.isActive Grant.item Item.isActive Item.maxUsageReached at *
  simp only [hm, hr, hn, he, h2] at *
  exact h1

theorem OpenGrant.plus {g : Grant} {clock : Int} (h : OpenGrant g clock) (t : Token) : OpenGrant (g.plus t) clock :=
  h.of_item rfl rfl rfl rfl

/-- The token that the endpoint makes. -/
def madeToken (clock : Int) (g : Grant) (c : TokenClass) (b : Token) (v : String) (sc : List String) (tt : String) : Token :=
  withExpiry clock (expIn (g.rulesFor c)) (newToken clock c v (some b.value) (g.rulesFor c) sc
    (if c = .accessToken ∧ tt ≠ "" then tt else "bearer"))

theorem updateLast_snoc (g : Grant) (l : List Token) (t t' : Token) (k : Nat) :
    ({ g with issuedToken := l ++ [t], used := k } : Grant).updateLast (fun _ => t') =
      { g with issuedToken := l ++ [t'], used := k } := by
  unfold Grant.updateLast
  simp

theorem or_self {α : Type} (o : Option α) : o.or o = o := by cases o <;> rfl

theorem mintEP_ok {mk : Minter} {clock : Int} {c : TokenClass} {b : Token} {scope : Option (List String)} {tt v : String}
    {sc : List String} {s : GS} (ho : OpenGrant s.g clock) (hb : b.isActive clock = true)
    (hs : b.supportsMintingOf c = true) (hk : c.known = true)
    (hsc : scope = some sc ∨ (scope = none ∧ s.g.findScopeTok b = .ok sc)) (hv : mk s.n c = .ok v) :
    mintEP mk clock c (some b) scope tt s =
      (.ok (madeToken clock s.g c b v sc tt), ⟨s.g.plus (madeToken clock s.g c b v sc tt), s.n + 1⟩) := by
  have hm : s.g.mintToken clock c (some b) (s.g.rulesFor c) scope tt (mk s.n c) =
      (.ok (some (newToken clock c v (some b.value) (s.g.rulesFor c) sc (if c = .accessToken ∧ tt ≠ "" then tt else "bearer"))),
        s.g.plus (newToken clock c v (some b.value) (s.g.rulesFor c) sc (if c = .accessToken ∧ tt ≠ "" then tt else "bearer"))) := by
    unfold Grant.mintToken
    rcases hsc with h | ⟨h, h'⟩
    · subst h
      simp only [ho.active, hs, hb, hk, hv, or_self, Bool.true_eq_false, if_false]
      rfl
    · subst h
      simp only [ho.active, hs, hb, hk, hv, h', or_self, Bool.true_eq_false, if_false]
      rfl
  unfold mintEP
  simp only [hm]
  unfold Grant.plus madeToken
  rw [updateLast_snoc]

theorem mintOrSkip_ok {mk : Minter} {clock : Int} {c : TokenClass} {b : Token} {tt v : String} {sc : List String} {s : GS}
    (ho : OpenGrant s.g clock) (hb : b.isActive clock = true) (hs : b.supportsMintingOf c = true) (hk : c.known = true)
    (hsc : s.g.findScopeTok b = .ok sc) (hv : mk s.n c = .ok v) :
    mintOrSkip mk clock c b tt true s =
      (.ok (some (madeToken clock s.g c b v sc tt)), ⟨s.g.plus (madeToken clock s.g c b v sc tt), s.n + 1⟩) := by
  unfold mintOrSkip
  simp only [if_true, mintEP_ok ho hb hs hk (.inr ⟨rfl, hsc⟩) hv]

theorem mintIdToken_ok {mk : Minter} {clock : Int} {b : Token} {v : String} {scope : Option (List String)} {sc : List String}
    {s : GS} (ho : OpenGrant s.g clock) (hb : b.isActive clock = true) (hs : b.supportsMintingOf .idToken = true)
    (hsc : scope = some sc ∨ (scope = none ∧ s.g.findScopeTok b = .ok sc)) (hv : mk s.n .idToken = .ok v) :
    mintIdToken mk clock b scope true s =
      (.ok (some (some v)), ⟨s.g.plus (madeToken clock s.g .idToken b v sc ""), s.n + 1⟩) := by
  unfold mintIdToken
  simp only [if_true, mintEP_ok ho hb hs rfl hsc hv]
  have : (madeToken clock s.g .idToken b v sc "").value = v := by
    unfold madeToken withExpiry
    split
    · split <;> rfl
    · rfl
  rw [this]

theorem madeToken_fields (clock : Int) (g : Grant) (c : TokenClass) (b : Token) (v : String) (sc : List String) (tt : String) :
    (madeToken clock g c b v sc tt).cls = c ∧ (madeToken clock g c b v sc tt).value = v ∧
    (madeToken clock g c b v sc tt).basedOn = some b.value ∧ (madeToken clock g c b v sc tt).scope = sc ∧
    (madeToken clock g c b v sc tt).used = 0 ∧ (madeToken clock g c b v sc tt).revoked = false ∧
    (madeToken clock g c b v sc tt).notBefore = 0 ∧
    (madeToken clock g c b v sc tt).expiresAt = endOf clock (g.rulesFor c) := by
  unfold madeToken withExpiry endOf
  cases expIn (g.rulesFor c) with
  | none => exact ⟨rfl, rfl, rfl, rfl, rfl, rfl, rfl, rfl⟩
  | some x =>
    simp only []
    split <;> exact ⟨rfl, rfl, rfl, rfl, rfl, rfl, rfl, rfl⟩

theorem madeToken_rules (clock : Int) (g : Grant) (c : TokenClass) (b : Token) (v : String) (sc : List String) (tt : String) :
    (madeToken clock g c b v sc tt).rules = setDefaults c ((g.rulesFor c).getD {}) := by
  unfold madeToken withExpiry
  cases expIn (g.rulesFor c) with
  | none => rfl
  | some x => simp only []; split <;> rfl

theorem mintRefresh_ok {mk : Minter} {clock : Int} {tok : Token} {v : String} {sc : List String} {s : GS}
    (ho : OpenGrant s.g clock) (hb : tok.isActive clock = true) (hs : tok.supportsMintingOf .refreshToken = true)
    (hv : mk s.n .refreshToken = .ok v) :
    mintRefresh mk clock tok sc true s =
      (.ok (some v), ⟨s.g.plus { madeToken clock s.g .refreshToken tok v sc "" with rules := tok.rules }, s.n + 1⟩) := by
  unfold mintRefresh
  simp only [if_true, mintEP_ok ho hb hs rfl (.inl rfl) hv, (madeToken_fields clock s.g .refreshToken tok v sc "").2.1]
  unfold Grant.plus Grant.updateLast
  simp [(madeToken_fields clock s.g .refreshToken tok v sc "").2.1]

/-- The grant in which the key of the request is kept. -/
def dpopGrant (enabled : Bool) (req : TokenReq) (g : Grant) : Grant :=
  match enabled, truthyStr req.dpopJkt with
  | true, some j => { g with dpopJkt := some j }
  | _, _ => g

def dpopKind (enabled : Bool) (req : TokenReq) : String :=
  match enabled, truthyStr req.dpopJkt with
  | true, some _ => "DPoP"
  | _, _ => "Bearer"

theorem dpopStep_eq (en : Bool) (req : TokenReq) (s : GS) :
    dpopStep en req s = (.ok (dpopKind en req), ⟨dpopGrant en req s.g, s.n⟩) := by
  unfold dpopStep dpopKind dpopGrant
  cases en with
  | false => rfl
  | true =>
    simp only [if_true]
    cases truthyStr req.dpopJkt <;> rfl

theorem dpopGrant_fields (en : Bool) (req : TokenReq) (g : Grant) :
    ∃ j, dpopGrant en req g = { g with dpopJkt := j } := by
  unfold dpopGrant
  split
  · exact ⟨_, rfl⟩
  · exact ⟨g.dpopJkt, rfl⟩

theorem findScopeFuel_jkt (g : Grant) (j : Option String) (n : Nat) (t : Token) :
    Grant.findScopeFuel { g with dpopJkt := j } n t = g.findScopeFuel n t := by
  induction n generalizing t with
  | zero => rfl
  | succ n ih => unfold Grant.findScopeFuel; simp only [ih]; rfl

theorem findScope_jkt (g : Grant) (j : Option String) (b : Option String) :
    Grant.findScope { g with dpopJkt := j } b = g.findScope b := by
  unfold Grant.findScope Grant.findScopeTok
  simp only [findScopeFuel_jkt]
  rfl

/-- What the end of a refresh does to the tokens. -/
def afterRefresh (rev : Bool) (v : String) (l : List Token) : List Token :=
  if rev then modifyFirst v Token.revoke (modifyFirst v Token.registerUsage l) else modifyFirst v Token.registerUsage l

theorem revokeIf_eq (b : Bool) (v : String) (s : GS) :
    revokeIf b v s = (.ok (), if b then { s with g := s.g.updateToken v Token.revoke } else s) := by
  unfold revokeIf; cases b <;> rfl

theorem refreshProcess_assemble {cfg : TokenCfg} {mk : Minter} {clock : Int} {kw : Option Bool} {client v : String}
    {req : TokenReq} {s0 s2 s3 s4 : GS} {tok t1 : Token} {mints : List TokenClass} {found : List String}
    {rt : Option String} {idv : Option String} {g0 : Grant} {n : Nat} (hq : req.clientId = some client)
    (hd : dpopGrant cfg.dpopAdvertised req s0.g = g0) (hn : s0.n = n)
    (hget : g0.getToken v = some tok) (hfs : g0.findScope tok.basedOn = .ok found)
    (h1 : mintEP mk clock .accessToken (some tok) (some (req.scope.getD found)) (dpopKind cfg.dpopAdvertised req) ⟨g0, n⟩ = (.ok t1, s2))
    (hm : tok.rules.supportsMinting = some mints)
    (h2 : mintRefresh mk clock tok (req.scope.getD found)
      (decide (TokenClass.refreshToken ∈ mints) && issueRefresh cfg.flavor kw (req.scope.getD found)) s2 = (.ok rt, s3))
    (h3 : mintIdToken mk clock tok (some (req.scope.getD found))
      (decide (cfg.flavor = .oidc ∧ TokenClass.idToken ∈ mints ∧ "openid" ∈ req.scope.getD found)) s3 = (.ok (some idv), s4)) :
    refreshProcess cfg mk clock kw client req v s0 =
      (.ok (.resp { tokenType := dpopKind cfg.dpopAdvertised req, scope := req.scope.getD found, accessToken := some t1.value, expiresIn := expiresInOf clock t1, refreshToken := rt, idToken := idv }),
        ⟨{ s4.g with issuedToken := afterRefresh (revokeRefreshFor cfg req.clientId) v s4.g.issuedToken }, s4.n⟩) := by
  unfold refreshProcess
  rw [hq]
  simp only [ne_eq, not_true_eq_false, if_false, SE.bind_apply, dpopStep_eq, hd, hn, SE.get_apply, hget, SE.ofExcept_apply, hfs, h1, hm,
    h2, h3, SE.modify_apply, revokeIf_eq]
  unfold afterRefresh
  cases revokeRefreshFor cfg (some client) <;> rfl

/-- The grant after some tokens have been added. -/
def Grant.plusAll (g : Grant) (l : List Token) : Grant :=
  { g with issuedToken := g.issuedToken ++ l, used := g.used + l.length }

theorem plus_eq (g : Grant) (t : Token) : g.plus t = g.plusAll [t] := rfl

theorem plusAll_nil (g : Grant) : g.plusAll [] = g := by unfold Grant.plusAll; simp

theorem plusAll_plusAll (g : Grant) (l l' : List Token) : (g.plusAll l).plusAll l' = g.plusAll (l ++ l') := by
  unfold Grant.plusAll; simp [Nat.add_assoc]

theorem OpenGrant.plusAll {g : Grant} {clock : Int} (h : OpenGrant g clock) (l : List Token) : OpenGrant (g.plusAll l) clock :=
  h.of_item rfl rfl rfl rfl

theorem madeToken_plusAll (clock : Int) (g : Grant) (l : List Token) (c : TokenClass) (b : Token) (v : String)
    (sc : List String) (tt : String) : madeToken clock (g.plusAll l) c b v sc tt = madeToken clock g c b v sc tt := rfl

theorem mintRefresh_if {mk : Minter} {clock : Int} {tok : Token} {v : String} {sc : List String} {s : GS} (b : Bool)
    (ho : OpenGrant s.g clock) (hb : tok.isActive clock = true) (hs : b = true → tok.supportsMintingOf .refreshToken = true)
    (hv : mk s.n .refreshToken = .ok v) :
    mintRefresh mk clock tok sc b s =
      (.ok (if b then some v else none),
        ⟨s.g.plusAll (if b then [{ madeToken clock s.g .refreshToken tok v sc "" with rules := tok.rules }] else []), s.n + b.toNat⟩) := by
  cases b with
  | false => simp [mintRefresh, plusAll_nil]
  | true => rw [mintRefresh_ok ho hb (hs rfl) hv]; rfl

theorem mintIdToken_if {mk : Minter} {clock : Int} {b : Token} {v : String} {scope : Option (List String)} {sc : List String}
    {s : GS} (w : Bool) (ho : OpenGrant s.g clock) (hb : b.isActive clock = true) (hs : w = true → b.supportsMintingOf .idToken = true)
    (hsc : scope = some sc ∨ (scope = none ∧ s.g.findScopeTok b = .ok sc)) (hv : mk s.n .idToken = .ok v) :
    mintIdToken mk clock b scope w s =
      (.ok (some (if w then some v else none)),
        ⟨s.g.plusAll (if w then [madeToken clock s.g .idToken b v sc ""] else []), s.n + w.toNat⟩) := by
  cases w with
  | false => simp [mintIdToken, plusAll_nil]
  | true => rw [mintIdToken_ok ho hb (hs rfl) hsc hv]; rfl

theorem mintOrSkip_if {mk : Minter} {clock : Int} {c : TokenClass} {b : Token} {tt v : String} {sc : List String} {s : GS}
    (w : Bool) (ho : OpenGrant s.g clock) (hb : b.isActive clock = true) (hs : w = true → b.supportsMintingOf c = true)
    (hk : c.known = true) (hsc : s.g.findScopeTok b = .ok sc) (hv : mk s.n c = .ok v) :
    mintOrSkip mk clock c b tt w s =
      (.ok (if w then some (madeToken clock s.g c b v sc tt) else none),
        ⟨s.g.plusAll (if w then [madeToken clock s.g c b v sc tt] else []), s.n + w.toNat⟩) := by
  cases w with
  | false => simp [mintOrSkip, plusAll_nil]
  | true => rw [mintOrSkip_ok ho hb (hs rfl) hk hsc hv]; rfl

/-- Whether a refresh gives a new refresh token. -/
def refreshAgain (cfg : TokenCfg) (kw : Option Bool) (mints : List TokenClass) (sc : List String) : Bool :=
  decide (TokenClass.refreshToken ∈ mints) && issueRefresh cfg.flavor kw sc

/-- Whether a refresh gives an ID token. -/
def refreshIdt (cfg : TokenCfg) (mints : List TokenClass) (sc : List String) : Bool :=
  decide (cfg.flavor = .oidc ∧ TokenClass.idToken ∈ mints ∧ "openid" ∈ sc)

/-- The refresh token that a refresh gives. -/
def nextRefresh (clock : Int) (g : Grant) (tok : Token) (v : String) (sc : List String) : Token :=
  { madeToken clock g .refreshToken tok v sc "" with rules := tok.rules }

/-- A refresh with a live token goes through. -/
theorem refreshProcess_ok {cfg : TokenCfg} {mk : Minter} {val : Nat → TokenClass → String} {clock : Int} {kw : Option Bool}
    {client v : String} {req : TokenReq} {g : Grant} {n : Nat} {tok : Token} {mints : List TokenClass} {found sc : List String}
    (hq : req.clientId = some client) (hget : g.getToken v = some tok) (ho : OpenGrant g clock)
    (ha : tok.isActive clock = true) (hm : tok.rules.supportsMinting = some mints) (hat : TokenClass.accessToken ∈ mints)
    (hfs : g.findScope tok.basedOn = .ok found) (hsc : req.scope.getD found = sc)
    (hmk : ∀ k c, n ≤ k → c.known = true → mk k c = .ok (val k c)) :
    ∃ (r : TokenResp) (gs : GS) (t1 : Token) (idt : List Token),
      refreshProcess cfg mk clock kw client req v ⟨g, n⟩ = (.ok (.resp r), gs) ∧
      r.accessToken = some (val n .accessToken) ∧ r.scope = sc ∧
      r.refreshToken = (if refreshAgain cfg kw mints sc then some (val (n + 1) .refreshToken) else none) ∧
      r.idToken.isSome = refreshIdt cfg mints sc ∧
      gs.g.issuedToken = afterRefresh (revokeRefreshFor cfg req.clientId) v (g.issuedToken ++ t1 ::
        ((if refreshAgain cfg kw mints sc then [nextRefresh clock g tok (val (n + 1) .refreshToken) sc] else []) ++ idt)) ∧
      t1.value = val n .accessToken ∧ t1.basedOn = some v ∧ (∀ t ∈ idt, t.cls = .idToken) ∧ n < gs.n ∧
      gs.g = { g with dpopJkt := gs.g.dpopJkt, issuedToken := gs.g.issuedToken, used := gs.g.used } ∧
      t1.cls = .accessToken ∧ t1.used = 0 ∧ t1.revoked = false ∧ t1.notBefore = 0 ∧
      t1.expiresAt = endOf clock (g.rulesFor .accessToken) ∧ t1.rules = (g.rulesFor .accessToken).getD {} := by
  have hv : tok.value = v := (getToken_mem hget).2
  have sup : ∀ c, c ∈ mints → tok.supportsMintingOf c = true := by
    intro c hc; unfold Token.supportsMintingOf; rw [hm]; simpa using hc
  obtain ⟨j, hj⟩ := dpopGrant_fields cfg.dpopAdvertised req g
  have ho0 : OpenGrant (dpopGrant cfg.dpopAdvertised req g) clock := by rw [hj]; exact ho.of_item rfl rfl rfl rfl
  have hget0 : (dpopGrant cfg.dpopAdvertised req g).getToken v = some tok := by rw [hj]; exact hget
  have hfs0 : (dpopGrant cfg.dpopAdvertised req g).findScope tok.basedOn = .ok found := by
    rw [hj, findScope_jkt]; exact hfs
  have hru : ∀ c, (dpopGrant cfg.dpopAdvertised req g).rulesFor c = g.rulesFor c := by intro c; rw [hj]; rfl
  have hmade : ∀ c b x sc tt, madeToken clock (dpopGrant cfg.dpopAdvertised req g) c b x sc tt = madeToken clock g c b x sc tt := by
    intro c b x sc tt; unfold madeToken; rw [hru]
  generalize hgg : dpopGrant cfg.dpopAdvertised req g = g0 at *
  have hrb : refreshAgain cfg kw mints sc = true → tok.supportsMintingOf .refreshToken = true := by
    intro h; refine sup _ ?_; unfold refreshAgain at h; simp only [Bool.and_eq_true, decide_eq_true_eq] at h; exact h.1
  have hib : refreshIdt cfg mints sc = true → tok.supportsMintingOf .idToken = true := by
    intro h; refine sup _ ?_; unfold refreshIdt at h; simp only [decide_eq_true_eq] at h; exact h.2.1
  have h1 := mintEP_ok (mk := mk) (clock := clock) (c := .accessToken) (b := tok) (scope := some sc)
    (tt := dpopKind cfg.dpopAdvertised req) (s := ⟨g0, n⟩) ho0 ha (sup _ hat) rfl (.inl rfl) (hmk n _ (Nat.le_refl _) rfl)
  rw [hmade, plus_eq] at h1
  have hr1 : (madeToken clock g .accessToken tok (val n .accessToken) sc (dpopKind cfg.dpopAdvertised req)).rules =
      (g.rulesFor .accessToken).getD {} := madeToken_rules ..
  have hf1 := madeToken_fields clock g .accessToken tok (val n .accessToken) sc (dpopKind cfg.dpopAdvertised req)
  generalize madeToken clock g .accessToken tok (val n .accessToken) sc (dpopKind cfg.dpopAdvertised req) = t1 at *
  have h2 := mintRefresh_if (mk := mk) (clock := clock) (tok := tok) (sc := sc) (s := ⟨g0.plusAll [t1], n + 1⟩)
    (refreshAgain cfg kw mints sc) (ho0.plusAll _) ha hrb (hmk (n + 1) _ (by omega) rfl)
  rw [madeToken_plusAll, hmade] at h2
  have h3 := mintIdToken_if (mk := mk) (clock := clock) (b := tok) (scope := some sc)
    (s := ⟨(g0.plusAll [t1]).plusAll (if refreshAgain cfg kw mints sc then [nextRefresh clock g tok (val (n + 1) .refreshToken) sc] else []),
      n + 1 + (refreshAgain cfg kw mints sc).toNat⟩)
    (refreshIdt cfg mints sc) ((ho0.plusAll _).plusAll _) ha hib (.inl rfl) (hmk _ _ (by simp only []; omega) rfl)
  have := refreshProcess_assemble (kw := kw) (s0 := ⟨g, n⟩) hq hgg rfl hget0 hfs0 (by rw [hsc]; exact h1) hm
    (by rw [hsc]; exact h2) (by rw [hsc]; exact h3)
  refine ⟨_, _, t1, (if refreshIdt cfg mints sc then
    [madeToken clock g0 .idToken tok (val (n + 1 + (refreshAgain cfg kw mints sc).toNat) .idToken) sc ""] else []), this, congrArg some hf1.2.1, hsc, rfl, ?_, ?_, hf1.2.1, hf1.2.2.1.trans (by rw [hv]), ?_, ?_, ?_,
    hf1.1, hf1.2.2.2.2.1, hf1.2.2.2.2.2.1, hf1.2.2.2.2.2.2.1, hf1.2.2.2.2.2.2.2, hr1⟩
  · cases refreshIdt cfg mints sc <;> rfl
  · show afterRefresh _ v (((g0.plusAll [t1]).plusAll _).plusAll _).issuedToken = _
    rw [plusAll_plusAll, plusAll_plusAll]
    show afterRefresh _ v (g0.issuedToken ++ _) = _
    rw [hj]
    rfl
  · intro t ht
    split at ht
    · simp only [List.mem_singleton] at ht
      rw [ht]
      exact (madeToken_fields ..).1
    · cases ht
  · show n < n + 1 + _ + _
    omega
  · rw [hj]; rfl

/-! ### Codes -/

theorem findScopeFuel_plusAll {g : Grant} (hanc : Ancestry g.issuedToken) (l : List Token) (fuel i : Nat) (t : Token)
    (ht : g.issuedToken[i]? = some t) (hf : i < fuel) : ∃ sc, (g.plusAll l).findScopeFuel fuel t = .ok sc := by
  induction fuel generalizing i t with
  | zero => omega
  | succ n ih =>
    unfold Grant.findScopeFuel
    split
    · exact ⟨_, rfl⟩
    · split
      · exact ⟨_, rfl⟩
      · rename_i v hv
        split
        · exact ⟨_, rfl⟩
        · obtain ⟨j, p, hj, hp, hpv⟩ := hanc.earlier i t v ht hv
          have hget : (g.plusAll l).getToken v = some p := by
            have h1 : g.getToken p.value = some p := (getToken_eq_some_iff hanc.distinct _ _).2 ⟨List.mem_of_getElem? hp, rfl⟩
            rw [hpv] at h1
            unfold Grant.getToken Grant.plusAll at *
            simp only [] at *
            rw [List.find?_append, h1]
            rfl
          rw [hget]
          exact ih j p hp (by omega)

theorem findScopeTok_plusAll {g : Grant} (hanc : Ancestry g.issuedToken) (l : List Token) {i : Nat} {t : Token}
    (ht : g.issuedToken[i]? = some t) : ∃ sc, (g.plusAll l).findScopeTok t = .ok sc := by
  have hlt := (List.getElem?_eq_some_iff.1 ht).1
  refine findScopeFuel_plusAll hanc l _ i t ht ?_
  unfold Grant.plusAll
  simp only [List.length_append]
  omega

/-- Whether a code gives a refresh token. -/
def codeRefresh (cfg : TokenCfg) (kw : Option Bool) (mints : List TokenClass) (scope supported : List String) : Bool :=
  decide (issueRefresh cfg.flavor kw scope = true ∧ TokenClass.refreshToken ∈ mints ∧ "refresh_token" ∈ supported)

theorem codeProcess_assemble {cfg : TokenCfg} {mk : Minter} {clock : Int} {kw : Option Bool} {client code : String}
    {req : TokenReq} {s0 s2 s3 s4 : GS} {b t1 : Token} {mints : List TokenClass} {supported : List String} {ar : AuthzReq}
    {rt : Option Token} {idv : Option String} {g0 : Grant} {n : Nat} {iw : Bool} (hq : req.clientId = some client)
    (hsup : grantTypesFor cfg client = .ok supported)
    (hd : dpopGrant (cfg.flavor = .oidc && cfg.dpopEnabled) req s0.g = g0) (hn : s0.n = n)
    (hget : g0.getToken code = some b) (har : g0.authzReq = some ar) (hred : redirectCheck ar req = .ok true)
    (hm : b.rules.supportsMinting.getD [] = mints)
    (h1 : mintOrSkip mk clock .accessToken b (if cfg.flavor = .oidc then dpopKind (cfg.flavor = .oidc && cfg.dpopEnabled) req else "")
      (decide (TokenClass.accessToken ∈ mints)) ⟨g0, n⟩ = (.ok (some t1), s2))
    (h2 : mintOrSkip mk clock .refreshToken b "" (codeRefresh cfg kw mints g0.scope supported) s2 = (.ok rt, s3))
    (hiw : idTokenWanted cfg.flavor ar mints = .ok iw)
    (h3 : mintIdToken mk clock b none iw s3 = (.ok (some idv), s4)) :
    codeProcess cfg mk clock kw client req code s0 =
      (.ok (.resp { tokenType := dpopKind (cfg.flavor = .oidc && cfg.dpopEnabled) req, scope := g0.scope, accessToken := some t1.value, expiresIn := expiresInOf clock t1, refreshToken := rt.map Token.value, idToken := idv }),
        ⟨s4.g.updateToken code Token.registerUsage, s4.n⟩) := by
  unfold codeProcess codeMint
  rw [hq]
  unfold codeRefresh at h2
  simp only [ne_eq, not_true_eq_false, if_false, SE.bind_apply, dpopStep_eq, hd, hn, SE.get_apply, hget, SE.ofExcept_apply, hsup,
    har, hred, Bool.true_eq_false, hm, h1, h2, hiw, h3]
  rfl

/-- A code that is live goes through. -/
theorem codeProcess_ok {cfg : TokenCfg} {mk : Minter} {val : Nat → TokenClass → String} {clock : Int} {kw : Option Bool}
    {client code : String} {req : TokenReq} {g : Grant} {n i : Nat} {b : Token} {mints : List TokenClass}
    {supported : List String} {ar : AuthzReq} {iw : Bool}
    (hq : req.clientId = some client) (hsup : grantTypesFor cfg client = .ok supported) (hanc : Ancestry g.issuedToken)
    (hi : g.issuedToken[i]? = some b) (hv : b.value = code) (ho : OpenGrant g clock) (ha : b.isActive clock = true)
    (hm : b.rules.supportsMinting = some mints) (hat : TokenClass.accessToken ∈ mints)
    (har : g.authzReq = some ar) (hred : redirectCheck ar req = .ok true) (hiw : idTokenWanted cfg.flavor ar mints = .ok iw)
    (hmk : ∀ k c, n ≤ k → c.known = true → mk k c = .ok (val k c)) :
    ∃ (r : TokenResp) (gs : GS) (new : List Token),
      codeProcess cfg mk clock kw client req code ⟨g, n⟩ = (.ok (.resp r), gs) ∧
      r.accessToken = some (val n .accessToken) ∧ r.scope = g.scope ∧
      r.refreshToken = (if codeRefresh cfg kw mints g.scope supported then some (val (n + 1) .refreshToken) else none) ∧
      r.idToken.isSome = iw ∧ (∃ t1 rest, new = t1 :: rest ∧ t1.cls = .accessToken ∧ t1.value = val n .accessToken ∧ t1.used = 0 ∧
        t1.revoked = false ∧ t1.notBefore = 0 ∧ t1.expiresAt = endOf clock (g.rulesFor .accessToken) ∧
        t1.rules = (g.rulesFor .accessToken).getD {}) ∧
      gs.g = ({ g with dpopJkt := gs.g.dpopJkt, issuedToken := g.issuedToken ++ new, used := gs.g.used } : Grant).updateToken
        code Token.registerUsage ∧ n < gs.n ∧
      (codeRefresh cfg kw mints g.scope supported = true → ∃ t2 ∈ new, t2.cls = .refreshToken ∧ t2.value = val (n + 1) .refreshToken ∧
        t2.basedOn = some b.value ∧ (b.scope ≠ [] → t2.scope = b.scope) ∧ t2.used = 0 ∧ t2.revoked = false ∧ t2.notBefore = 0 ∧
        t2.expiresAt = endOf clock (g.rulesFor .refreshToken) ∧
        t2.rules = setDefaults .refreshToken ((g.rulesFor .refreshToken).getD {})) := by
  have sup : ∀ c, c ∈ mints → b.supportsMintingOf c = true := by
    intro c hc; unfold Token.supportsMintingOf; rw [hm]; simpa using hc
  obtain ⟨j, hj⟩ := dpopGrant_fields (cfg.flavor = .oidc && cfg.dpopEnabled) req g
  have ho0 : OpenGrant (dpopGrant (cfg.flavor = .oidc && cfg.dpopEnabled) req g) clock := by rw [hj]; exact ho.of_item rfl rfl rfl rfl
  have hget0 : (dpopGrant (cfg.flavor = .oidc && cfg.dpopEnabled) req g).getToken code = some b := by
    rw [hj, ← hv]
    exact (getToken_eq_some_iff hanc.distinct _ _).2 ⟨List.mem_of_getElem? hi, rfl⟩
  have har0 : (dpopGrant (cfg.flavor = .oidc && cfg.dpopEnabled) req g).authzReq = some ar := by rw [hj]; exact har
  have hsc0 : (dpopGrant (cfg.flavor = .oidc && cfg.dpopEnabled) req g).scope = g.scope := by rw [hj]
  have hfs : ∀ l, ∃ sc, ((dpopGrant (cfg.flavor = .oidc && cfg.dpopEnabled) req g).plusAll l).findScopeTok b = .ok sc :=
    fun l => findScopeTok_plusAll (by rw [hj]; exact hanc) l (by rw [hj]; exact hi)
  generalize hgg : dpopGrant (cfg.flavor = .oidc && cfg.dpopEnabled) req g = g0 at *
  obtain ⟨sc1, hsc1⟩ := hfs []
  rw [plusAll_nil] at hsc1
  have h1 := mintOrSkip_ok (mk := mk) (clock := clock) (c := .accessToken) (b := b)
    (tt := if cfg.flavor = .oidc then dpopKind (cfg.flavor = .oidc && cfg.dpopEnabled) req else "")
    (s := ⟨g0, n⟩) ho0 ha (sup _ hat) rfl hsc1 (hmk n _ (Nat.le_refl _) rfl)
  rw [plus_eq] at h1
  have hf1 := madeToken_fields clock g0 .accessToken b (val n .accessToken) sc1
    (if cfg.flavor = .oidc then dpopKind (cfg.flavor = .oidc && cfg.dpopEnabled) req else "")
  have hru := madeToken_rules clock g0 .accessToken b (val n .accessToken) sc1
    (if cfg.flavor = .oidc then dpopKind (cfg.flavor = .oidc && cfg.dpopEnabled) req else "")
  generalize madeToken clock g0 .accessToken b (val n .accessToken) sc1
    (if cfg.flavor = .oidc then dpopKind (cfg.flavor = .oidc && cfg.dpopEnabled) req else "") = t1 at *
  obtain ⟨sc2, hsc2⟩ := hfs [t1]
  have h2 := mintOrSkip_if (mk := mk) (clock := clock) (c := .refreshToken) (b := b) (tt := "") (s := ⟨g0.plusAll [t1], n + 1⟩)
    (codeRefresh cfg kw mints g0.scope supported) (ho0.plusAll _) ha
    (fun h => sup _ (by unfold codeRefresh at h; simp only [decide_eq_true_eq] at h; exact h.2.1)) rfl hsc2 (hmk (n + 1) _ (by omega) rfl)
  rw [madeToken_plusAll] at h2
  have hf2 := madeToken_fields clock g0 .refreshToken b (val (n + 1) .refreshToken) sc2 ""
  have hru2 := madeToken_rules clock g0 .refreshToken b (val (n + 1) .refreshToken) sc2 ""
  have hown : b.scope ≠ [] → sc2 = b.scope := by
    intro hb
    unfold Grant.findScopeTok Grant.findScopeFuel at hsc2
    cases hbs : b.scope with
    | nil => exact absurd hbs hb
    | cons x xs => simp [hbs] at hsc2; exact hsc2.symm
  generalize madeToken clock g0 .refreshToken b (val (n + 1) .refreshToken) sc2 "" = t2 at *
  obtain ⟨sc3, hsc3⟩ := hfs ([t1] ++ (if codeRefresh cfg kw mints g0.scope supported then [t2] else []))
  rw [← plusAll_plusAll] at hsc3
  have h3 := mintIdToken_if (mk := mk) (clock := clock) (b := b) (scope := none)
    (s := ⟨(g0.plusAll [t1]).plusAll (if codeRefresh cfg kw mints g0.scope supported then [t2] else []),
      n + 1 + (codeRefresh cfg kw mints g0.scope supported).toNat⟩) iw ((ho0.plusAll _).plusAll _) ha
    (fun h => sup _ (by
      subst h
      unfold idTokenWanted at hiw
      split at hiw
      · cases hiw
      · split at hiw
        · cases hiw
        · simp only [Except.ok.injEq, decide_eq_true_eq] at hiw; exact hiw.2))
    (.inr ⟨rfl, hsc3⟩) (hmk _ _ (by simp only []; omega) rfl)
  have := codeProcess_assemble (kw := kw) (s0 := ⟨g, n⟩) hq hsup hgg rfl hget0 har0 hred (by rw [hm]; rfl)
    (by rw [show decide (TokenClass.accessToken ∈ mints) = true from by simpa using hat]; exact h1) h2 hiw h3
  refine ⟨_, _, [t1] ++ (if codeRefresh cfg kw mints g0.scope supported then [t2] else []) ++
    (if iw then [madeToken clock g0 .idToken b (val (n + 1 + (codeRefresh cfg kw mints g0.scope supported).toNat) .idToken) sc3 ""] else []),
    this, congrArg some hf1.2.1, hsc0, ?_, ?_, ⟨t1, _, rfl, hf1.1, hf1.2.1, hf1.2.2.2.2.1, hf1.2.2.2.2.2.1, hf1.2.2.2.2.2.2.1,
      by rw [hf1.2.2.2.2.2.2.2, hj]; rfl, by rw [hru, hj]; rfl⟩, ?_, ?_, ?_⟩
  · rw [← hsc0]
    simp only []
    split
    · exact congrArg some hf2.2.1
    · rfl
  · cases iw <;> rfl
  · simp only [plusAll_plusAll]
    subst hj
    unfold Grant.updateToken Grant.plusAll
    rfl
  · show n < n + 1 + _ + _
    omega
  · intro hcr
    obtain ⟨q1, q2, q3, q4, q5, q6, q7, q8⟩ := hf2
    refine ⟨t2, ?_, q1, q2, q3, fun hb => q4.trans (hown hb), q5, q6, q7, by rw [q8, hj]; rfl, by rw [hru2, hj]; rfl⟩
    rw [hsc0, hcr]
    simp

end OidcOp
