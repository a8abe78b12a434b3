/-
C101: grant types configured, registered and published.
-/
import Verif.Spec.GrantTypes
import Verif.Props.TokenHttp
import Verif.Props.Honoured
import Verif.Props.Metadata
import Verif.Props.RegisteredAuth

namespace OidcOp
open Spec

/-- What the helpers are. -/
theorem grantHelpers_get {d : Dict GOpt} : ∀ {acc H : Dict GHelper}, grantHelpers d acc = .ok H → (d.map (·.1)).Nodup → ∀ gt k,
    H.get? gt = some k ↔ (gt, GOpt.dict false (some (some k))) ∈ d ∨
      ((∀ cls, (gt, GOpt.dict false cls) ∉ d) ∧ acc.get? gt = some k) := by
  induction d with
  | nil =>
    intro acc H h _ gt k
    cases h
    simp
  | cons p rest ih =>
    intro acc H h hnd gt k
    obtain ⟨gt', o⟩ := p
    rw [List.map_cons, List.nodup_cons] at hnd
    have hnot : ∀ o', (gt', o') ∉ rest := fun o' hm => hnd.1 (List.mem_map.2 ⟨_, hm, rfl⟩)
    unfold grantHelpers at h
    have skip : (∀ cls, o ≠ .dict false cls) → grantHelpers rest acc = .ok H → (H.get? gt = some k ↔
        (gt, GOpt.dict false (some (some k))) ∈ (gt', o) :: rest ∨
          ((∀ cls, (gt, GOpt.dict false cls) ∉ (gt', o) :: rest) ∧ acc.get? gt = some k)) := by
      intro ho h
      rw [ih h hnd.2]
      simp only [List.mem_cons, Prod.mk.injEq, not_or]
      constructor
      · rintro (h1 | ⟨h1, h2⟩)
        · exact .inl (.inr h1)
        · exact .inr ⟨fun cls => ⟨fun e => ho cls e.2.symm, h1 cls⟩, h2⟩
      · rintro ((h1 | h1) | ⟨h1, h2⟩)
        · exact absurd h1.2.symm (ho _)
        · exact .inl h1
        · exact .inr ⟨fun cls => (h1 cls).2, h2⟩
    cases o with
    | other => cases h
    | dict off cls =>
      cases off with
      | true => exact skip (by intro c e; cases e) h
      | false =>
        cases cls with
        | none => cases h
        | some c =>
          cases c with
          | none => cases h
          | some k' =>
            simp only [grantHelper] at h
            rw [ih h hnd.2]
            by_cases hg : gt = gt'
            · subst hg
              rw [Dict.get?_set_self]
              constructor
              · rintro (h1 | ⟨-, h2⟩)
                · exact absurd h1 (hnot _)
                · cases h2; exact .inl List.mem_cons_self
              · rintro (h1 | ⟨h1, -⟩)
                · rcases List.mem_cons.1 h1 with h1 | h1
                  · cases h1; exact .inr ⟨fun cls => hnot _, rfl⟩
                  · exact absurd h1 (hnot _)
                · exact absurd List.mem_cons_self (h1 _)
            · rw [Dict.get?_set_ne _ _ (Ne.symm hg)]
              simp [hg]

/-- The helpers of a sensible configuration: one for each grant type that is turned on, and it is the right one. -/
theorem helpers_get {conf : Option (Dict GOpt)} {H : Dict GHelper} (h : configureGrantTypes conf = .ok H) (hc : Sensible conf) :
    (∀ gt k, H.get? gt = some k → gt = k.grantType) ∧ ∀ gt, (∃ k, H.get? gt = some k) ↔ TurnedOn conf gt := by
  cases conf with
  | none =>
    cases h
    constructor
    · intro gt k hk
      unfold standardHelpers at hk
      by_cases h1 : gt = "authorization_code"
      · subst h1; cases hk; rfl
      · rw [Dict.get?_cons, if_neg (Ne.symm h1)] at hk
        by_cases h2 : gt = "refresh_token"
        · subst h2; cases hk; rfl
        · rw [Dict.get?_cons, if_neg (Ne.symm h2)] at hk; cases hk
    · intro gt
      constructor
      · rintro ⟨k, hk⟩
        unfold standardHelpers at hk
        by_cases h1 : gt = "authorization_code"
        · exact .inl h1
        · rw [Dict.get?_cons, if_neg (Ne.symm h1)] at hk
          by_cases h2 : gt = "refresh_token"
          · exact .inr h2
          · rw [Dict.get?_cons, if_neg (Ne.symm h2)] at hk; cases hk
      · rintro (rfl | rfl)
        · exact ⟨.code, rfl⟩
        · exact ⟨.refresh, rfl⟩
  | some d =>
    obtain ⟨hnd, hr⟩ := hc d rfl
    have key := grantHelpers_get h hnd
    constructor
    · intro gt k hk
      rcases (key gt k).1 hk with h1 | ⟨-, h2⟩
      · exact hr gt k h1
      · cases h2
    · intro gt
      constructor
      · rintro ⟨k, hk⟩
        rcases (key gt k).1 hk with h1 | ⟨-, h2⟩
        · exact ⟨_, h1⟩
        · cases h2
      · rintro ⟨cls, hm⟩
        -- an entry that is on has a class, or the configuration fails
        have : ∀ (d : Dict GOpt) (acc : Dict GHelper), grantHelpers d acc = .ok H → (gt, GOpt.dict false cls) ∈ d → ∃ k, cls = some (some k) := by
          intro d
          induction d with
          | nil => intro acc _ hm; cases hm
          | cons p rest ih =>
            intro acc h hm
            obtain ⟨gt', o⟩ := p
            unfold grantHelpers at h
            rcases List.mem_cons.1 hm with e | hm
            · cases e
              cases cls with
              | none => cases h
              | some c =>
                cases c with
                | none => cases h
                | some k => exact ⟨k, rfl⟩
            · cases hg : grantHelper o with
              | error e => rw [hg] at h; cases h
              | ok x =>
                rw [hg] at h
                cases x with
                | none => exact ih _ h hm
                | some k => exact ih _ h hm
        obtain ⟨k, rfl⟩ := this d [] h hm
        exact ⟨k, (key gt k).2 (.inl hm)⟩

/-! ### a provider with configured grant types is one that does not hear the others -/

/-- Whether the operation is anything but a token request without a helper. -/
def answered (H : Dict GHelper) : WOp → Bool
  | .parse _ r => r.grantType.any (fun gt => H.has gt)
  | _ => true

theorem tokenParseWith_eq {E : Env} {H : Dict GHelper} (hf : ∀ gt k, H.get? gt = some k → gt = k.grantType) {w : World} {client : String}
    {req : TokenReq} (h : req.grantType.any (fun gt => H.has gt) = true) : tokenParseWith E H w client req = tokenParse E w client req := by
  cases hg : req.grantType with
  | none => rw [hg] at h; cases h
  | some gt =>
    rw [hg] at h
    simp only [Option.any_some] at h
    obtain ⟨k, hk⟩ := Option.isSome_iff_exists.1 (show (H.get? gt).isSome = true from h)
    unfold tokenParseWith tokenParse
    rw [hg]
    simp only [hk]
    have := hf gt k hk
    subst this
    cases k with
    | code => simp only [GHelper.grantType, GHelper.parse, if_true]; rfl
    | refresh => simp only [GHelper.grantType, GHelper.parse, if_true]; rfl

theorem tokenParseWith_none {E : Env} {H : Dict GHelper} {w : World} {client : String} {req : TokenReq}
    (h : req.grantType.any (fun gt => H.has gt) = false) :
    (tokenParseWith E H w client req).2 = w ∧ ∀ r, (tokenParseWith E H w client req).1 ≠ .ok (.req r) := by
  unfold tokenParseWith
  cases hg : req.grantType with
  | none => exact ⟨rfl, by intro r h; cases h⟩
  | some gt =>
    rw [hg] at h
    have hn : H.get? gt = none := by
      cases hk : H.get? gt with
      | none => rfl
      | some k =>
        have : H.has gt = true := by unfold Dict.has; rw [hk]; rfl
        rw [Option.any_some, this] at h; cases h
    simp only []
    cases E.cfg.cdb.get? client with
    | none => exact ⟨rfl, by intro r h; cases h⟩
    | some cl =>
      simp only [hn]
      split <;> exact ⟨rfl, by intro r h; cases h⟩

theorem stepWith_parse {E : Env} {H : Dict GHelper} (hf : ∀ gt k, H.get? gt = some k → gt = k.grantType) (w : World) (c : String) (r : TokenReq) :
    stepWith E H w (.parse c r) = if answered H (.parse c r) then step E w (.parse c r) else w := by
  by_cases h : answered H (.parse c r) = true
  · rw [if_pos h]
    unfold stepWith step
    simp only []
    rw [tokenParseWith_eq hf (show TokenReq.grantType { r with clientId := some c } |>.any (fun gt => H.has gt) from h)]
    rfl
  · rw [if_neg h]
    obtain ⟨h1, h2⟩ := tokenParseWith_none (E := E) (w := w) (client := c) (req := { r with clientId := some c })
      (show r.grantType.any (fun gt => H.has gt) = false by simpa [answered] using h)
    unfold stepWith
    simp only []
    cases hp : tokenParseWith E H w c { r with clientId := some c } with
    | mk res w' =>
      rw [hp] at h1 h2
      simp only [] at h1 h2
      subst h1
      cases res with
      | error e => rfl
      | ok x =>
        cases x with
        | err e => rfl
        | req x => exact absurd rfl (h2 x)

/-- A provider with configured grant types does what one with the standard helpers does if it does not hear of the others. -/
theorem runWith_run {E : Env} {H : Dict GHelper} (hf : ∀ gt k, H.get? gt = some k → gt = k.grantType) (now : Int) (ops : List WOp) :
    runWith E H { now := now } ops = run E { now := now } (ops.filter (answered H)) := by
  induction ops using List.reverseRecOn with
  | nil => rfl
  | append_singleton ops op ih =>
    have h1 : runWith E H { now := now } (ops ++ [op]) = stepWith E H (runWith E H { now := now } ops) op := by simp [runWith]
    rw [h1, ih, List.filter_append]
    have other : answered H op = true → stepWith E H (run E { now := now } (ops.filter (answered H))) op =
        step E (run E { now := now } (ops.filter (answered H))) op →
        stepWith E H (run E { now := now } (ops.filter (answered H))) op =
          run E { now := now } (ops.filter (answered H) ++ [op].filter (answered H)) := by
      intro ha hs
      rw [hs, List.filter_cons_of_pos ha]
      simp [run]
    cases op with
    | parse c r =>
      rw [stepWith_parse hf]
      by_cases ha : answered H (.parse c r) = true
      · rw [if_pos ha, List.filter_cons_of_pos ha]; simp [run]
      · rw [if_neg ha, List.filter_cons_of_neg ha]; simp
    | process i kw =>
      refine other rfl ?_
      unfold stepWith step
      simp only []
      cases hp : (run E { now := now } (ops.filter (answered H))).pool[i]? with
      | none => rfl
      | some req =>
        simp only []
        obtain ⟨c, r0, m1, m2⟩ := C26_request_of_authenticated_client E now _ req (List.mem_of_getElem? hp)
        have ha := (List.mem_filter.1 m1).2
        have hg : req.grantType = r0.grantType := by rw [m2]
        simp only [answered] at ha
        cases hr : r0.grantType with
        | none => rw [hr] at ha; cases ha
        | some gt =>
          rw [hr] at ha hg
          simp only [Option.any_some] at ha
          obtain ⟨k, hk⟩ := Option.isSome_iff_exists.1 (show (H.get? gt).isSome = true from ha)
          unfold tokenProcessWith
          rw [hg]
          simp only [hk]
          rw [if_pos (hf gt k hk)]
    | _ => exact other rfl rfl

/-- C101. A token request for a grant type that is not turned on changes nothing. -/
theorem C101_others_change_nothing (E : Env) (conf : Option (Dict GOpt)) (H : Dict GHelper) (h : configureGrantTypes conf = .ok H)
    (hc : Sensible conf) (w : World) (op : WOp) (ho : ForOther conf op) : stepWith E H w op = w := by
  obtain ⟨hf, hon⟩ := helpers_get h hc
  cases op with
  | parse c r =>
    rw [stepWith_parse hf, if_neg]
    intro ha
    simp only [answered] at ha
    cases hg : r.grantType with
    | none => rw [hg] at ha; cases ha
    | some gt =>
      rw [hg] at ha
      simp only [Option.any_some] at ha
      exact ho gt hg ((hon gt).1 (Option.isSome_iff_exists.1 (show (H.get? gt).isSome = true from ha)))
  | _ => exact ho.elim

/-- C101. A client that is registered has a token request for a grant type that is not turned on refused with "invalid_request"
(RFC 6749, section 5.2, has "unsupported_grant_type" for this). -/
theorem C101_others_refused (E : Env) (conf : Option (Dict GOpt)) (H : Dict GHelper) (h : configureGrantTypes conf = .ok H)
    (hc : Sensible conf) (w : World) (client : String) (hcl : E.cfg.cdb.get? client ≠ none) (req : TokenReq) (gt : String)
    (hgt : req.grantType = some gt) (hoff : ¬ TurnedOn conf gt) : tokenParseWith E H w client req = (.ok (.err "invalid_request"), w) := by
  obtain ⟨-, hon⟩ := helpers_get h hc
  unfold tokenParseWith
  rw [hgt]
  simp only []
  cases hcd : E.cfg.cdb.get? client with
  | none => exact absurd hcd hcl
  | some cl =>
    simp only []
    split
    · rfl
    · cases hk : H.get? gt with
      | none => rfl
      | some k => exact absurd ((hon gt).1 ⟨k, hk⟩) hoff

/-- C101. In every history, a token response is for a grant type that the configuration of the token endpoint turns on, and that is
on the client's own list in the client database, if it has one there. -/
theorem C101_only_configured (E : Env) (conf : Option (Dict GOpt)) (H : Dict GHelper) (h : configureGrantTypes conf = .ok H)
    (hc : Sensible conf) (now : Int) (ops : List WOp) (ref : Nat) (client : String) (rf : Bool) (v : String) (req : TokenReq)
    (r : TokenResp) (he : .token ref client rf v req r ∈ (runWith E H { now := now } ops).log) :
    TurnedOn conf (grantTypeOf rf) ∧ req.grantType = some (grantTypeOf rf) ∧
      ∃ cl, E.cfg.cdb.get? client = some cl ∧ ∀ l, cl.grantTypes = some l → grantTypeOf rf ∈ l := by
  obtain ⟨hf, hon⟩ := helpers_get h hc
  rw [runWith_run hf] at he
  have hgt := C78_grant_type E now _ ref client rf v req r he
  obtain ⟨c, r0, m1, m2⟩ := log_parsed E now _ ref client rf v req r he
  have hg : req.grantType = some (grantTypeOf rf) := by
    obtain ⟨pre, op, post, hops, hlog⟩ := answer_step E now _ _ he
    have hw := winv_reachable (E := E) (w := run E { now := now } pre) ⟨now, pre, rfl⟩
    obtain ⟨hc, -, h3⟩ := step_spec hw (sidClosed_true E) op (fun _ _ _ => trivial)
    rcases h3 with h3 | ⟨e', h3, hne⟩
    · rw [h3] at hlog; simp at hlog
    · have : e' = .token ref client rf v req r := by rw [h3] at hlog; simpa using hlog
      subst this
      rcases hne with ⟨_, _, _, _, h, _⟩ | ⟨s, rf', v', req', r', a, he', hp, ha, hout⟩
      · cases h
      · cases he'
        obtain ⟨gs, hgs, hf, ht⟩ := hout.out
        cases rf with
        | false => obtain ⟨a, -, b⟩ := hf rfl; exact a
        | true => obtain ⟨a, -, b⟩ := ht rfl; exact a
  refine ⟨?_, hg, hgt⟩
  have ha := (List.mem_filter.1 m1).2
  have hg0 : r0.grantType = some (grantTypeOf rf) := by rw [← hg, m2]
  simp only [answered, hg0, Option.any_some] at ha
  exact (hon _).1 (Option.isSome_iff_exists.1 (show (H.get? _).isSome = true from ha))

/-- The states of a provider with configured grant types are those of one with the standard helpers. -/
theorem runWith_reachable {E : Env} {conf : Option (Dict GOpt)} {H : Dict GHelper} (h : configureGrantTypes conf = .ok H)
    (hc : Sensible conf) (now : Int) (ops : List WOp) : Reachable E (runWith E H { now := now } ops) :=
  ⟨now, _, (runWith_run (helpers_get h hc).1 now ops)⟩

/-- A request for a grant type that is turned on, after any history. -/
theorem runWith_two {E : Env} {conf : Option (Dict GOpt)} {H : Dict GHelper} (h : configureGrantTypes conf = .ok H)
    (hc : Sensible conf) (now : Int) (ops : List WOp) (c : String) (req : TokenReq) (gt : String) (hgt : req.grantType = some gt)
    (hon : TurnedOn conf gt) (i : Nat) (kw : Option Bool) :
    runWith E H (runWith E H { now := now } ops) [.parse c req, .process i kw] =
      run E (runWith E H { now := now } ops) [.parse c req, .process i kw] := by
  obtain ⟨hf, hon'⟩ := helpers_get h hc
  have ha : answered H (.parse c req) = true := by
    obtain ⟨k, hk⟩ := (hon' gt).2 hon
    simp only [answered, hgt, Option.any_some]
    unfold Dict.has
    rw [hk]
    rfl
  have e1 : runWith E H (runWith E H { now := now } ops) [.parse c req, .process i kw] =
      runWith E H { now := now } (ops ++ [.parse c req, .process i kw]) := by simp [runWith]
  rw [e1, runWith_run hf, runWith_run hf, List.filter_append, List.filter_cons_of_pos ha, List.filter_cons_of_pos rfl, List.filter_nil]
  simp [run]

/-- C101. A grant type that is turned on is answered: a live refresh token of a client that is not excluded from it gives an access
token, after every history. -/
theorem C101_refresh_honoured (E : Env) (conf : Option (Dict GOpt)) (H : Dict GHelper) (h : configureGrantTypes conf = .ok H)
    (hc : Sensible conf) (now : Int) (ops : List WOp) (w : World) (hw : w = runWith E H { now := now } ops)
    (hon : TurnedOn conf "refresh_token") (kw : Option Bool) (req : TokenReq) (v : String) (s : Sess) (i : Nat) (t : Token)
    (mints : List TokenClass) (found : List String) (hgt : req.grantType = some "refresh_token")
    (hopen : NotExcluded E.cfg s.client "refresh_token") (hv : req.refreshToken = some v) (hs : sessionByToken E w v = .ok s)
    (hl : Live w s i t mints) (htv : t.value = v) (hcls : t.cls = .refreshToken) (hfound : EffScope s.grant t.basedOn found)
    (hsub : ∀ sc, req.scope = some sc → ∀ x ∈ sc, x ∈ found) (hh : HandlersWork E w s) :
    ∃ r, (runWith E H w [.parse s.client req, .process w.pool.length kw]).log =
        w.log ++ [.token s.ref s.client true v { req with clientId := some s.client } r] ∧
      Usable E w s r ∧ r.scope = req.scope.getD found := by
  subst hw
  obtain ⟨r, h1, h2, h3, -, -⟩ := C94_refresh_honoured E _ (runWith_reachable h hc now ops) kw req v s i t mints found hgt hopen hv hs hl
    htv hcls hfound hsub hh
  exact ⟨r, by rw [runWith_two h hc now ops _ _ _ hgt hon]; exact h1, h2, h3⟩

/-- C101. The same for a live code. -/
theorem C101_code_honoured (E : Env) (conf : Option (Dict GOpt)) (H : Dict GHelper) (h : configureGrantTypes conf = .ok H)
    (hc : Sensible conf) (now : Int) (ops : List WOp) (w : World) (hw : w = runWith E H { now := now } ops)
    (hon : TurnedOn conf "authorization_code") (kw : Option Bool) (req : TokenReq) (v : String) (s : Sess) (i : Nat) (t : Token)
    (mints : List TokenClass) (ar : AuthzReq) (asked : List String) (hgt : req.grantType = some "authorization_code")
    (hopen : NotExcluded E.cfg s.client "authorization_code") (hv : req.code = some v) (hs : sessionByToken E w v = .ok s)
    (hl : Live w s i t mints) (htv : t.value = v) (hcls : t.cls = .authorizationCode) (har : s.grant.authzReq = some ar)
    (hasked : ar.scope = some asked) (hred : ar.redirectUri = none ∨ req.redirectUri = ar.redirectUri) (hh : HandlersWork E w s) :
    ∃ r, (runWith E H w [.parse s.client req, .process w.pool.length kw]).log =
        w.log ++ [.token s.ref s.client false v { req with clientId := some s.client } r] ∧
      Usable E w s r ∧ r.scope = s.grant.scope := by
  subst hw
  obtain ⟨r, h1, h2, h3, -, -⟩ := C94_code_honoured E _ (runWith_reachable h hc now ops) kw req v s i t mints ar asked hgt hopen hv hs hl
    htv hcls har hasked hred hh
  exact ⟨r, by rw [runWith_two h hc now ops _ _ _ hgt hon]; exact h1, h2, h3⟩

/-- C101, where the capabilities of the configuration name grant types and those that the token endpoint turns on are among them: a
token response is for a grant type that the metadata name. -/
theorem C101_published_partial (lib : CryptoAlgs) (sconf : ServerConf) (s : Serv) (defaults : Dict Json)
    (hm : makeServer lib sconf = .ok s) (hsh : Shipped sconf) (l : List String)
    (hcap : (sconf.caps.getD []).get? "grant_types_supported" = some (strs l))
    (E : Env) (conf : Option (Dict GOpt)) (H : Dict GHelper) (h : configureGrantTypes conf = .ok H) (hc : Sensible conf)
    (hin : ∀ gt, TurnedOn conf gt → gt ∈ l) (now : Int) (ops : List WOp) (ref : Nat) (client : String) (rf : Bool) (v : String)
    (req : TokenReq) (r : TokenResp) (he : .token ref client rf v req r ∈ (runWith E H { now := now } ops).log) :
    ∃ l', (document defaults s).get? "grant_types_supported" = some (.arr l') ∧ .str (grantTypeOf rf) ∈ l' := by
  obtain ⟨h1, -, -⟩ := C101_only_configured E conf H h hc now ops ref client rf v req r he
  have hk : ¬ DecidedElsewhere sconf "grant_types_supported" := by
    intro hd
    generalize hk : "grant_types_supported" = k at hd
    cases hd with
    | idToken kw h k hm => subst hk; revert hm; decide
    | _ => revert hk; decide
  exact ⟨_, (C97_configured_partial lib sconf s defaults hm hsh _ _ hcap hk).2, List.mem_map.2 ⟨_, hin _ h1, rfl⟩⟩

theorem tokenDb_get {s : RegState} {c : String} {rec : Cinfo} (h : s.cdb.get? c = some rec) : (tokenDb s).get? c = some (tclientOf rec) := by
  unfold tokenDb
  generalize s.cdb = d at h
  induction d with
  | nil => cases h
  | cons p t ih =>
    obtain ⟨k, v⟩ := p
    rw [List.map_cons, Dict.get?_cons]
    rw [Dict.get?_cons] at h
    by_cases hk : k = c
    · rw [if_pos hk] at h ⊢
      cases h
      rfl
    · rw [if_neg hk] at h ⊢
      exact ih h

/-- C101, where one grant type is turned on and published: whatever registrations there were, a token response to a client that
registered grant types is for one that it registered. -/
theorem C101_one_type_partial (E : Env) (conf : Option (Dict GOpt)) (H : Dict GHelper) (h : configureGrantTypes conf = .ok H)
    (hc : Sensible conf) (gt : String) (hone : ∀ gt', TurnedOn conf gt' → gt' = gt)
    (R : RegConf) (hR : R.providerInfo.get? "grant_types_supported" = some [gt])
    (r0 : RegState) (calls : List RegCall) (client : String) (hnew : r0.cdb.get? client = none) (rec : Cinfo)
    (hrec : (regHistory R r0 calls).cdb.get? client = some rec) (l : List String) (hl : l ≠ [])
    (hgts : rec.get? "grant_types" = some (.json (strs l)))
    (now : Int) (ops : List WOp) (ref : Nat) (rf : Bool) (v : String) (req : TokenReq) (r : TokenResp)
    (he : .token ref client rf v req r ∈ (runWith E H { now := now } ops).log) : grantTypeOf rf ∈ l := by
  obtain ⟨h1, -, -⟩ := C101_only_configured E conf H h hc now ops ref client rf v req r he
  rw [hone _ h1]
  obtain ⟨j, sup, e1, e2, e3⟩ := C56_history R r0 calls client rec hnew hrec "grant_types" "grant_types_supported" _ (by decide) hgts
  cases e1
  rw [hR] at e2
  cases e2
  unfold Within at e3
  rw [if_neg (by decide)] at e3
  rcases e3 with ⟨x, k1, -⟩ | ⟨vs, k1, k2⟩ | ⟨x, k1, -⟩
  · cases k1
  · have hvs : l = vs := by
      have : stringsOf (strs l) = stringsOf (strs vs) := by rw [k1]; rfl
      rwa [stringsOf_strs, stringsOf_strs] at this
    subst hvs
    cases l with
    | nil => exact absurd rfl hl
    | cons x t =>
      rw [← List.mem_singleton.1 (k2 x List.mem_cons_self)]
      exact List.mem_cons_self
  · cases k1

/-- C101, where the record of a client has a list under the name that the token endpoint looks for: a token response to the client is
for a grant type on that list. -/
theorem C101_own_list_partial (E : Env) (conf : Option (Dict GOpt)) (H : Dict GHelper) (h : configureGrantTypes conf = .ok H)
    (hc : Sensible conf) (R : RegState) (hE : E.cfg.cdb = tokenDb R) (client : String) (rec : Cinfo)
    (hrec : R.cdb.get? client = some rec) (l : List String) (hgts : rec.get? "grant_types_supported" = some (.json (strs l)))
    (now : Int) (ops : List WOp) (ref : Nat) (rf : Bool) (v : String) (req : TokenReq) (r : TokenResp)
    (he : .token ref client rf v req r ∈ (runWith E H { now := now } ops).log) : grantTypeOf rf ∈ l := by
  obtain ⟨-, -, cl, h1, h2⟩ := C101_only_configured E conf H h hc now ops ref client rf v req r he
  rw [hE, tokenDb_get hrec] at h1
  cases h1
  refine h2 l ?_
  have : (tclientOf rec).grantTypes = strList (l.map .str) := by
    simp only [tclientOf, hgts]
    rfl
  rw [this, (strList_iff _ _).2 rfl]

/-- C22. Whether a client's refresh tokens are revoked when they are used is what its record says under "revoke_refresh_on_issue"; a
record that does not say leaves it to the token endpoint's own setting. -/
theorem C22_own_setting (cfg : TokenCfg) (R : RegState) (hE : cfg.cdb = tokenDb R) (client : String) (rec : Cinfo)
    (hrec : R.cdb.get? client = some rec) :
    (∀ b, rec.get? "revoke_refresh_on_issue" = some (.json (.bool b)) → (RotationInForce cfg client ↔ b = true)) ∧
      (rec.get? "revoke_refresh_on_issue" = none → (RotationInForce cfg client ↔ cfg.revokeRefreshOnIssue = true)) := by
  have hg := tokenDb_get hrec
  rw [← hE] at hg
  unfold RotationInForce
  rw [hg]
  refine ⟨fun b hb => ?_, fun hn => ?_⟩
  · have : (tclientOf rec).revokeRefresh = some b := by simp only [tclientOf, hb]
    simp [this]
  · have : (tclientOf rec).revokeRefresh = none := by simp only [tclientOf, hn]
    simp [this]

/-! ### Cases that meet the hypotheses, and what goes wrong -/

namespace Ex

/-- A token endpoint that is told of codes only; refresh tokens are switched off. -/
def onlyCode : Option (Dict GOpt) :=
  some [("authorization_code", .dict false (some (some .code))), ("refresh_token", .dict true none)]

theorem onlyCode_ok : configureGrantTypes onlyCode = .ok [("authorization_code", .code)] := by decide

theorem onlyCode_sensible : Sensible onlyCode := by
  intro d hd
  cases hd
  refine ⟨by decide, ?_⟩
  intro gt k hm
  simp only [List.mem_cons, Prod.mk.injEq, GOpt.dict.injEq, Option.some.injEq, List.not_mem_nil, or_false] at hm
  rcases hm with ⟨rfl, -, rfl⟩ | ⟨-, h, -⟩
  · rfl
  · cases h

theorem onlyCode_on (gt : String) : TurnedOn onlyCode gt ↔ gt = "authorization_code" := by
  constructor
  · rintro ⟨cls, hm⟩
    simp only [List.mem_cons, Prod.mk.injEq, GOpt.dict.injEq, List.not_mem_nil, or_false] at hm
    rcases hm with ⟨rfl, -, -⟩ | ⟨-, h, -⟩
    · rfl
    · cases h
  · rintro rfl
    exact ⟨_, List.mem_cons_self⟩

def eventKind : Event → String
  | .token _ _ rf _ _ _ => if rf then "refresh" else "code"
  | _ => "authz"

def eventClient : Event → String
  | .token _ c _ _ _ _ => c
  | _ => ""

/-- The history of a code exchange and an attempt to refresh. -/
def refreshing (c : String) : List WOp :=
  start c ++ [.parse c (refreshReq (E.mkVal 3 .refreshToken (sid c 0)) none), .process 1 none]

/-- C101: the code is answered, and the refresh token that came with it is not; with the standard configuration it is. -/
example : ((runWith E [("authorization_code", .code)] { now := 1000 } (refreshing "c1")).log.map eventKind) = ["authz", "code"] ∧
    ((runWith E standardHelpers { now := 1000 } (refreshing "c1")).log.map eventKind) = ["authz", "code", "refresh"] := by
  decide +kernel

example : ForOther onlyCode (.parse "c1" (refreshReq "x" none)) := by
  intro gt h
  cases h
  rw [onlyCode_on]
  decide

theorem start_eq : run E init (start "c1") = runWith E standardHelpers { now := 1000 } (start "c1") := by
  rw [runWith_run (helpers_get (conf := none) rfl (by intro d hd; cases hd)).1]
  rfl

/-- C101: the hypotheses of `C101_refresh_honoured` are met after the code exchange, with the standard configuration. -/
example : ∃ r, (runWith E standardHelpers (run E init (start "c1")) [.parse "c1" (refreshReq (E.mkVal 3 .refreshToken (sid "c1" 0)) none),
      .process (run E init (start "c1")).pool.length none]).log =
      (run E init (start "c1")).log ++ [.token 2 "c1" true (E.mkVal 3 .refreshToken (sid "c1" 0))
        { refreshReq (E.mkVal 3 .refreshToken (sid "c1" 0)) none with clientId := some "c1" } r] := by
  obtain ⟨r, h1, _, h2⟩ := C101_refresh_honoured E none _ rfl (by intro d hd; cases hd) 1000 (start "c1") _ start_eq (.inr rfl) none
    (refreshReq (E.mkVal 3 .refreshToken (sid "c1" 0)) none) _ sess1 2 refresh1 _ _ rfl
    ⟨{}, by decide +kernel, fun _ h => by cases h⟩ rfl sess1_ok live1 (by decide +kernel) (by decide +kernel) eff1
    (fun _ h => by cases h) (works rfl rfl)
  exact ⟨r, h1⟩

/-- C101: the hypotheses of `C101_code_honoured` are met after the authorization response, with refresh tokens switched off. -/
example : ∃ r, (runWith E [("authorization_code", .code)] asked0 [.parse "c1" (codeReq (E.mkVal 1 .authorizationCode (sid "c1" 0))),
      .process asked0.pool.length none]).log =
      asked0.log ++ [.token 2 "c1" false (E.mkVal 1 .authorizationCode (sid "c1" 0))
        { codeReq (E.mkVal 1 .authorizationCode (sid "c1" 0)) with clientId := some "c1" } r] := by
  obtain ⟨r, h1, _, h2⟩ := C101_code_honoured E onlyCode _ onlyCode_ok onlyCode_sensible 1000
    [.login "d" "c1" (authzReq "c1") event, .authorize (sid "c1" 0) (authzReq "c1"), .tick 5] asked0 rfl
    ((onlyCode_on _).2 rfl) none
    (codeReq (E.mkVal 1 .authorizationCode (sid "c1" 0))) _ sess0 0 ((sess0.grant.issuedToken[0]?).getD default)
    [.accessToken, .refreshToken, .idToken] (authzReq "c1") ["openid", "email", "offline_access"] rfl
    ⟨{}, by decide +kernel, fun _ h => by cases h⟩ rfl (by decide +kernel)
    ⟨by decide +kernel, (isActive_clock_iff _ _).1 (by decide +kernel), (isActive_clock_iff _ _).1 (by decide +kernel),
      by decide +kernel, by decide +kernel, by decide⟩ (by decide +kernel) (by decide +kernel) (by decide +kernel) (by decide +kernel)
    (.inr (by decide +kernel)) (works rfl rfl)
  exact ⟨r, h1⟩

/-- C101: the hypotheses of `C101_published_partial` can be met. -/
example : ∃ s, makeServer cryptoLib { mconf with caps := some [("grant_types_supported", strs ["authorization_code"])] } = .ok s ∧
    (document [] s).get? "grant_types_supported" = some (strs ["authorization_code"]) := by
  have h : ((makeServer cryptoLib { mconf with caps := some [("grant_types_supported", strs ["authorization_code"])] }).toOption.bind
      (fun s => (document [] s).get? "grant_types_supported")) = some (strs ["authorization_code"]) := by decide +kernel
  cases hs : makeServer cryptoLib { mconf with caps := some [("grant_types_supported", strs ["authorization_code"])] } with
  | error e => rw [hs] at h; cases h
  | ok s => rw [hs] at h; exact ⟨s, rfl, h⟩

/-- Cases of `C101_others_refused` and of `C22_own_setting`. -/
example : ¬ TurnedOn none "password" ∧ E.cfg.cdb.get? "c1" ≠ none ∧
    (∃ rec, ({ cdb := [("rp1", [("revoke_refresh_on_issue", .json (.bool true))])] } : RegState).cdb.get? "rp1" = some rec ∧
      rec.get? "revoke_refresh_on_issue" = some (.json (.bool true))) :=
  ⟨by intro h; rcases h with h | h <;> exact absurd h (by decide), by decide +kernel, _, rfl, rfl⟩

/-- C101 is false of the code where nothing is configured: refresh tokens are taken, and the metadata name "authorization_code" and
"implicit" (oauth2/token.py:382-387, oauth2/authorization.py:259-269). -/
theorem C101_published_refuted :
    ¬ (∀ (lib : CryptoAlgs) (sconf : ServerConf) (s : Serv) (defaults : Dict Json) (E : Env) (conf : Option (Dict GOpt)) (H : Dict GHelper)
      (now : Int) (ops : List WOp) (ref : Nat) (client : String) (rf : Bool) (v : String) (req : TokenReq) (r : TokenResp),
      makeServer lib sconf = .ok s → Shipped sconf → configureGrantTypes conf = .ok H → Sensible conf →
      .token ref client rf v req r ∈ (runWith E H { now := now } ops).log →
      ∃ l', (document defaults s).get? "grant_types_supported" = some (.arr l') ∧ .str (grantTypeOf rf) ∈ l') := by
  intro h
  obtain ⟨e, he, hk⟩ : ∃ e, (runWith E standardHelpers { now := 1000 } (refreshing "c1")).log[2]? = some e ∧ eventKind e = "refresh" := by
    refine ⟨((runWith E standardHelpers { now := 1000 } (refreshing "c1")).log[2]?).getD default, ?_, ?_⟩ <;> decide +kernel
  cases e with
  | token ref client rf v req r =>
    cases rf with
    | false => exact absurd (show "code" = "refresh" from hk) (by decide)
    | true =>
      obtain ⟨l', h1, h2⟩ := h cryptoLib mconf mserv [] E none standardHelpers 1000 (refreshing "c1") ref client true v req r mserv_ok
        mconf_shipped rfl (by intro d hd; cases hd) (List.mem_of_getElem? he)
      have hd : (document [] mserv).get? "grant_types_supported" = some (strs ["authorization_code", "implicit"]) := by decide +kernel
      rw [hd] at h1
      cases h1
      revert h2
      decide
  | _ => exact absurd (show "authz" = "refresh" from hk) (by decide)

/-- A provider with both grant types, as registration sees it, and a client that asks for one. -/
def regConf4 : RegConf :=
  { regConf2 with providerInfo := ("grant_types_supported", ["authorization_code", "refresh_token"]) :: regConf.providerInfo }

def regReq4 : Dict Json := ("grant_types", strs ["authorization_code"]) :: regReq

def reg6 : RegState := regHistory regConf4 reg0 [⟨regDraw, regReq4⟩]

/-- C101: a client of `C101_one_type_partial`, at a provider with codes only. -/
example : regConf.providerInfo.get? "grant_types_supported" = some ["authorization_code"] ∧
    (((regHistory regConf reg0 [⟨regDraw, regReq4⟩]).cdb.get? "rp1").bind (·.get? "grant_types")) =
      some (.json (strs ["authorization_code"])) := by decide +kernel

/-- The provider with the clients that registered. -/
def E6 : Env := env { cfg with cdb := tokenDb reg6 } authz (fun _ _ => none)

/-- C101 is false of the code: the grant types that a client registers are kept in its record as "grant_types", and the token endpoint
looks for "grant_types_supported" there (oauth2/token.py:429-434).  A client that registered "authorization_code" only gets a
refresh token and has it answered. -/
theorem C101_registered_refuted :
    ¬ (∀ (R : RegConf) (r0 : RegState) (calls : List RegCall) (client : String) (rec : Cinfo) (l : List String) (E : Env)
      (conf : Option (Dict GOpt)) (H : Dict GHelper) (now : Int) (ops : List WOp) (ref : Nat) (rf : Bool) (v : String) (req : TokenReq)
      (r : TokenResp), r0.cdb.get? client = none → (regHistory R r0 calls).cdb.get? client = some rec →
      rec.get? "grant_types" = some (.json (strs l)) → E.cfg.cdb = tokenDb (regHistory R r0 calls) →
      configureGrantTypes conf = .ok H → Sensible conf → .token ref client rf v req r ∈ (runWith E H { now := now } ops).log →
      grantTypeOf rf ∈ l) := by
  intro h
  have hrec : reg6.cdb.get? "rp1" = some ((reg6.cdb.get? "rp1").getD []) := by decide +kernel
  obtain ⟨e, he, hk⟩ : ∃ e, (runWith E6 standardHelpers { now := 1000 } (refreshing "rp1")).log[2]? = some e ∧
      (eventKind e = "refresh" ∧ eventClient e = "rp1") := by
    refine ⟨((runWith E6 standardHelpers { now := 1000 } (refreshing "rp1")).log[2]?).getD default, ?_, ?_⟩ <;> decide +kernel
  cases e with
  | token ref client rf v req r =>
    cases rf with
    | false => exact absurd (show "code" = "refresh" from hk.1) (by decide)
    | true =>
      have hcl : client = "rp1" := hk.2
      subst hcl
      have := h regConf4 reg0 [⟨regDraw, regReq4⟩] "rp1" _ ["authorization_code"] E6 none standardHelpers 1000 (refreshing "rp1") ref true
        v req r (by decide) hrec (by decide +kernel) rfl rfl (by intro d hd; cases hd) (List.mem_of_getElem? he)
      revert this
      decide
  | _ => exact absurd (show "authz" = "refresh" from hk.1) (by decide)

end Ex

end OidcOp
