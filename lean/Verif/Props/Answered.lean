/-
Every request to the token endpoint gets an answer (C108).
-/
import Verif.Spec.Answered
import Verif.Props.Honoured

namespace OidcOp
open Spec

theorem notThere_iff {e : Exc} : e.isKeyError = true ↔ NotThere e := by
  cases e <;> simp [Exc.isKeyError, NotThere]

theorem excluded_iff {cfg : TokenCfg} {client gt : String} {cl : TClient} (h : cfg.cdb.get? client = some cl) :
    grantTypeRefused cl gt = true ↔ Excluded cfg client gt := by
  unfold grantTypeRefused Excluded
  rw [h]
  cases hl : cl.grantTypes with
  | none => simp [hl]
  | some l => simp [hl]

/-- Reading a code of a session never raises, once the client is known. -/
theorem codeParse_answered {E : Env} {w : World} (hw : Reachable E w) {v client : String} {s : Sess} {req : TokenReq}
    (hs : sessionByToken E w v = .ok s) (hq : req.clientId = some client) :
    Answered (codeParse E.cfg w.now req v s.grant).1 := by
  have hwi := (winv_reachable hw).core
  have hg := sessionByToken_grantAt hs
  unfold codeParse
  cases ht : s.grant.getToken v with
  | none => exact ⟨_, rfl⟩
  | some t =>
    simp only []
    by_cases h1 : t.cls ≠ .authorizationCode
    · rw [if_pos h1]; exact ⟨_, rfl⟩
    · rw [if_neg h1]
      by_cases h2 : E.cfg.flavor = .oidc ∧ t.used ≠ 0
      · rw [if_pos h2]
        obtain ⟨hm, hval⟩ := getToken_mem ht
        have hne : v ≠ "" := by
          obtain ⟨i, hi⟩ := List.getElem?_of_mem hm
          obtain ⟨k, sid, _, hmade, _⟩ := hwi.prov s.ref s.grant i t hg hi
          rw [← hval]; exact hmade.ne
        obtain ⟨ts, h3, -⟩ := C17_revoke_descendants s.grant (ancestry_reachable hwi hg) v hne
        rw [h3]
        exact ⟨_, rfl⟩
      · rw [if_neg h2]
        by_cases h3 : t.isActive w.now = false
        · rw [if_pos h3]; exact ⟨_, rfl⟩
        · rw [if_neg h3, hq]; exact ⟨_, rfl⟩

/-- Reading a refresh token of a session never raises. -/
theorem refreshParse_answered {E : Env} {w : World} (hw : Reachable E w) {v : String} {s : Sess} (req : TokenReq)
    (hs : sessionByToken E w v = .ok s) : Answered (refreshParse w.now req v s.grant) := by
  have hg := sessionByToken_grantAt hs
  unfold refreshParse
  cases ht : s.grant.getToken v with
  | none => exact ⟨_, rfl⟩
  | some t =>
    simp only []
    split
    · exact ⟨_, rfl⟩
    · split
      · exact ⟨_, rfl⟩
      · cases hsc : req.scope with
        | none => exact ⟨_, rfl⟩
        | some sc =>
          simp only []
          obtain ⟨hm, -⟩ := getToken_mem ht
          obtain ⟨found, hf⟩ := ((C18_ancestry E w hw).2.2 s.ref s.grant t (grantAt_iff.1 hg) hm).2
          rw [hf]
          simp only []
          split <;> exact ⟨_, rfl⟩

/-- C108. Reading a request: exactly the requests that are not readable end in an exception, in every state the provider can get
into. -/
theorem C108_read_partial (E : Env) (w : World) (hw : Reachable E w) (client : String) (req : TokenReq) :
    Answered (tokenParse E w client { req with clientId := some client }).1 ↔ ∃ gt, Readable E w client req gt := by
  unfold tokenParse
  cases hgt : req.grantType with
  | none =>
    constructor
    · rintro ⟨_, h⟩; cases h
    · rintro ⟨gt, h⟩; have := h.grantType; rw [hgt] at this; cases this
  | some gt =>
    have only : ∀ gt', Readable E w client req gt' → gt' = gt := by
      intro gt' h; have := h.grantType; rw [hgt] at this; cases this; rfl
    cases hcl : E.cfg.cdb.get? client with
    | none =>
      constructor
      · rintro ⟨_, h⟩; simp only [] at h; cases h
      · rintro ⟨gt', h⟩
        have := h.known
        unfold Dict.has at this
        rw [hcl] at this
        cases this
    | some cl =>
      have hk : E.cfg.cdb.has client = true := by unfold Dict.has; rw [hcl]; rfl
      simp only []
      cases hr : grantTypeRefused cl gt with
      | true =>
        rw [if_pos rfl]
        have hx := (excluded_iff hcl).1 hr
        exact ⟨fun _ => ⟨gt, hgt, hk, fun _ h => absurd hx h, fun _ h => absurd hx h⟩, fun _ => ⟨_, rfl⟩⟩
      | false =>
        have hx : ¬ Excluded E.cfg client gt := by
          intro h
          rw [(excluded_iff hcl).2 h] at hr
          cases hr
        rw [if_neg (by decide)]
        by_cases hc : gt = "authorization_code"
        · subst hc
          rw [if_pos rfl]
          unfold codeParseW
          simp only []
          cases hv : req.code with
          | none =>
            refine ⟨fun _ => ⟨_, hgt, hk, ?_, ?_⟩, fun _ => ⟨_, rfl⟩⟩
            · intro _ _ v e h; rw [hv] at h; cases h
            · intro h; exact absurd h (by decide)
          | some v =>
            simp only []
            cases hs : sessionByToken E w v with
            | ok s =>
              simp only []
              refine ⟨fun _ => ⟨_, hgt, hk, ?_, ?_⟩, fun _ => codeParse_answered hw hs rfl⟩
              · intro _ _ v' e h h'; rw [hv] at h; cases h; rw [hs] at h'; cases h'
              · intro h; exact absurd h (by decide)
            | error e =>
              simp only []
              by_cases he : (e.isKeyError || decide (e = .unknownToken)) = true
              · rw [if_pos he]
                refine ⟨fun _ => ⟨_, hgt, hk, ?_, ?_⟩, fun _ => ⟨_, rfl⟩⟩
                · intro _ _ v' e' h h'
                  rw [hv] at h; cases h; rw [hs] at h'; cases h'
                  simp only [Bool.or_eq_true, decide_eq_true_eq] at he
                  exact he.imp notThere_iff.1 id
                · intro h; exact absurd h (by decide)
              · rw [if_neg he]
                constructor
                · rintro ⟨_, h⟩; cases h
                · rintro ⟨gt', h⟩
                  cases only gt' h
                  have := h.code rfl hx v e hv hs
                  refine absurd ?_ he
                  simp only [Bool.or_eq_true, decide_eq_true_eq]
                  exact this.imp notThere_iff.2 id
        · rw [if_neg hc]
          by_cases hf : gt = "refresh_token"
          · subst hf
            rw [if_pos rfl]
            unfold refreshParseW
            simp only []
            cases hv : req.refreshToken with
            | none =>
              constructor
              · rintro ⟨_, h⟩; cases h
              · rintro ⟨gt', h⟩
                cases only gt' h
                obtain ⟨v, h', -⟩ := h.refresh rfl hx
                rw [hv] at h'; cases h'
            | some v =>
              simp only []
              cases hs : sessionByToken E w v with
              | ok s =>
                simp only []
                refine ⟨fun _ => ⟨_, hgt, hk, fun h => absurd h hc, fun _ _ => ⟨v, hv, ?_⟩⟩, fun _ => refreshParse_answered hw _ hs⟩
                intro e h; rw [hs] at h; cases h
              | error e =>
                simp only []
                by_cases he : e.isKeyError = true
                · rw [if_pos he]
                  refine ⟨fun _ => ⟨_, hgt, hk, fun h => absurd h hc, fun _ _ => ⟨v, hv, ?_⟩⟩, fun _ => ⟨_, rfl⟩⟩
                  intro e' h; rw [hs] at h; cases h
                  exact notThere_iff.1 he
                · rw [if_neg he]
                  constructor
                  · rintro ⟨_, h⟩; cases h
                  · rintro ⟨gt', h⟩
                    cases only gt' h
                    obtain ⟨v', h1, h2⟩ := h.refresh rfl hx
                    rw [hv] at h1; cases h1
                    exact absurd (notThere_iff.2 (h2 e hs)) he
          · rw [if_neg hf]
            exact ⟨fun _ => ⟨_, hgt, hk, fun h => absurd h hc, fun h => absurd h hf⟩, fun _ => ⟨_, rfl⟩⟩

/-- C108. A code that is not recognised, or whose session is not there, and a refresh token whose session is not there, are answered
with the error that the standard has for them. -/
theorem C108_unknown_partial (E : Env) (w : World) (client : String) (req : TokenReq) (gt v : String) (e : Exc)
    (hcl : NotExcluded E.cfg client gt) (hgt : req.grantType = some gt) (hs : sessionByToken E w v = .error e)
    (h : (gt = "authorization_code" ∧ req.code = some v ∧ (NotThere e ∨ e = .unknownToken)) ∨
      (gt = "refresh_token" ∧ req.refreshToken = some v ∧ NotThere e)) :
    (tokenParse E w client { req with clientId := some client }).1 = .ok (.err "invalid_grant") := by
  obtain ⟨cl, hc, hx⟩ := hcl
  have hr : grantTypeRefused cl gt = false := by
    unfold grantTypeRefused
    split
    · rename_i l hl; simpa using hx l hl
    · rfl
  unfold tokenParse
  simp only [hgt, hc, hr, Bool.false_eq_true, if_false]
  rcases h with ⟨rfl, hv, he⟩ | ⟨rfl, hv, he⟩
  · rw [if_pos rfl]
    unfold codeParseW
    simp only [hv, hs]
    rw [if_pos]
    simp only [Bool.or_eq_true, decide_eq_true_eq]
    exact he.imp notThere_iff.2 id
  · rw [if_neg (by decide), if_pos rfl]
    unfold refreshParseW
    simp only [hv, hs]
    rw [if_pos (notThere_iff.2 he)]

/-- A request of another client than the token's. -/
theorem codeProcess_wrong {cfg : TokenCfg} {mk : Minter} {clock : Int} {kw : Option Bool} {sc c v : String} {req : TokenReq} {gs : GS}
    (hq : req.clientId = some c) (h : sc ≠ c) :
    codeProcess cfg mk clock kw sc req v gs = (.ok (.err "invalid_grant"), gs) := by
  unfold codeProcess codeMint
  simp only [hq]
  rw [if_pos h]
  rfl

theorem refreshProcess_wrong {cfg : TokenCfg} {mk : Minter} {clock : Int} {kw : Option Bool} {sc c v : String} {req : TokenReq} {gs : GS}
    (hq : req.clientId = some c) (h : sc ≠ c) :
    refreshProcess cfg mk clock kw sc req v gs = (.ok (.err "invalid_grant"), gs) := by
  unfold refreshProcess
  simp only [hq]
  rw [if_pos h]
  rfl

/-- A request with another redirect URI than that of the authorization. -/
theorem codeProcess_mismatch {cfg : TokenCfg} {mk : Minter} {clock : Int} {kw : Option Bool} {c v : String} {req : TokenReq}
    {g : Grant} {n : Nat} {b : Token} {ar : AuthzReq} {supported : List String} (hq : req.clientId = some c)
    (hsup : grantTypesFor cfg c = .ok supported) (hget : g.getToken v = some b) (har : g.authzReq = some ar)
    (hred : redirectCheck ar req = .ok false) :
    ∃ gs, codeProcess cfg mk clock kw c req v ⟨g, n⟩ = (.ok (.err "invalid_request"), gs) := by
  obtain ⟨j, hj⟩ := dpopGrant_fields (cfg.flavor = .oidc && cfg.dpopEnabled) req g
  have hget0 : (dpopGrant (cfg.flavor = .oidc && cfg.dpopEnabled) req g).getToken v = some b := by rw [hj]; exact hget
  have har0 : (dpopGrant (cfg.flavor = .oidc && cfg.dpopEnabled) req g).authzReq = some ar := by rw [hj]; exact har
  refine ⟨⟨dpopGrant (cfg.flavor = .oidc && cfg.dpopEnabled) req g, n⟩, ?_⟩
  unfold codeProcess codeMint
  rw [hq]
  simp only [ne_eq, not_true_eq_false, if_false, SE.bind_apply, dpopStep_eq, SE.get_apply, hget0, SE.ofExcept_apply, hsup,
    har0, hred]
  rfl

theorem processed_code {E : Env} {w : World} {kw : Option Bool} {q : TokenReq} {v c : String} {s : Sess} {gs : GS}
    (hgt : q.grantType = some "authorization_code") (hv : q.code = some v) (hp : spaceToPlus v = v)
    (hs : sessionByToken E w v = .ok s)
    (hr : codeProcess E.cfg (minter E s.sid) w.now kw s.client q v ⟨s.grant, w.n⟩ = (.ok (.err c), gs)) :
    (tokenProcess E w kw q).1 = .ok (.err c) := by
  unfold tokenProcess tokenHelper
  simp only [hgt, if_true, hv, hp, hs, hr]

theorem processed_refresh {E : Env} {w : World} {kw : Option Bool} {q : TokenReq} {v c : String} {s : Sess} {gs : GS}
    (hgt : q.grantType = some "refresh_token") (hv : q.refreshToken = some v) (hs : sessionByToken E w v = .ok s)
    (hr : refreshProcess E.cfg (minter E s.sid) w.now kw s.client q v ⟨s.grant, w.n⟩ = (.ok (.err c), gs)) :
    (tokenProcess E w kw q).1 = .ok (.err c) := by
  unfold tokenProcess tokenHelper
  simp only [hgt, if_neg (show ¬ ("refresh_token" = "authorization_code") by decide), if_true, hv, hs, hr]

/-- C108. Processing a request with a live code, by whatever client and with whatever redirect URI, gives tokens to the client of the
session that gives the redirect URI of the authorization, and an error to everybody else; it never raises. -/
theorem C108_code_partial (E : Env) (w : World) (hw : Reachable E w) (kw : Option Bool) (client : String) (req : TokenReq) (v : String)
    (s : Sess) (i : Nat) (t : Token) (mints : List TokenClass) (ar : AuthzReq) (asked : List String)
    (hgt : req.grantType = some "authorization_code") (hcl : E.cfg.cdb.has s.client = true) (hv : req.code = some v)
    (hs : sessionByToken E w v = .ok s) (hl : Live w s i t mints) (htv : t.value = v)
    (har : s.grant.authzReq = some ar) (hasked : ar.scope = some asked)
    (hred : ar.redirectUri ≠ none → req.redirectUri ≠ none) (hh : HandlersWork E w s) :
    (client ≠ s.client ∧ (tokenProcess E w kw { req with clientId := some client }).1 = .ok (.err "invalid_grant")) ∨
    (client = s.client ∧ ar.redirectUri ≠ none ∧ req.redirectUri ≠ ar.redirectUri ∧
      (tokenProcess E w kw { req with clientId := some client }).1 = .ok (.err "invalid_request")) ∨
    (client = s.client ∧ (ar.redirectUri = none ∨ req.redirectUri = ar.redirectUri) ∧
      ∃ r, (tokenProcess E w kw { req with clientId := some client }).1 = .ok (.resp r) ∧ Usable E w s r) := by
  have hwi := (winv_reachable hw).core
  have hg := sessionByToken_grantAt hs
  have hget : s.grant.getToken v = some t := by
    have := hwi.getToken (r := s.ref) hg hl.held
    rw [htv] at this; exact this
  have hact : t.isActive w.now = true := (isActive_clock_iff _ _).2 hl.active
  have hplus : spaceToPlus v = v := by
    obtain ⟨k, sid, _, hm, _⟩ := hwi.prov s.ref s.grant i t hg hl.held
    rw [← htv]; exact hm.plus
  by_cases hc : client = s.client
  · subst hc
    obtain ⟨cl, hcl⟩ : ∃ cl, E.cfg.cdb.get? s.client = some cl := by
      unfold Dict.has at hcl
      exact Option.isSome_iff_exists.1 hcl
    have hsup : grantTypesFor E.cfg s.client = .ok (cl.grantTypes.getD E.cfg.providerGrantTypes) := by
      unfold grantTypesFor; rw [hcl]
    by_cases hr : ar.redirectUri = none ∨ req.redirectUri = ar.redirectUri
    · have hrc : redirectCheck ar { req with clientId := some s.client } = .ok true := by
        unfold redirectCheck
        cases hu : ar.redirectUri with
        | none => rfl
        | some u =>
          rw [hu] at hr
          rcases hr with h | h
          · cases h
          · simp only [h, decide_true]
      have hiw : idTokenWanted E.cfg.flavor ar mints =
          .ok (decide (E.cfg.flavor = .oidc ∧ "openid" ∈ asked ∧ TokenClass.idToken ∈ mints)) := by
        unfold idTokenWanted
        cases E.cfg.flavor with
        | oauth2 => simp
        | oidc => simp [hasked]
      obtain ⟨r, gs, new, hres, hra, _⟩ := codeProcess_ok (cfg := E.cfg) (kw := kw) (req := { req with clientId := some s.client })
        (n := w.n) rfl hsup (ancestry_reachable hwi hg) hl.held htv (live_openGrant hl) hact hl.rules hl.access har hrc hiw (minter_works hh)
      have hn' := commit_session hs hh gs (hh.read w.n (Nat.le_refl _))
      refine .inr (.inr ⟨rfl, hr, r, ?_, _, hra, hh.read _ (Nat.le_refl _)⟩)
      rw [process_code (q := { req with clientId := some s.client }) hgt hv hplus hs hres hra hn']
    · have h1 : ar.redirectUri ≠ none := fun h => hr (.inl h)
      have h2 : req.redirectUri ≠ ar.redirectUri := fun h => hr (.inr h)
      have hrc : redirectCheck ar { req with clientId := some s.client } = .ok false := by
        unfold redirectCheck
        cases hu : ar.redirectUri with
        | none => exact absurd hu h1
        | some u =>
          cases hu' : req.redirectUri with
          | none => exact absurd hu' (hred h1)
          | some u' =>
            have : u' ≠ u := by rintro rfl; exact h2 (by rw [hu, hu'])
            simp only [decide_eq_false this]
      obtain ⟨gs, hres⟩ := codeProcess_mismatch (mk := minter E s.sid) (clock := w.now) (kw := kw) (n := w.n)
        (req := { req with clientId := some s.client }) rfl hsup hget har hrc
      exact .inr (.inl ⟨rfl, h1, h2, processed_code hgt hv hplus hs hres⟩)
  · exact .inl ⟨hc, processed_code hgt hv hplus hs (codeProcess_wrong rfl (fun h => hc h.symm))⟩

/-- C108. Processing a request with a live refresh token, by whatever client and with whatever scope, gives tokens to the client of
the session and an error to everybody else; it never raises. -/
theorem C108_refresh_partial (E : Env) (w : World) (hw : Reachable E w) (kw : Option Bool) (client : String) (req : TokenReq)
    (v : String) (s : Sess) (i : Nat) (t : Token) (mints : List TokenClass)
    (hgt : req.grantType = some "refresh_token") (hv : req.refreshToken = some v)
    (hs : sessionByToken E w v = .ok s) (hl : Live w s i t mints) (htv : t.value = v) (hh : HandlersWork E w s) :
    (client ≠ s.client ∧ (tokenProcess E w kw { req with clientId := some client }).1 = .ok (.err "invalid_grant")) ∨
    (client = s.client ∧
      ∃ r, (tokenProcess E w kw { req with clientId := some client }).1 = .ok (.resp r) ∧ Usable E w s r) := by
  have hwi := (winv_reachable hw).core
  have hg := sessionByToken_grantAt hs
  have hget : s.grant.getToken v = some t := by
    have := hwi.getToken (r := s.ref) hg hl.held
    rw [htv] at this; exact this
  by_cases hc : client = s.client
  · subst hc
    obtain ⟨found, hfs⟩ := ((C18_ancestry E w hw).2.2 s.ref s.grant t (grantAt_iff.1 hg) (List.mem_of_getElem? hl.held)).2
    obtain ⟨r, gs, t1, idt, hres, hra, _⟩ := refreshProcess_ok (cfg := E.cfg) (kw := kw) (req := { req with clientId := some s.client })
      (n := w.n) rfl hget (live_openGrant hl) ((isActive_clock_iff _ _).2 hl.active) hl.rules hl.access hfs rfl (minter_works hh)
    have hn' := commit_session hs hh gs (hh.read w.n (Nat.le_refl _))
    refine .inr ⟨rfl, r, ?_, _, hra, hh.read _ (Nat.le_refl _)⟩
    rw [process_refresh (q := { req with clientId := some s.client }) hgt hv hs hres hra hn']
  · exact .inl ⟨hc, processed_refresh hgt hv hs (refreshProcess_wrong rfl (fun h => hc h.symm))⟩

/-! ### The theorems are about something, and where the code raises -/

/-- C108. Whatever goes wrong with the encryption of a token while a request is processed - in any state, for any request - the client
gets an answer: the exception is never seen. -/
theorem C108_encryption (E : Env) (hi : ∀ v t, E.info v t ≠ .error .jweException) (hd : ∀ sid, E.decrypt sid ≠ .error .jweException)
    (w : World) (kw : Option Bool) (req : TokenReq) : (tokenProcess E w kw req).1 ≠ .error .jweException := by
  have hdb : ∀ path st, dbGet path st ≠ .error .jweException := by
    intro path st h
    have hsub : ∀ o, subordinateOf o ≠ .error .jweException := by
      intro o ho
      cases o <;> cases ho
    unfold dbGet at h
    repeat' split at h
    all_goals first
      | (cases h; done)
      | (cases h; exact hsub _ (by assumption))
  have hs : ∀ w' v, sessionByToken E w' v ≠ .error .jweException := by
    intro w' v h
    unfold sessionByToken at h
    cases h1 : E.info v w'.now with
    | error e => rw [h1] at h; cases h; exact hi _ _ h1
    | ok o =>
      rw [h1] at h
      simp only [] at h
      cases h2 : truthyStr o with
      | none => rw [h2] at h; cases h
      | some sid =>
        rw [h2] at h
        simp only [] at h
        unfold sessionOf at h
        split at h
        · rename_i e he; cases h; exact hd _ he
        · split at h
          · rename_i e he; cases h; exact hdb _ _ he
          · split at h <;> cases h
        · cases h
  intro h
  unfold tokenProcess at h
  split at h
  · rename_i e w' he
    split at h
    · cases h
    · rename_i hne; cases h; exact hne rfl
  · cases h
  · cases h
  · split at h
    · cases h
    · split at h
      · rename_i he; cases h; exact hs _ _ he
      · cases h

namespace Ex

/-- The code of `asked0`. -/
def code0 : String := E.mkVal 1 .authorizationCode (sid "c1" 0)

theorem live0 : Live asked0 sess0 0 ((sess0.grant.issuedToken[0]?).getD default) [.accessToken, .refreshToken, .idToken] := by
  refine ⟨by decide +kernel, (isActive_clock_iff _ _).1 ?_, (isActive_clock_iff _ _).1 ?_, ?_, ?_, by decide⟩ <;> decide +kernel

/-- C108: the hypotheses of the theorem about codes. -/
example (client : String) (u : String) := C108_code_partial E asked0 ⟨1000, _, rfl⟩ none client { codeReq code0 with redirectUri := some u }
  code0 sess0 0 ((sess0.grant.issuedToken[0]?).getD default) [.accessToken, .refreshToken, .idToken] (authzReq "c1")
  ["openid", "email", "offline_access"] rfl (by decide +kernel) rfl (by decide +kernel) live0 (by decide +kernel) (by decide +kernel)
  (by decide +kernel) (fun _ h => by cases h) (works rfl rfl)

/-- C108: the hypotheses of the theorem about refresh tokens. -/
example (client : String) (sc : Option (List String)) := C108_refresh_partial E _ ⟨1000, start "c1", rfl⟩ none client
  (refreshReq (E.mkVal 3 .refreshToken (sid "c1" 0)) sc) _ sess1 2 refresh1 _ rfl rfl sess1_ok live1 (by decide +kernel) (works rfl rfl)

/-- C108: some requests and their answers: a code that does not exist, one of a session that has ended, a grant type that does not
exist. -/
example : ((tokenParse E asked0 "c1" { codeReq "abc" with clientId := some "c1" }).1 = .ok (.err "invalid_grant")) ∧
    ((tokenParse E (run E asked0 [.removeSession (sid "c1" 0)]) "c1" { codeReq code0 with clientId := some "c1" }).1 =
      .ok (.err "invalid_grant")) ∧
    ((tokenParse E asked0 "c1" { grantType := some "password", clientId := some "c1" }).1 = .ok (.err "invalid_request")) := by
  decide +kernel

/-- C108 is false of the code for refresh tokens that are not recognised: UnknownToken is not caught (oauth2/token.py:333-337,
oidc/token.py:327-331). -/
theorem C108_unknown_refresh_refuted :
    ¬ (∀ (E : Env) (w : World), Reachable E w → ∀ (client v : String), E.cfg.cdb.has client = true →
      Answered (tokenParse E w client { grantType := some "refresh_token", refreshToken := some v, clientId := some client }).1) := by
  intro h
  obtain ⟨a, ha⟩ := h E asked0 ⟨1000, _, rfl⟩ "c1" "abc" (by decide +kernel)
  have : (tokenParse E asked0 "c1" { grantType := some "refresh_token", refreshToken := some "abc", clientId := some "c1" }).1 =
    .error .unknownToken := by decide +kernel
  rw [this] at ha
  cases ha

/-- C108 is false of the code for the tokens of a session that has ended while the user has another one: the session database
raises a ValueError, which is not caught (session/database.py:107-108, oauth2/token.py:206-210). -/
theorem C108_ended_session_refuted :
    ¬ (∀ (E : Env) (w : World), Reachable E w → ∀ (client v : String) (s : Sess), E.cfg.cdb.has client = true →
      sessionByToken E w v = .ok s →
      Answered (tokenParse E (run E w [.removeSession s.sid]) client
        { grantType := some "authorization_code", code := some v, clientId := some client }).1) := by
  intro h
  have hs : ∃ s, sessionByToken E (run E asked0 [.login "d" "c2" (authzReq "c2") event]) code0 = .ok s ∧ s.sid = sid "c1" 0 :=
    ⟨{ sid := sid "c1" 0, user := "d", client := "c1", gid := E.uuid 0, ref := 2,
       grant := ((run E asked0 [.login "d" "c2" (authzReq "c2") event]).st.grantAt 2).getD {} }, by decide +kernel, rfl⟩
  obtain ⟨s, hs, hsid⟩ := hs
  obtain ⟨a, ha⟩ := h E (run E asked0 [.login "d" "c2" (authzReq "c2") event]) (reachable_run ⟨1000, _, rfl⟩ _) "c1" code0 s (by decide +kernel) hs
  rw [hsid] at ha
  have : (tokenParse E (run E (run E asked0 [.login "d" "c2" (authzReq "c2") event]) [.removeSession (sid "c1" 0)]) "c1"
    { grantType := some "authorization_code", code := some code0, clientId := some "c1" }).1 = .error .valueError := by decide +kernel
  rw [this] at ha
  cases ha

/-- C108 is false of the code for a code without the redirect URI of the authorization: a KeyError instead of an error message
(oauth2/token.py:137-139, oidc/token.py:79-81). -/
theorem C108_no_redirect_uri_refuted :
    ¬ (∀ (E : Env) (w : World), Reachable E w → ∀ (kw : Option Bool) (q : TokenReq),
      (∃ (client : String) (req : TokenReq), tokenParse E w client { req with clientId := some client } = (.ok (.req q), w)) →
      Answered (tokenProcess E w kw q).1) := by
  intro h
  obtain ⟨a, ha⟩ := h E asked0 ⟨1000, _, rfl⟩ none
    { grantType := some "authorization_code", code := some code0, clientId := some "c1" }
    ⟨"c1", { grantType := some "authorization_code", code := some code0 }, by decide +kernel⟩
  have : (tokenProcess E asked0 none { grantType := some "authorization_code", code := some code0, clientId := some "c1" }).1 =
    .error .keyError := by decide +kernel
  rw [this] at ha
  cases ha

/-- C108: a handler that cannot encrypt the access token.  The client gets an answer. -/
def cannotEncrypt : Env := env cfg authz (fun n _ => if n = 2 then some .jweException else none)

example (w : World) (kw : Option Bool) (req : TokenReq) := C108_encryption cannotEncrypt
  (by
    intro v t h
    have h' : info v = .error .jweException := h
    unfold info at h'
    (repeat' split at h') <;> cases h')
  (fun sid h => by cases h) w kw req

example : (tokenProcess cannotEncrypt asked0 none { codeReq code0 with clientId := some "c1" }).1 = .ok (.err "invalid_request") ∧
    (match (tokenProcess E asked0 none { codeReq code0 with clientId := some "c1" }).1 with
      | .ok (.resp r) => r.accessToken.isSome
      | _ => false) = true := by
  decide +kernel

end Ex
end OidcOp
