/-
C86: session cookies lead back to the sessions of the users who got them.
-/
import Verif.Props.Ended
import Verif.Spec.SessionCookie

namespace OidcOp
open Spec

/-- C86 for the authorization endpoint, for names as in C68.  Every cookie it ever gives out can be read again, and leads to
a session of one user with one client.  This user has logged in for this client. -/
theorem C86_cookie_partial (p : Prov) (U : String → Prop) (hn : Names p U) (now : Int) (ops : List POp)
    (hf : ∀ op ∈ ops, FairP p U op) (k : SessionCookie) (hk : k ∈ (provHistory p now ops).cookies) :
    ∃ x ∈ (provHistory p now ops).logins, ∃ c, x.req.clientId = some c ∧ LeadsTo p.E k x.user c := by
  obtain ⟨h, -⟩ := endInv_history hn (passing_vetted p (names_ne hn)) now ops hf
  obtain ⟨i, u, c, m, h1, -, h3, ev, x, hx, h4, h5, -⟩ := h.cooks k hk
  refine ⟨x, hx, c, h5, p.E.uuid m, ?_⟩
  rw [h3, h4]
  exact p.E.decrypt_enc i u c _ h1.2.1 h1.2.2.1 h1.2.2.2

theorem cookieOf_now {E : Env} {w : World} {sid : String} {req : AuthzReq} {k : SessionCookie} (h : cookieOf E w sid req = some k) :
    k.timestamp = w.now := by
  unfold cookieOf at h
  split at h
  · split at h
    · cases h; rfl
    · cases h
  · cases h

theorem settle_cookies {s : PState} {req : AuthzReq} {x : Except Exc ProcRes × World} {k : SessionCookie}
    (h : k ∈ (settle s req x).cookies) : k ∈ s.cookies ∨ ∃ sid u, x.1 = .ok (.part2 sid u (some k)) := by
  unfold settle at h
  split at h
  · exact .inl h
  · simp only [List.mem_append, List.mem_singleton] at h
    rcases h with h | rfl
    · exact .inl h
    · exact .inr ⟨_, _, rfl⟩
  · exact .inl h

theorem processAuthz_cookie {L : LoginCfg} {E : Env} {w : World} {req : AuthzReq} {hint : List String}
    {cookies : List SessionCookie} {ru : Option (Option String)} {sid u : String} {k : SessionCookie}
    (h : (processAuthz L E w req hint cookies ru).1 = .ok (.part2 sid u (some k))) : k.timestamp = w.now := by
  unfold processAuthz at h
  split at h
  · cases h
  · split at h
    · cases h
    · split at h
      · cases h
      · split at h
        · cases h
        · rename_i m _
          have hn := setupAuth_now E L.loads m w req cookies ru
          split at h
          · cases h
          · cases h
          · cases h
          · rename_i he
            rw [he] at hn
            simp only [Except.ok.injEq, ProcRes.part2.injEq] at h
            rw [cookieOf_now h.2.2]
            exact hn

/-- C86, time.  A cookie that the authorization endpoint gives out has the time at which it is given out. -/
theorem C86_cookie_time (p : Prov) (now : Int) (ops : List POp) (op : POp) (k : SessionCookie)
    (hk : k ∈ (provHistory p now (ops ++ [op])).cookies) (hold : k ∉ (provHistory p now ops).cookies) :
    k.timestamp = (provHistory p now ops).w.now := by
  have hh : provHistory p now (ops ++ [op]) = provStep p (provHistory p now ops) op := by
    unfold provHistory provRun
    rw [List.foldl_append]; rfl
  rw [hh] at hk
  generalize provHistory p now ops = s at hk hold
  have hpar : ∀ (client : String) (a b : PState), (a.cookies = s.cookies ∧ a.w = s.w) → ParStep client a b →
      (b.cookies = s.cookies ∧ b.w = s.w) := by
    intro client a b ha hab
    obtain ⟨e1, _, e3, _⟩ := parStep_fields hab
    rw [e1, e3]; exact ha
  cases op with
  | push client req =>
    have h1 := parsePush_par (I := fun s' => s'.cookies = s.cookies ∧ s'.w = s.w) (hpar client) p req (s := s) ⟨rfl, rfl⟩
    simp only [provStep] at hk
    split at hk
    · rename_i r s' he
      rw [he] at h1
      exact absurd (h1.1 ▸ hk) hold
    · rename_i x s' _ he
      rw [he] at h1
      exact absurd (h1.1 ▸ hk) hold
  | request client req cookies hint ru =>
    have h1 := parseAuthz_par (I := fun s' => s'.cookies = s.cookies ∧ s'.w = s.w) (hpar client) p req (s := s) ⟨rfl, rfl⟩
    simp only [provStep] at hk
    split at hk
    · rename_i r s' he
      rw [he] at h1
      rcases settle_cookies hk with hk | ⟨sid, u, hk⟩
      · rw [h1.1] at hk; exact absurd hk hold
      · rw [processAuthz_cookie hk, h1.2]
    · rename_i x s' _ he
      rw [he] at h1
      rw [h1.1] at hk; exact absurd hk hold
  | loggedIn i user =>
    simp only [provStep] at hk
    split at hk
    · exact absurd hk hold
    · rename_i req m hi
      unfold finishLogin at hk
      cases hs : startSession p.E s.w m req user with
      | mk a w' =>
        simp only [hs] at hk
        cases a with
        | error e => exact absurd hk hold
        | ok sid =>
          simp only [] at hk
          rcases settle_cookies hk with hk | ⟨sid', u, hk⟩
          · exact absurd hk hold
          · simp only [Except.ok.injEq, ProcRes.part2.injEq] at hk
            rw [cookieOf_now hk.2.2]
            have hst : (startSession p.E s.w m req user).2.now = s.w.now := by
              unfold startSession
              split
              · rfl
              · simp only []
                split <;> rfl
            rw [hs] at hst
            exact hst
  | token client req => exact absurd hk hold
  | tick d => exact absurd hk hold
  | redeem i kw => exact absurd hk hold
  | revokeToken sid v rec => exact absurd hk hold
  | revokeGrant sid => exact absurd hk hold
  | revokeClientSession sid => exact absurd hk hold
  | removeSession sid => exact absurd hk hold

/-- What a request with an unreadable cookie in front comes to. -/
theorem unreadable_fails {L : LoginCfg} {E : Env} {w : World} {req : AuthzReq} {hint : List String} {k : SessionCookie}
    {ks : List SessionCookie} {ru : Option (Option String)} {e : Exc} (h : E.decrypt k.sid = .error e) (hc : caughtAuthn e = false) :
    ∃ e' w', processAuthz L E w req hint (k :: ks) ru = (.error e', w') := by
  unfold processAuthz
  split
  · exact ⟨_, _, rfl⟩
  · split
    · exact ⟨_, _, rfl⟩
    · split
      · exact ⟨_, _, rfl⟩
      · split
        · exact ⟨_, _, rfl⟩
        · rename_i m _
          have : setupAuth E L.loads m w req (k :: ks) ru = (.error e, w) := by
            unfold setupAuth findIdentity authenticatedAs cookieInfo
            rw [h]
            simp [hc]
          rw [this]
          exact ⟨_, _, rfl⟩

namespace Ex

/-- The environment of the examples with a cipher that takes nothing but what it has made. -/
def strictE : Env :=
  { E with
    decrypt := fun s => match E.decrypt s with
      | .ok l => if E.encSid 0 l = s then .ok l else .error .valueError
      | .error e => .error e
    decrypt_enc := by
      intro n u c g h1 h2 h3
      rw [E.decrypt_enc n u c g h1 h2 h3]
      exact if_pos rfl }

def strictProv : Prov := { prov with E := strictE }

theorem names_strict : Names strictProv isD := by
  refine ⟨names_prov.users, names_prov.clients, ?_⟩
  intro n u c g h
  exact names_prov.sids n u c g h

theorem fair_strict : ∀ op ∈ session, FairP strictProv isD op := by
  intro op hop
  simp only [session, List.mem_cons, List.not_mem_nil, or_false] at hop
  rcases hop with rfl | rfl | rfl | rfl | rfl | rfl <;> first | trivial | rfl

/-- Two cookies of one user with one client. -/
example : (provHistory strictProv 1000 session).cookies.map (fun k => strictProv.E.decrypt k.sid) =
      [.ok ["d", "c1", E.uuid 0], .ok ["d", "c1", E.uuid 5]] ∧
    (provHistory strictProv 1000 session).logins.map (·.user) = ["d"] := by decide +kernel

/-- C86, time: the second cookie is given out at 1005. -/
example : (provHistory strictProv 1000 session).cookies.map (·.timestamp) = [1000, 1005] := by decide +kernel

/-- The access token of the history. -/
def firstAccess : String :=
  (((((provHistory strictProv 1000 session).w.st.grantAt 2).getD {}).issuedToken.find? (fun t => t.cls == .accessToken)).getD default).value

/-- C86 is false of the code at the token endpoint: its cookie has the session key where the encrypted session id should be. -/
theorem C86_token_cookie_refuted :
    ¬ (∀ (E : Env) (w : World), Reachable E w → ∀ (v : String) (s : Sess) (k : SessionCookie), sessionByToken E w v = .ok s →
      tokenCookie E w v = .ok k → LeadsTo E k s.user s.client) := by
  intro h
  have hr : Reachable strictE (provHistory strictProv 1000 session).w :=
    (pinv_history names_strict (passing_vetted strictProv (names_ne names_strict)) 1000 session fair_strict).world.reach
  let s : Sess := { sid := E.encSid 0 ["d", "c1", E.uuid 0], user := "d", client := "c1", gid := E.uuid 0, ref := 2
                    grant := ((provHistory strictProv 1000 session).w.st.grantAt 2).getD {} }
  obtain ⟨gid, hg⟩ := h strictE _ hr firstAccess s { sid := "d;;c1;;u", timestamp := 1005 } (by decide +kernel) (by decide +kernel)
  have he : strictE.decrypt "d;;c1;;u" = .error .valueError := by decide +kernel
  rw [he] at hg
  cases hg

/-- With this cookie in front, the authorization endpoint answers no request at all. -/
example (w : World) (req : AuthzReq) (hint : List String) (ks : List SessionCookie) (ru : Option (Option String)) :
    ∃ e w', processAuthz strictProv.L strictE w req hint ({ sid := "d;;c1;;u", timestamp := 1005 } :: ks) ru = (.error e, w') :=
  unreadable_fails (e := .valueError) (by decide +kernel) (by decide)

end Ex

end OidcOp
