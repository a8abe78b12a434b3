/-
C77: who has authenticated with a password.
-/
import Verif.Spec.UserAuthn
import Verif.Lemmas.Split
import Verif.Props.Login

namespace OidcOp
open Spec

theorem stripBasic_spec (auth : Str) :
    auth = stripBasic auth ∧ ¬ "Basic".toList <+: auth ∨ ∃ rest, auth = "Basic".toList ++ rest ∧ stripBasic auth = rest.drop 1 := by
  unfold stripBasic
  cases h : "Basic".toList.isPrefixOf auth with
  | false =>
    left
    refine ⟨rfl, fun hp => ?_⟩
    rw [List.isPrefixOf_iff_prefix.2 hp] at h
    cases h
  | true =>
    right
    obtain ⟨rest, hr⟩ := List.isPrefixOf_iff_prefix.1 h
    refine ⟨rest, hr.symm, ?_⟩
    rw [if_pos rfl, ← hr]
    rfl

theorem stripBasic_unique {auth text : Str}
    (h : auth = text ∧ ¬ "Basic".toList <+: auth ∨ ∃ rest, auth = "Basic".toList ++ rest ∧ text = rest.drop 1) :
    stripBasic auth = text := by
  unfold stripBasic
  rcases h with ⟨rfl, h⟩ | ⟨rest, rfl, rfl⟩
  · rw [if_neg (fun hb => h (List.isPrefixOf_iff_prefix.1 hb))]
  · rw [if_pos (List.isPrefixOf_iff_prefix.2 ⟨rest, rfl⟩)]
    rfl

theorem basicPair_iff (L : BasicLib) (auth : Str) (u p : Str) :
    basicPair L auth = .ok (u, p) ↔ PresentsBasic L auth (String.ofList u) (String.ofList p) := by
  unfold basicPair PresentsBasic
  constructor
  · intro h
    split at h
    · cases h
    · rename_i b hb
      split at h
      · rename_i bu bp hs
        split at h
        · cases h
        · rename_i u' hu
          split at h
          · cases h
          · rename_i p' hp
            simp only [Except.ok.injEq, Prod.mk.injEq] at h
            have hj := pyJoin_pySplit1 ':' b
            have hf := pySplit1_free ':' b
            rw [hs] at hj hf
            refine ⟨stripBasic auth, b, bu, bp, ?_, hb, by rw [← hj]; simp [pyJoin], hf _ (by simp), hf _ (by simp),
              ⟨u', hu, by rw [h.1]⟩, by rw [hp, ← h.2]; simp⟩
            exact stripBasic_spec auth
      · cases h
  · rintro ⟨text, b, bu, bp, ht, hb, rfl, h1, h2, ⟨u', hu, hu2⟩, hp⟩
    have hs : pySplit [':'] (bu ++ ':' :: bp) = [bu, bp] := by
      have := pySplit1_join ':' [bu, bp] (by simp) (by simp [h1, h2])
      simpa [pyJoin] using this
    rw [stripBasic_unique ht, hb]
    simp only [hs, hu, hp]
    have : L.unquote u' = u := by
      have := congrArg String.toList hu2
      simpa using this.symm
    rw [this]
    simp

/-- Where the identity of a user with a password comes from. -/
theorem authenticatedBy_basic {E : Env} {L : BasicLib} {now : Int} {client : Option String} {cookies : List SessionCookie}
    {maxAge : Int} {auth : String} {passwd : Dict String} {o : Option Identity}
    (h : authenticatedBy E L now client cookies maxAge auth (.basic passwd) = .ok o) :
    ∃ user pwd, PresentsBasic L auth.toList user pwd ∧ passwd.get? user = some pwd ∧
      ∃ i, o = some i ∧ withCookie E client cookies user = .ok i := by
  simp only [authenticatedBy] at h
  split at h
  · cases h
  · rename_i u p hp
    split at h
    · cases h
    · rename_i hv
      refine ⟨String.ofList u, String.ofList p, (basicPair_iff ..).1 hp, ?_, ?_⟩
      · unfold verifyPassword at hv
        split at hv
        · cases hv
        · rename_i q hq
          split at hv
          · cases hv
          · rename_i hne
            rw [hq]
            exact congrArg some (Decidable.not_not.1 hne).symm
      · cases hw : withCookie E client cookies (String.ofList u) with
        | error e => rw [hw] at h; cases h
        | ok i =>
          rw [hw] at h
          exact ⟨i, (Except.ok.inj h).symm, rfl⟩

theorem cookieInfo_none {E : Env} {cookies : List SessionCookie} {c : String} (h : NoCookieFor E cookies c) :
    cookieInfo E (some c) cookies = .ok none := by
  induction cookies with
  | nil => rfl
  | cons k ks ih =>
    obtain ⟨u, c', rest, hd, hne⟩ := h k (by simp)
    have hks := ih (fun k' hk' => h k' (List.mem_cons_of_mem _ hk'))
    have hne' : some c' ≠ some c := fun e => hne (Option.some.inj e)
    unfold cookieInfo
    cases rest with
    | nil => simp only [hd, if_pos hne', hks]
    | cons g rest => simp only [hd, if_pos hne', hks]

/-- An identity comes from the password or from a cookie for the client. -/
theorem withCookie_spec {E : Env} {client : Option String} {cookies : List SessionCookie} {user : String} {i : Identity}
    (h : withCookie E client cookies user = .ok i) :
    i = { uid := some user } ∨ ∃ k ∈ cookies, ∃ u c g rest, E.decrypt k.sid = .ok (u :: c :: g :: rest) ∧ client = some c ∧
      i = { uid := some u, sid := some k.sid } := by
  unfold withCookie at h
  split at h
  · exact .inl (Except.ok.inj h).symm
  · split at h
    · cases h
    · exact .inl (Except.ok.inj h).symm
    · rename_i i' ts hc
      obtain ⟨k, hk, u, c, g, rest, hd, hcl, hi, _⟩ := cookieInfo_spec hc
      right
      refine ⟨k, hk, u, c, g, rest, hd, hcl, ?_⟩
      rw [← Except.ok.inj h, hi]

/-- The identity that `setup_auth` goes on with, for plain names. -/
theorem findIdentityBy_basic {E : Env} {L : BasicLib} {loads : List Nat → Except Exc Identity} {passwd : Dict String} {w : World}
    {req : AuthzReq} {cookies : List SessionCookie} {auth : String} {i : Identity}
    (h : findIdentityBy E L loads (.basic passwd) w req cookies auth = .ok (some i)) :
    ∃ user pwd, PresentsBasic L auth.toList user pwd ∧ passwd.get? user = some pwd ∧
      (PlainName user → PlainCookies E cookies → withCookie E req.clientId cookies user = .ok i) := by
  unfold findIdentityBy at h
  cases ha : authenticatedBy E L w.now req.clientId cookies (maxAgeOf req) auth (.basic passwd) with
  | error e =>
    rw [ha] at h
    simp only [] at h
    split at h <;> cases h
  | ok o =>
    obtain ⟨user, pwd, h1, h2, j, rfl, h4⟩ := authenticatedBy_basic ha
    rw [ha] at h
    simp only [] at h
    refine ⟨user, pwd, h1, h2, fun hpu hpc => ?_⟩
    have hplain : ∃ x, j.uid = some x ∧ PlainName x := by
      rcases withCookie_spec h4 with rfl | ⟨k, hk, u, c, g, rest, hd, _, rfl⟩
      · exact ⟨user, rfl, hpu⟩
      · exact ⟨u, rfl, hpc k hk u _ hd⟩
    obtain ⟨x, hx, hpx⟩ := hplain
    rw [h4]
    simp only [unwrapIdentity, hx, b64d_plain hpx, checkIdentity] at h
    repeat' split at h
    all_goals first
      | (cases h; done)
      | (simp only [Except.ok.injEq, Option.some.injEq] at h; rw [h])

/-- C77. With password authentication the authorization endpoint gives a session only to a request whose header carries a
user's name and that user's password. -/
theorem C77_password_needed (E : Env) (L : BasicLib) (loads : List Nat → Except Exc Identity) (passwd : Dict String)
    (m : AuthnMethod) (w w' : World) (req : AuthzReq) (cookies : List SessionCookie) (auth : String) (reqUser : Option (Option String))
    (sid user : String)
    (h : setupAuthBy E L loads (.basic passwd) m w req cookies auth reqUser = (.ok (.session sid user), w')) :
    ∃ u pwd, PresentsBasic L auth.toList u pwd ∧ passwd.get? u = some pwd := by
  unfold setupAuthBy at h
  cases hi : findIdentityBy E L loads (.basic passwd) w req cookies auth with
  | error e => rw [hi] at h; cases h
  | ok o =>
    cases o with
    | none =>
      rw [hi] at h
      simp only [setupRest, askLogin] at h
      repeat' split at h
      all_goals cases h
    | some i =>
      obtain ⟨u, pwd, h1, h2, _⟩ := findIdentityBy_basic hi
      exact ⟨u, pwd, h1, h2⟩

/-- C77. A header with a wrong password, or with a name that nobody has, is refused whatever the cookies, and nothing is
changed. -/
theorem C77_wrong_password (E : Env) (L : BasicLib) (loads : List Nat → Except Exc Identity) (passwd : Dict String)
    (m : AuthnMethod) (w : World) (req : AuthzReq) (cookies : List SessionCookie) (auth : String) (reqUser : Option (Option String))
    (u pwd : String) (hp : PresentsBasic L auth.toList u pwd) (hw : passwd.get? u ≠ some pwd) :
    ∃ e, setupAuthBy E L loads (.basic passwd) m w req cookies auth reqUser = (.error e, w) := by
  have hb : basicPair L auth.toList = .ok (u.toList, pwd.toList) := (basicPair_iff ..).2 (by simpa using hp)
  unfold setupAuthBy findIdentityBy
  simp only [authenticatedBy, hb, String.ofList_toList, verifyPassword]
  cases hg : passwd.get? u with
  | none => exact ⟨.keyError, rfl⟩
  | some q =>
    have hne : pwd ≠ q := fun e => hw (by rw [hg, e])
    simp only [if_pos hne]
    exact ⟨_, rfl⟩

/-- C77, for plain user names and a browser without cookies for this client (see the refutation for the others).  The session
is a new one, of the user whose password was given and of the client, with a login event of that user at the present. -/
theorem C77_user_partial (E : Env) (L : BasicLib) (loads : List Nat → Except Exc Identity) (passwd : Dict String)
    (m : AuthnMethod) (w w' : World) (req : AuthzReq) (cookies : List SessionCookie) (auth : String) (reqUser : Option (Option String))
    (sid user : String) (hpc : PlainCookies E cookies) (hpu : ∀ u ∈ passwd.keys, PlainName u)
    (hno : ∀ c, req.clientId = some c → NoCookieFor E cookies c)
    (h : setupAuthBy E L loads (.basic passwd) m w req cookies auth reqUser = (.ok (.session sid user), w')) :
    ∃ pwd c, PresentsBasic L auth.toList user pwd ∧ passwd.get? user = some pwd ∧ req.clientId = some c ∧
      sid = E.encSid w.n [user, c, E.uuid w.n] ∧ ∃ ev, w' = step E w (.login user c req ev) ∧ ev.uid = user ∧
        ev.authnTime = w.now := by
  unfold setupAuthBy at h
  cases hi : findIdentityBy E L loads (.basic passwd) w req cookies auth with
  | error e => rw [hi] at h; cases h
  | ok o =>
    cases o with
    | none =>
      rw [hi] at h
      simp only [setupRest, askLogin] at h
      repeat' split at h
      all_goals cases h
    | some i =>
      obtain ⟨u, pwd, h1, h2, h3⟩ := findIdentityBy_basic hi
      have hu : u ∈ passwd.keys := (Dict.get?_isSome_iff _ _).1 (by rw [h2]; rfl)
      have hi2 : i = { uid := some u } := by
        rcases withCookie_spec (h3 (hpu u hu) hpc) with h4 | ⟨k, hk, u', c, g, rest, hd, hcl, _⟩
        · exact h4
        · obtain ⟨a, b, r, hd', hne⟩ := hno c hcl k hk
          rw [hd] at hd'
          simp only [Except.ok.injEq, List.cons.injEq] at hd'
          exact absurd hd'.2.1.symm hne
      rw [hi, hi2] at h
      simp only [setupRest] at h
      split at h
      · cases h
      · split at h
        · cases h
        · split at h
          · simp only [askLogin] at h
            split at h <;> cases h
          · unfold startSession at h
            cases hc : req.clientId with
            | none => rw [hc] at h; cases h
            | some c =>
              rw [hc] at h
              simp only [] at h
              split at h
              · cases h
              · rename_i sid' w'' hs
                simp only [Prod.mk.injEq, Except.ok.injEq, SetupRes.session.injEq] at h
                obtain ⟨⟨rfl, rfl⟩, rfl⟩ := h
                split at hs
                · cases hs
                · simp only [Prod.mk.injEq, Except.ok.injEq] at hs
                  exact ⟨pwd, c, h1, h2, rfl, hs.1.symm, _, hs.2.symm, rfl, rfl⟩

/-- C77, for plain user names.  If all cookies for the client are the user's own then the session is that user's. -/
theorem C77_own_cookies_partial (E : Env) (L : BasicLib) (loads : List Nat → Except Exc Identity) (passwd : Dict String)
    (m : AuthnMethod) (w w' : World) (req : AuthzReq) (cookies : List SessionCookie) (auth : String) (reqUser : Option (Option String))
    (sid user u pwd : String) (hpc : PlainCookies E cookies) (hpu : ∀ u ∈ passwd.keys, PlainName u)
    (hpr : PresentsBasic L auth.toList u pwd) (hown : ∀ c, req.clientId = some c → OwnCookies E cookies c u)
    (h : setupAuthBy E L loads (.basic passwd) m w req cookies auth reqUser = (.ok (.session sid user), w')) :
    user = u := by
  unfold setupAuthBy at h
  cases hi : findIdentityBy E L loads (.basic passwd) w req cookies auth with
  | error e => rw [hi] at h; cases h
  | ok o =>
    cases o with
    | none =>
      rw [hi] at h
      simp only [setupRest, askLogin] at h
      repeat' split at h
      all_goals cases h
    | some i =>
      obtain ⟨u2, pwd2, h1, h2, h3⟩ := findIdentityBy_basic hi
      have hb1 := (basicPair_iff L auth.toList u.toList pwd.toList).2 (by simpa using hpr)
      have hb2 := (basicPair_iff L auth.toList u2.toList pwd2.toList).2 (by simpa using h1)
      rw [hb1] at hb2
      simp only [Except.ok.injEq, Prod.mk.injEq] at hb2
      have hu2 : u = u2 := String.toList_inj.1 hb2.1
      subst hu2
      have hi2 : i.uid = some u := by
        rcases withCookie_spec (h3 (hpu u ((Dict.get?_isSome_iff _ _).1 (by rw [h2]; rfl))) hpc) with h4 | ⟨k, hk, u', c, g, rest, hd, hcl, h4⟩
        · rw [h4]
        · rw [h4, hown c hcl k hk u' _ hd]
      rw [hi] at h
      simp only [setupRest, hi2] at h
      split at h
      · cases h
      · split at h
        · cases h
        · split at h
          · simp only [askLogin] at h
            split at h <;> cases h
          · split at h
            · exact (reuseSession_session h).choose_spec.choose_spec.choose_spec.choose_spec.choose_spec.2.2.2.2.1
            · split at h
              · cases h
              · simp only [Prod.mk.injEq, Except.ok.injEq, SetupRes.session.injEq] at h
                exact h.1.2.symm

/-- C77, the login form: exactly the name and password of a user are accepted, as that user. -/
theorem C77_form (db : Dict String) (name password user : String) :
    userPassVerify db name password = .ok user ↔ user = name ∧ db.get? name = some password := by
  unfold userPassVerify
  split
  · rename_i h
    constructor
    · intro e; exact ⟨(Except.ok.inj e).symm, h⟩
    · rintro ⟨rfl, _⟩; rfl
  · rename_i h
    constructor
    · intro e; cases e
    · rintro ⟨_, h2⟩; exact absurd h2 h

end OidcOp

namespace OidcOp.Ex
open OidcOp Spec

/-- A library for headers that are written in clear text. -/
def clear : BasicLib := { b64decode := .ok, decode := .ok, unquote := id }

/-- Two users. -/
def passwords : Dict String := [("d", "krall"), ("anna.", "secret")]

/-- C77: without a cookie the session is that of the user in the header, and a wrong password is refused. -/
example : (setupAuthBy E clear noJson (.basic passwords) {} init (authzReq "c1") [] "Basic d:krall" none).1 =
      .ok (.session (E.encSid 0 ["d", "c1", E.uuid 0]) "d") ∧
    PresentsBasic clear "Basic d:krall".toList "d" "krall" ∧
    (setupAuthBy E clear noJson (.basic passwords) {} init (authzReq "c1") [] "Basic d:secret" none).1 =
      .error (.other "FailedAuthentication") ∧
    (∀ u ∈ passwords.keys, PlainName u) := by
  refine ⟨by decide +kernel, (basicPair_iff clear _ "d".toList "krall".toList).1 (by decide +kernel), by decide +kernel, ?_⟩
  intro u hu
  simp [passwords, Dict.keys] at hu
  rcases hu with rfl | rfl
  · exact .inr ⟨by decide, by decide⟩
  · exact .inl ⟨'.', by decide, by decide⟩

/-- C77 is false of the code: someone gives anna's name and password in a browser that has the cookie of d's session, and
gets d's session. -/
theorem C77_other_cookie_refuted :
    ¬ (∀ (E : Env) (L : BasicLib) (loads : List Nat → Except Exc Identity) (passwd : Dict String) (m : AuthnMethod) (w : World),
      Reachable E w → ∀ (req : AuthzReq) (cookies : List SessionCookie) (auth : String) (sid user u pwd : String),
        PlainCookies E cookies → (∀ u ∈ passwd.keys, PlainName u) → PresentsBasic L auth.toList u pwd →
        (setupAuthBy E L loads (.basic passwd) m w req cookies auth none).1 = .ok (.session sid user) → user = u) := by
  intro h
  have hd : E.decrypt cookie.sid = .ok ["d", "c1", E.uuid 0] := by decide +kernel
  have := h E clear noJson passwords {} (signedIn 10) ⟨1000, _, rfl⟩ (authzReq "c1") [cookie] "Basic anna.:secret"
    (sid "c1" 0) "d" "anna." "secret"
    (by
      intro k hk u rest h
      simp at hk; subst hk
      rw [hd] at h; cases h
      exact .inr ⟨by decide, by decide⟩)
    (by
      intro u hu
      simp [passwords, Dict.keys] at hu
      rcases hu with rfl | rfl
      · exact .inr ⟨by decide, by decide⟩
      · exact .inl ⟨'.', by decide, by decide⟩)
    ((basicPair_iff clear _ "anna.".toList "secret".toList).1 (by decide +kernel)) (by decide +kernel)
  exact absurd this (by decide)

end OidcOp.Ex
