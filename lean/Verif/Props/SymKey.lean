/-
C116: who has authenticated with a token made with a shared key.
-/
import Verif.Spec.SymKey
import Verif.Props.PasswordWorks

namespace OidcOp
open Spec

theorem symKey_user_ok {L : SymLib} {k : SymKey} {auth u : Str} (h : k.user L auth = .ok u) : HasToken L k auth u := by
  unfold SymKey.user at h
  cases hb : L.b64decode auth with
  | error e => rw [hb] at h; cases h
  | ok b =>
    rw [hb] at h
    simp only [] at h
    split at h
    · rename_i c iv hs
      cases hd : L.decrypt k.key iv c with
      | error e =>
        rw [hd] at h
        simp only [] at h
        split at h <;> cases h
      | ok v =>
        rw [hd] at h
        cases h
        refine ⟨iv, ?_⟩
        have hj := pyJoin_pySplit1 ':' b
        rw [hs] at hj
        rw [hb, ← L.only _ _ _ _ hd, ← hj]
        simp [pyJoin]
    · cases h

theorem symKey_user_works {L : SymLib} {k : SymKey} {auth u : Str} (h : HasPlainToken L k auth u) : k.user L auth = .ok u := by
  obtain ⟨nonce, hl, h1, h2, hb⟩ := h
  have hs : pySplit [':'] (L.encrypt k.key nonce u ++ ':' :: nonce) = [L.encrypt k.key nonce u, nonce] := by
    have := pySplit1_join ':' [L.encrypt k.key nonce u, nonce] (by simp) (by simp [h1, h2])
    simpa [pyJoin] using this
  unfold SymKey.user
  rw [hb]
  simp only [hs, L.opens _ _ _ hl]

theorem setupRest_error {E : Env} {m : AuthnMethod} {w w' : World} {req : AuthzReq} {reqUser : Option (Option String)} {e : Exc}
    {sid user : String} :
    setupRest E m w req reqUser (if caughtAuthn e then .ok none else .error e) ≠ (.ok (.session sid user), w') := by
  intro h
  split at h
  · simp only [setupRest, askLogin] at h
    repeat' split at h
    all_goals cases h
  · cases h

theorem setupBytes_not {w w' : World} {req : AuthzReq} {reqUser : Option (Option String)} {sid user : String} :
    setupBytes w req reqUser ≠ (.ok (.session sid user), w') := by
  intro h
  unfold setupBytes askLogin at h
  repeat' split at h
  all_goals cases h

theorem symKeyCookie_none {E : Env} {cookies : List SessionCookie} {c : String} (h : NoCookieFor E cookies c) :
    symKeyCookie E (some c) cookies = .ok none := by
  unfold symKeyCookie
  split
  · rfl
  · rw [cookieInfo_none h]

/-- C116.  With this method the authorization endpoint gives a session only to a request whose header carries a token that was made
with the key. -/
theorem C116_token_needed (E : Env) (L : SymLib) (loads : List Nat → Except Exc Identity) (k : SymKey) (m : AuthnMethod) (w w' : World)
    (req : AuthzReq) (cookies : List SessionCookie) (auth : String) (reqUser : Option (Option String)) (sid user : String)
    (h : setupSymKey E L loads k m w req cookies auth reqUser = (.ok (.session sid user), w')) :
    ∃ text, HasToken L k auth.toList text := by
  unfold setupSymKey at h
  cases hu : k.user L auth.toList with
  | error e => rw [hu] at h; exact absurd h setupRest_error
  | ok u => exact ⟨u, symKey_user_ok hu⟩

/-- C116, for user names that are wrapped up as cookies have it (base64url of JSON), for tokens without further colons and a browser without
cookies for the client.  Whatever happened before: whoever sends such a token gets a new session of the user with the client.
(Missing: the refutations.) -/
theorem C116_works_partial (E : Env) (U : String → Prop) (adds : Bool)
    (hU : ∀ n u c g, (SKey.gra u c g).Good U → ¬ U (E.encSid n [u, c, g])) (now : Int) (ops : List WOp)
    (hops : ∀ op ∈ ops, FairW E U adds op) (L : SymLib) (loads : List Nat → Except Exc Identity) (k : SymKey)
    (m : AuthnMethod) (req : AuthzReq) (cookies : List SessionCookie) (auth : String) (reqUser : Option (Option String))
    (text : Str) (user c : String) (hp : HasPlainToken L k auth.toList text) (hw : WrapsUser loads text user)
    (hc : req.clientId = some c) (hno : NoCookieFor E cookies c) (hk : (SKey.cli user c).Good U) (hr : req.redirectUri ≠ none)
    (hprompt : ¬ promptHas req "login") (hu : reqUser = none ∨ reqUser = some (some user)) :
    ∃ sid ev, ev.uid = user ∧ ev.authnTime = (run E { now := now } ops).now ∧
      sid = E.encSid (run E { now := now } ops).n [user, c, E.uuid (run E { now := now } ops).n] ∧
      setupSymKey E L loads k m (run E { now := now } ops) req cookies auth reqUser =
        (.ok (.session sid user), step E (run E { now := now } ops) (.login user c req ev)) := by
  obtain ⟨-, hi, -⟩ := home_history hU now ops hops
  generalize run E { now := now } ops = w at *
  obtain ⟨bs, hb, hl⟩ := hw
  refine ⟨_, loginEvent m w.now user, rfl, rfl, rfl, ?_⟩
  unfold setupSymKey
  rw [symKey_user_works hp, hc, symKeyCookie_none hno]
  simp only [hb, hl, textIdentity, checkIdentity, truthyStr, setupRest]
  rw [if_neg (by simpa using hr), if_neg hprompt]
  rw [if_neg (by rcases hu with rfl | rfl <;> simp)]
  unfold startSession
  rw [hc]
  simp only
  have hgood : (SKey.gra user c (newGrant E w user { req with clientId := some c } (loginEvent m w.now user)
      (E.authz.rulesOf (some c))).id).Good U := ⟨hk.1, hk.2.1, hk.2.2, E.uuid_clean w.n⟩
  obtain ⟨s', r, hcs, -⟩ := createSession_spec hi.inv hgood
  rw [hcs]
  rfl

/-- C116, for tokens that carry a user name wrapped up in this way, in a browser without cookies for the client: the session is that
user's. -/
theorem C116_user_partial (E : Env) (L : SymLib) (loads : List Nat → Except Exc Identity) (k : SymKey) (m : AuthnMethod) (w w' : World)
    (req : AuthzReq) (cookies : List SessionCookie) (auth : String) (reqUser : Option (Option String)) (text : Str)
    (sid user user' : String) (hp : HasPlainToken L k auth.toList text) (hw : WrapsUser loads text user)
    (hno : ∀ c, req.clientId = some c → NoCookieFor E cookies c)
    (h : setupSymKey E L loads k m w req cookies auth reqUser = (.ok (.session sid user'), w')) :
    user' = user ∧ ∃ c, req.clientId = some c ∧ sid = E.encSid w.n [user, c, E.uuid w.n] := by
  obtain ⟨bs, hb, hl⟩ := hw
  unfold setupSymKey at h
  rw [symKey_user_works hp] at h
  simp only [] at h
  cases hc : symKeyCookie E req.clientId cookies with
  | error e => rw [hc] at h; exact absurd h setupRest_error
  | ok o =>
    rw [hc] at h
    cases o with
    | some i =>
      simp only [] at h
      cases hcl : req.clientId with
      | some c => rw [hcl, symKeyCookie_none (hno c hcl)] at hc; cases hc
      | none =>
        -- without a client there is no cookie for it
        rw [hcl] at hc
        unfold symKeyCookie at hc
        split at hc
        · cases hc
        · split at hc
          · cases hc
          · cases hc
          · rename_i i' ts hci
            obtain ⟨_, _, _, _, _, _, _, hcl', _⟩ := cookieInfo_spec hci
            cases hcl'
    | none =>
      simp only [hb, hl, textIdentity, checkIdentity, truthyStr, setupRest] at h
      split at h
      · cases h
      · split at h
        · cases h
        · split at h
          · simp only [askLogin] at h
            split at h <;> cases h
          · unfold startSession at h
            cases hc : req.clientId with
            | none => rw [hc] at h; cases h
            | some c =>
              rw [hc] at h
              simp only [] at h
              split at h
              · cases h
              · rename_i sid' w'' hs
                simp only [Prod.mk.injEq, Except.ok.injEq, SetupRes.session.injEq] at h
                obtain ⟨⟨rfl, rfl⟩, rfl⟩ := h
                split at hs
                · cases hs
                · simp only [Prod.mk.injEq, Except.ok.injEq] at hs
                  exact ⟨rfl, c, rfl, hs.1.symm⟩

/-- C116 fails for every plain user name: in a browser without cookies for the client no token with such a name ever gives a session,
whatever the request. -/
theorem C116_plain_name_never (E : Env) (L : SymLib) (loads : List Nat → Except Exc Identity) (k : SymKey) (m : AuthnMethod)
    (w : World) (req : AuthzReq) (cookies : List SessionCookie) (auth : String) (reqUser : Option (Option String)) (name c : String)
    (hp : HasPlainToken L k auth.toList name.toList) (hn : PlainName name) (hc : req.clientId = some c)
    (hno : NoCookieFor E cookies c) :
    (∀ sid user w', setupSymKey E L loads k m w req cookies auth reqUser ≠ (.ok (.session sid user), w')) ∧
    (req.redirectUri ≠ none → ¬ promptHas req "login" → reqUser = none →
      setupSymKey E L loads k m w req cookies auth reqUser = (.error .typeError, w)) := by
  have key : setupSymKey E L loads k m w req cookies auth reqUser = setupBytes w req reqUser := by
    unfold setupSymKey
    rw [symKey_user_works hp, hc, symKeyCookie_none hno]
    simp only [b64d_plain hn]
  refine ⟨fun sid user w' h => setupBytes_not (key ▸ h), fun hr hl hu => ?_⟩
  rw [key]
  unfold setupBytes
  rw [if_neg (by simpa using hr), if_neg hl, hu, hc]
  rfl

/-- C116 fails for requests without a token: they raise an exception, whatever else they say, and there is no login page and no
error for the client. -/
theorem C116_without_token (E : Env) (L : SymLib) (hL : L.b64decode [] = .ok []) (loads : List Nat → Except Exc Identity) (k : SymKey)
    (m : AuthnMethod) (w : World) (req : AuthzReq) (cookies : List SessionCookie) (reqUser : Option (Option String)) :
    setupSymKey E L loads k m w req cookies "" reqUser = (.error .valueError, w) := by
  have : k.user L ("" : String).toList = .error .valueError := by
    unfold SymKey.user
    rw [show ("" : String).toList = [] from rfl, hL]
    rfl
  unfold setupSymKey
  rw [this]
  rfl

/-- C116 fails for tokens that were made with another key, or changed: they raise an exception, whatever else the request says, and
there is no login page and no error for the client.  Only the names of the exceptions differ: FailedAuthentication, which nothing
catches, in place of KeyError and AssertionError, and the library's own otherwise, as long as it is not one of the four that
`setup_auth` catches. -/
theorem C116_does_not_open (E : Env) (L : SymLib) (loads : List Nat → Except Exc Identity) (k : SymKey) (m : AuthnMethod) (w : World)
    (req : AuthzReq) (cookies : List SessionCookie) (auth : String) (reqUser : Option (Option String)) (sealed nonce : Str) (e : Exc)
    (hs : ':' ∉ sealed) (hn : ':' ∉ nonce) (hb : L.b64decode auth.toList = .ok (sealed ++ ':' :: nonce))
    (hd : L.decrypt k.key nonce sealed = .error e)
    (he : e ∉ [.toOld, .unknownToken, .other "NoSuchAuthentication", .other "TamperAllert"]) :
    setupSymKey E L loads k m w req cookies auth reqUser =
      (.error (if e ∈ [.keyError, .other "AssertionError"] then .other "FailedAuthentication" else e), w) := by
  have hp : pySplit [':'] (sealed ++ ':' :: nonce) = [sealed, nonce] := by
    have := pySplit1_join ':' [sealed, nonce] (by simp) (by simp [hs, hn])
    simpa [pyJoin] using this
  have hc : caughtAuthn e = false := by simpa [caughtAuthn] using he
  have hu : k.user L auth.toList =
      .error (if e ∈ [.keyError, .other "AssertionError"] then .other "FailedAuthentication" else e) := by
    unfold SymKey.user
    rw [hb]
    simp only [hp, hd]
    split <;> rename_i h
    · rw [if_pos (by simpa using h)]
    · rw [if_neg (by simpa using h)]
  unfold setupSymKey
  rw [hu]
  simp only []
  split
  · rfl
  · rw [hc]; rfl

namespace Ex

/-- A library in which things are encrypted by writing the key, the nonce and a mark before them. -/
def symLib : SymLib where
  b64decode := .ok
  encrypt key nonce text := key ++ nonce ++ '|' :: text
  decrypt key nonce c :=
    if nonce.length < 8 then .error .valueError
    else if (key ++ nonce ++ ['|']).isPrefixOf c then .ok (c.drop (key ++ nonce ++ ['|']).length)
    else .error (.other "InvalidTag")
  opens := by
    intro key nonce text h
    have h2 : (key ++ nonce ++ ['|']).isPrefixOf (key ++ nonce ++ '|' :: text) = true :=
      List.isPrefixOf_iff_prefix.2 ⟨text, by simp⟩
    simp only [if_neg (Nat.not_lt.2 h), h2, if_true]
    congr 1
    rw [show key ++ nonce ++ '|' :: text = (key ++ nonce ++ ['|']) ++ text by simp]
    exact List.drop_left
  only := by
    intro key nonce c text h
    split at h
    · cases h
    · split at h
      · rename_i h2
        obtain ⟨r, hr⟩ := List.isPrefixOf_iff_prefix.1 h2
        have : text = r := by
          have := Except.ok.inj h
          rw [← hr, List.drop_left] at this
          exact this.symm
        rw [this, ← hr]
        simp
      · cases h

/-- The wrapped identity of d: only one text is JSON. -/
def symLoads (bs : List Nat) : Except Exc Identity :=
  if bs = b64Bytes "abcd".toList then .ok { uid := some "d" } else .error .valueError

def symKey : SymKey := { key := "K".toList, ttl := 600 }

/-- C116: a token with a wrapped name. -/
example : HasPlainToken symLib symKey "Kiviviviv|abcd:iviviviv".toList "abcd".toList ∧ WrapsUser symLoads "abcd".toList "d" ∧
    (setupSymKey E symLib symLoads symKey {} init (authzReq "c1") [] "Kiviviviv|abcd:iviviviv" none).1 =
      .ok (.session (E.encSid 0 ["d", "c1", E.uuid 0]) "d") :=
  ⟨⟨"iviviviv".toList, by decide +kernel, by decide +kernel, by decide +kernel, by decide +kernel⟩, ⟨b64Bytes "abcd".toList, by decide +kernel, by decide +kernel⟩,
    by decide +kernel⟩

/-- C116 is false of the code: a token for a user with a plain name gives no session; the user id that the method returns is bytes,
which cannot be joined with the client id (user_authn/user.py:262, session/database.py:176). -/
theorem C116_plain_name_refuted :
    ¬ (∀ (E : Env) (L : SymLib) (loads : List Nat → Except Exc Identity) (k : SymKey) (m : AuthnMethod) (w : World),
      Reachable E w → ∀ (req : AuthzReq) (auth name c : String), HasPlainToken L k auth.toList name.toList → PlainName name →
        req.clientId = some c → req.redirectUri ≠ none → ¬ promptHas req "login" →
        ∃ sid, (setupSymKey E L loads k m w req [] auth none).1 = .ok (.session sid name)) := by
  intro h
  obtain ⟨sid, hs⟩ := h E symLib noJson symKey {} init ⟨1000, [], rfl⟩ (authzReq "c1") "Kiviviviv|d:iviviviv" "d" "c1"
    ⟨"iviviviv".toList, by decide +kernel, by decide +kernel, by decide +kernel, by decide +kernel⟩ (.inr ⟨by decide, by decide⟩)
    rfl (by decide +kernel) (by decide +kernel)
  have : (setupSymKey E symLib noJson symKey {} init (authzReq "c1") [] "Kiviviviv|d:iviviviv" none).1 = .error .typeError := by
    decide +kernel
  rw [this] at hs
  cases hs

/-- C116 is false of the code: whether the bytes of a token happen to have a colon in them decides whether it is accepted
(user_authn/user.py:255). -/
theorem C116_colon_refuted :
    ¬ (∀ (E : Env) (L : SymLib) (loads : List Nat → Except Exc Identity) (k : SymKey) (m : AuthnMethod) (w : World),
      Reachable E w → ∀ (req : AuthzReq) (auth user c : String) (text nonce : Str), 8 ≤ nonce.length →
        L.b64decode auth.toList = .ok (L.encrypt k.key nonce text ++ ':' :: nonce) → WrapsUser loads text user →
        req.clientId = some c → req.redirectUri ≠ none → ¬ promptHas req "login" →
        ∃ sid, (setupSymKey E L loads k m w req [] auth none).1 = .ok (.session sid user)) := by
  intro h
  obtain ⟨sid, hs⟩ := h E symLib symLoads symKey {} init ⟨1000, [], rfl⟩ (authzReq "c1") "Kiviv:viv|abcd:iviv:viv" "d" "c1"
    "abcd".toList "iviv:viv".toList (by decide +kernel) (by decide +kernel) ⟨b64Bytes "abcd".toList, by decide +kernel, by decide +kernel⟩ rfl
    (by decide +kernel) (by decide +kernel)
  have : (setupSymKey E symLib symLoads symKey {} init (authzReq "c1") [] "Kiviv:viv|abcd:iviv:viv" none).1 = .error .valueError := by
    decide +kernel
  rw [this] at hs
  cases hs

/-- C116 is false of the code: a token that was accepted once is accepted after its time to live as well, and again and again: `ttl`
is kept (user_authn/user.py:245) and never looked at. -/
theorem C116_time_to_live_refuted :
    ¬ (∀ (E : Env) (L : SymLib) (loads : List Nat → Except Exc Identity) (k : SymKey) (m : AuthnMethod) (w w' : World),
      Reachable E w → Reachable E w' → ∀ (req : AuthzReq) (auth sid sid' user : String),
        (setupSymKey E L loads k m w req [] auth none).1 = .ok (.session sid user) → w.now + k.ttl < w'.now →
        (setupSymKey E L loads k m w' req [] auth none).1 ≠ .ok (.session sid' user)) := by
  intro h
  exact h E symLib symLoads symKey {} init (run E init [.tick 100000]) ⟨1000, [], rfl⟩ ⟨1000, [.tick 100000], rfl⟩ (authzReq "c1")
    "Kiviviviv|abcd:iviviviv" (E.encSid 0 ["d", "c1", E.uuid 0])
    (E.encSid (run E init [.tick 100000]).n ["d", "c1", E.uuid (run E init [.tick 100000]).n]) "d" (by decide +kernel) (by decide +kernel)
    (by decide +kernel)

/-- C116: a token of another key. -/
example : symLib.decrypt symKey.key "iviviviv".toList "Liviviviv|abcd".toList = .error (.other "InvalidTag") ∧
    setupSymKey E symLib symLoads symKey {} init (authzReq "c1") [] "Liviviviv|abcd:iviviviv" none =
      (.error (.other "InvalidTag"), init) := by decide +kernel

/-- What `json.loads` does with the wrapped identity of another user. -/
def otherLoads (bs : List Nat) : Except Exc Identity :=
  if bs = b64Bytes "abcd".toList then .ok { uid := some "e" } else .error .valueError

/-- C116 is false of the code: if the browser has a session cookie for the client, the session is that of the user who logged in
before, not of the user whose token is sent (user_authn/user.py:263-264). -/
theorem C116_cookie_refuted :
    ¬ (∀ (E : Env) (L : SymLib) (loads : List Nat → Except Exc Identity) (k : SymKey) (m : AuthnMethod) (w : World),
      Reachable E w → ∀ (req : AuthzReq) (cookies : List SessionCookie) (auth sid user user' : String) (text : Str),
        HasPlainToken L k auth.toList text → WrapsUser loads text user →
        (setupSymKey E L loads k m w req cookies auth none).1 = .ok (.session sid user') → user' = user) := by
  intro h
  have := h E symLib otherLoads symKey {} (signedIn 10) ⟨1000, _, rfl⟩ (authzReq "c1") [cookie] "Kiviviviv|abcd:iviviviv"
    (Ex.sid "c1" 0) "e" "d" "abcd".toList
    ⟨"iviviviv".toList, by decide +kernel, by decide +kernel, by decide +kernel, by decide +kernel⟩
    ⟨b64Bytes "abcd".toList, by decide +kernel, by decide +kernel⟩ (by decide +kernel)
  exact absurd this (by decide)

end Ex
end OidcOp
