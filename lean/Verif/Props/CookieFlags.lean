/-
Cookies have the configured flags, and browsers keep them as long as they should (C109).
-/
import Verif.Model.CookieFlags
import Verif.Spec.Browser
import Verif.Props.Cookie
import Verif.Props.CookieExamples

namespace OidcOp
open Spec

/-- What a cookie's dictionary has under a name. -/
theorem content_get? (K : CookieHandler) (hn : K.flags.keys.Nodup) (nonce now : Nat) (name value typ ts : Str) (maxAge : Int) (k : String) :
    (cookieContent K nonce now name value typ ts maxAge).get? k =
      match K.flags.get? k with
      | some v => some v
      | none => (cookieBase (makeCookie K.conf nonce now name value typ ts) now maxAge).get? k := by
  unfold cookieContent
  rw [Dict.get?_update_of_nodup hn k]
  cases K.flags.get? k <;> rfl

theorem cookieBase_get? (c : CookieData) (now : Nat) (maxAge : Int) (k : String) :
    (cookieBase c now maxAge).get? k =
      if k = "name" then some (.str (String.ofList c.name))
      else if k = "value" then some (.str (String.ofList c.value))
      else if k = "expires" then (if maxAge = -1 then some (.str pastDate) else none)
      else if k = "max-age" then (if maxAge = -1 ∨ maxAge = 0 then none else some (.num (now + maxAge)))
      else none := by
  unfold cookieBase
  simp only []
  by_cases h1 : maxAge = -1
  · subst h1
    simp only [if_true, Dict.get?_set, Dict.get?_cons, Dict.get?_nil, true_or]
    by_cases a : k = "name"
    · subst a; simp
    · by_cases b : k = "value"
      · subst b; simp
      · by_cases c' : k = "expires"
        · subst c'; simp
        · simp [a, b, c', Ne.symm a, Ne.symm b, Ne.symm c']
  · by_cases h2 : maxAge = 0
    · subst h2
      simp only [if_neg h1, ne_eq, not_true_eq_false, if_false, Dict.get?_cons, Dict.get?_nil, or_true, if_true]
      by_cases a : k = "name"
      · subst a; simp
      · by_cases b : k = "value"
        · subst b; simp
        · simp [a, b, Ne.symm a, Ne.symm b]
    · simp only [if_neg h1, ne_eq, h2, not_false_eq_true, if_true, Dict.get?_set, Dict.get?_cons, Dict.get?_nil]
      by_cases a : k = "name"
      · subst a; simp
      · by_cases b : k = "value"
        · subst b; simp
        · by_cases c' : k = "max-age"
          · subst c'; simp [h1]
          · simp [a, b, c', Ne.symm a, Ne.symm b, Ne.symm c']

/-- C109. Every cookie has every configured flag, with the configured value. -/
theorem C109_flags (K : CookieHandler) (hn : K.flags.keys.Nodup) (nonce now : Nat) (name value typ ts : Str) (maxAge : Int)
    (k : String) (v : Json) (h : K.flags.get? k = some v) :
    (cookieContent K nonce now name value typ ts maxAge).get? k = some v := by
  rw [content_get? K hn, h]

/-- C109. A handler without configured flags makes cookies that are only sent over TLS and not told to scripts. -/
theorem C109_default_flags (conf : CookieConf) (names : Dict String) (nonce now : Nat) (name value typ ts : Str) (maxAge : Int) :
    let c := cookieContent { conf := conf, names := names } nonce now name value typ ts maxAge
    c.get? "secure" = some (.bool true) ∧ c.get? "httponly" = some (.bool true) ∧ c.get? "samesite" = some (.str "None") := by
  refine ⟨?_, ?_, ?_⟩ <;> exact C109_flags _ (show defaultFlags.keys.Nodup by decide) _ _ _ _ _ _ _ _ _ rfl

/-- The flags leave the other attributes alone. -/
def PlainFlags (K : CookieHandler) : Prop := K.flags.keys.Nodup ∧ ∀ k, Reserved k → K.flags.get? k = none

/-- What the browser makes of a cookie. -/
theorem receive_content {K : CookieHandler} (hf : PlainFlags K) (date : String → Option Int) (at' : Int) (jar : Dict Held)
    (nonce now : Nat) (name value typ ts : Str) (maxAge : Int) :
    receive date at' jar (cookieContent K nonce now name value typ ts maxAge) =
      match (if maxAge = -1 then date pastDate else if maxAge = 0 then none else some (at' + (now + maxAge))) with
      | none => jar.set (String.ofList name) ⟨String.ofList (makeCookie K.conf nonce now name value typ ts).value, none⟩
      | some t =>
        if t ≤ at' then jar.erase (String.ofList name)
        else jar.set (String.ofList name) ⟨String.ofList (makeCookie K.conf nonce now name value typ ts).value, some t⟩ := by
  have g : ∀ k, Reserved k → (cookieContent K nonce now name value typ ts maxAge).get? k =
      (cookieBase (makeCookie K.conf nonce now name value typ ts) now maxAge).get? k := by
    intro k hk
    rw [content_get? K hf.1, hf.2 k hk]
  have g1 := g "name" (.inl rfl)
  have g2 := g "value" (.inr (.inl rfl))
  have g3 := g "expires" (.inr (.inr (.inl rfl)))
  have g4 := g "max-age" (.inr (.inr (.inr rfl)))
  rw [cookieBase_get?] at g1 g2 g3 g4
  rw [if_pos rfl] at g1
  rw [if_neg (by decide), if_pos rfl] at g2
  rw [if_neg (by decide), if_neg (by decide), if_pos rfl] at g3
  rw [if_neg (by decide), if_neg (by decide), if_neg (by decide), if_pos rfl] at g4
  have he : endOf date at' (cookieContent K nonce now name value typ ts maxAge) =
      (if maxAge = -1 then date pastDate else if maxAge = 0 then none else some (at' + (now + maxAge))) := by
    unfold endOf
    rw [g4, g3]
    by_cases h1 : maxAge = -1
    · simp [h1]
    · by_cases h2 : maxAge = 0
      · simp [h2]
      · simp [h1, h2]
  unfold receive
  rw [he]
  unfold textOf
  rw [g1, g2]
  rfl

/-- C109. A cookie without a life time, a session cookie for example, is sent back until the browser is closed or gets another one of
this name, and the provider reads from it what was put in. -/
theorem C109_sent_back (K : CookieHandler) (hf : PlainFlags K) (hk : HasKey K.conf) (date : String → Option Int) (jar : Dict Held)
    (received at' : Int) (a : CookieArgs) (ht : Tellable K.conf a) :
    parseCookie K.conf a.name (sentList (receive date received jar
      (cookieContent K a.nonce 0 a.name a.value a.typ (natStr a.stamp) 0)) at' (String.ofList a.name)) = .ok (some [a.info]) := by
  rw [receive_content hf]
  simp only [show ¬ ((0 : Int) = -1) by decide, if_false, if_true]
  have := C57_cookie_roundtrip_partial K.conf hk a.name [a] (by simp) (by
    intro b hb _
    rw [List.mem_singleton] at hb
    subst hb
    exact ht)
  simp only [List.map_cons, List.map_nil, List.filter_cons, decide_true, if_true, List.filter_nil] at this
  rw [← this]
  congr 1
  unfold sentList sent
  simp only [Dict.get?_set_self]
  rw [String.toList_ofList, String.toList_ofList]
  rfl

/-- C109. The cookies for the end of a session delete both session cookies, and nothing else: at no later instant does the browser
send them. -/
theorem C109_killed (K : CookieHandler) (hf : PlainFlags K) (date : String → Option Int) (nonce now : Nat) (received : Int)
    (jar : Dict Held) (cs : List (Dict Json)) (hd : date "Thu, 01 Jan 1970 00:00:00 GMT;" = some 0) (hr : 0 ≤ received)
    (h : killCookies K nonce now = .ok cs) :
    (∀ n, (K.names.get? "session" = some n ∨ K.names.get? "session_management" = some n) →
      ∀ at', sent (cs.foldl (receive date received) jar) at' n = none) ∧
    (∀ n, K.names.get? "session" ≠ some n → K.names.get? "session_management" ≠ some n →
      ∀ at', sent (cs.foldl (receive date received) jar) at' n = sent jar at' n) := by
  have hd : date pastDate = some 0 := hd
  unfold killCookies at h
  cases hm : K.names.get? "session_management" with
  | none => rw [hm] at h; cases h
  | some m =>
    cases hs : K.names.get? "session" with
    | none => rw [hm, hs] at h; cases h
    | some s =>
      rw [hm, hs] at h
      cases h
      simp only [List.foldl_cons, List.foldl_nil]
      have e : ∀ (j : Dict Held) (n : String), receive date received j (cookieContent K nonce now n.toList [] [] [] (-1)) = j.erase n := by
        intro j n
        rw [receive_content hf]
        simp only [if_true, hd, if_pos hr, String.ofList_toList]
      rw [e, e]
      constructor
      · intro n hn at'
        unfold sent
        rw [Dict.get?_erase, Dict.get?_erase]
        rcases hn with hn | hn
        · cases hn
          rw [if_pos rfl]
        · cases hn
          by_cases hx : s = m
          · rw [if_pos hx]
          · rw [if_neg hx, if_pos rfl]
      · intro n h1 h2 at'
        unfold sent
        rw [Dict.get?_erase_ne _ (fun e => h1 (by rw [e])), Dict.get?_erase_ne _ (fun e => h2 (by rw [e]))]

/-- C109. After these cookies the provider finds no session cookie. -/
theorem C109_killed_read (K : CookieHandler) (hf : PlainFlags K) (date : String → Option Int) (nonce now : Nat) (received at' : Int)
    (jar : Dict Held) (cs : List (Dict Json)) (n : String) (hd : date "Thu, 01 Jan 1970 00:00:00 GMT;" = some 0) (hr : 0 ≤ received)
    (h : killCookies K nonce now = .ok cs) (hn : K.names.get? "session" = some n) :
    parseCookie K.conf n.toList (sentList (cs.foldl (receive date received) jar) at' n) = .ok none := by
  unfold sentList
  rw [(C109_killed K hf date nonce now received jar cs hd hr h).1 n (.inl hn) at']
  rfl

/-- C109. A handler without configured names has these three, and the end of a session leaves the registration cookie alone. -/
theorem C109_default_names (conf : CookieConf) (hf : PlainFlags { conf := conf }) (date : String → Option Int) (nonce now : Nat) (received : Int)
    (jar : Dict Held) (hd : date "Thu, 01 Jan 1970 00:00:00 GMT;" = some 0) (hr : 0 ≤ received) :
    (∃ cs, killCookies { conf := conf } nonce now = .ok cs ∧ ∀ at',
      sent (cs.foldl (receive date received) jar) at' "oidc_op" = none ∧
      sent (cs.foldl (receive date received) jar) at' "oidc_op_sman" = none ∧
      sent (cs.foldl (receive date received) jar) at' "oidc_op_reg" = sent jar at' "oidc_op_reg") ∧
    ({ conf := conf } : CookieHandler).names.get? "register" = some "oidc_op_reg" := by
  refine ⟨⟨_, rfl, fun at' => ?_⟩, rfl⟩
  obtain ⟨h1, h2⟩ := C109_killed { conf := conf } hf date nonce now received jar _ hd hr rfl
  exact ⟨h1 _ (.inl rfl) at', h1 _ (.inr rfl) at', h2 _ (show defaultCookieNames.get? "session" ≠ _ by decide) (show defaultCookieNames.get? "session_management" ≠ _ by decide) at'⟩

/-- C109. A cookie for a number of seconds is sent at least that long. -/
theorem C109_kept_partial (K : CookieHandler) (hf : PlainFlags K) (date : String → Option Int) (jar : Dict Held) (nonce now : Nat)
    (name value typ ts : Str) (maxAge : Nat) (hpos : 0 < maxAge) (at' : Int) (hat : at' < now + maxAge) :
    sent (receive date now jar (cookieContent K nonce now name value typ ts maxAge)) at' (String.ofList name) =
      some (String.ofList (makeCookie K.conf nonce now name value typ ts).value) := by
  rw [receive_content hf]
  rw [if_neg (by omega), if_neg (by omega)]
  simp only []
  rw [if_neg (by omega)]
  unfold sent
  rw [Dict.get?_set_self]
  simp only []
  rw [if_pos (by omega)]

namespace Ex

/-- A handler with the default names and flags, and one with flags of its own. -/
def cookieHandler : CookieHandler := { conf := signEnc }
def laxHandler : CookieHandler := { conf := signOnly, flags := [("samesite", .str "Lax"), ("path", .str "/")] }

theorem plain_flags : PlainFlags cookieHandler ∧ PlainFlags laxHandler := by
  refine ⟨⟨by decide, ?_⟩, ⟨by decide, ?_⟩⟩ <;> rintro k (rfl | rfl | rfl | rfl) <;> rfl

/-- Dates: only the one in the past is known. -/
def dates (s : String) : Option Int := if s = pastDate then some 0 else none

/-- A login, another cookie, and the end of the session. -/
example : ∃ cs, killCookies cookieHandler 5 1600000100 = .ok cs ∧
    (sent (receive dates 1600000000 [] (newCookie cookieHandler 3 1600000000 "oidc_op".toList "{}".toList 0)) 1700000000 "oidc_op").isSome ∧
    sent (cs.foldl (receive dates 1600000100)
      (receive dates 1600000000 [("lang", ⟨"sv", none⟩)] (newCookie cookieHandler 3 1600000000 "oidc_op".toList "{}".toList 0)))
      1600000101 "oidc_op" = none ∧
    sent (cs.foldl (receive dates 1600000100)
      (receive dates 1600000000 [("lang", ⟨"sv", none⟩)] (newCookie cookieHandler 3 1600000000 "oidc_op".toList "{}".toList 0)))
      1600000101 "lang" = some "sv" := by
  refine ⟨_, rfl, ?_, ?_, ?_⟩ <;> decide +kernel

/-- C109 is false of the code for cookies with a life time: "max-age" is the number of seconds since 1970 when the cookie should end,
so that it ends fifty years later (cookie_handler.py:231-232). -/
theorem C109_max_age_refuted :
    ¬ (∀ (K : CookieHandler), PlainFlags K → ∀ (date : String → Option Int) (nonce now : Nat) (name value typ ts : Str) (maxAge : Nat),
      0 < maxAge → ∀ at' : Int, now + maxAge ≤ at' →
      sent (receive date now [] (cookieContent K nonce now name value typ ts maxAge)) at' (String.ofList name) = none) := by
  intro h
  have := h cookieHandler plain_flags.1 dates 1 1600000000 "oidc_op".toList "{}".toList [] [] 60 (by decide) 3000000000 (by decide)
  revert this
  decide +kernel

end Ex
end OidcOp
