/-
Cookies: C57, C58, and the session state: C71.
-/
import Verif.Spec.Cookie
import Verif.Lemmas.Encoding
import Verif.Lemmas.Split

namespace OidcOp
open Spec

/-! ### Splitting at `::` -/

theorem colons_prefix {s : Str} (h : colons.isPrefixOf s = true) : ∃ r, s = ':' :: ':' :: r := by
  match s with
  | [] => simp [colons] at h
  | [a] => simp [colons] at h
  | a :: b :: r =>
    simp [colons] at h
    exact ⟨r, by rw [← h.1, ← h.2]⟩

theorem splitColons_last (a : Str) (h : ¬ HasColons a) (cur : Str) : pySplitGo colons 0 cur a = [cur.reverse ++ a] := by
  induction a generalizing cur with
  | nil => simp [pySplitGo]
  | cons c cs ih =>
    have h' : ¬ HasColons cs := by rintro ⟨x, y, he⟩; exact h ⟨c :: x, y, by simp [he]⟩
    have hp : colons.isPrefixOf (c :: cs) = false := by
      cases hb : colons.isPrefixOf (c :: cs) with
      | false => rfl
      | true =>
        obtain ⟨r, hr⟩ := colons_prefix hb
        exact absurd ⟨[], r, by simpa using hr⟩ h
    simp only [pySplitGo, hp]
    rw [if_neg (by simp), ih h']
    simp

theorem splitColons_piece (a : Str) (h : ¬ HasColons (a ++ [':'])) (cur rest : Str) :
    pySplitGo colons 0 cur (a ++ colons ++ rest) = (cur.reverse ++ a) :: pySplitGo colons 0 [] rest := by
  induction a generalizing cur with
  | nil => simp [colons, pySplitGo, List.isPrefixOf]
  | cons c cs ih =>
    have h' : ¬ HasColons (cs ++ [':']) := by
      rintro ⟨x, y, he⟩; exact h ⟨c :: x, y, by simp [he]⟩
    have hp : colons.isPrefixOf (c :: (cs ++ colons ++ rest)) = false := by
      cases hb : colons.isPrefixOf (c :: (cs ++ colons ++ rest)) with
      | false => rfl
      | true =>
        obtain ⟨r, hr⟩ := colons_prefix hb
        simp only [List.cons.injEq] at hr
        obtain ⟨rfl, hr⟩ := hr
        cases cs with
        | nil => exact absurd ⟨[], [], rfl⟩ h
        | cons d ds =>
          simp at hr
          obtain ⟨rfl, -⟩ := hr
          exact absurd ⟨[], ds ++ [':'], by simp⟩ h
    simp only [List.cons_append, pySplitGo, hp]
    rw [if_neg (by simp), ih h']
    simp

theorem readPayload_join {value typ ts : Str} (h1 : ¬ HasColons (value ++ [':'])) (h2 : ¬ HasColons typ) :
    readPayload (pyJoin colons [value, typ]) ts = .ok { value := value, typ := typ, timestamp := ts } := by
  unfold readPayload pySplit
  simp only [pyJoin]
  rw [splitColons_piece value h1, splitColons_last typ h2]
  simp

/-! ### The parts of a cookie -/

theorem bar_not_mem_natStr (n : Nat) : '|' ∉ natStr n := by
  intro h; have := natStr_isDigit h; simp [Char.isDigit] at this

theorem natStr_no_space (n : Nat) : ¬ EndsInSpace (natStr n) := by
  rintro ⟨pre, c, h, hc⟩
  have := natStr_isDigit (n := n) (c := c) (by rw [h]; simp)
  rw [isDigit_not_space this] at hc
  cases hc

theorem b64e_no_space (L : CookieLib) (s : Str) : ¬ EndsInSpace (L.b64e s) := by
  rintro ⟨pre, c, h, hc⟩
  have := L.b64e_space s c (by rw [h]; simp)
  rw [this] at hc
  cases hc

theorem readMsg_cookieMsg (H : CookieConf) (payload : Str) (n : Nat) :
    readMsg H (cookieMsg H payload (natStr n)) = .ok (some (payload, natStr n)) := by
  unfold readMsg cookieMsg
  cases hs : H.sign with
  | false =>
    have : lvUnpack (lvPack [payload, natStr n]) = .ok [payload, natStr n] := by
      rw [lvUnpack_lvPack]
      simp only [trimLast]
      rw [(rstrip_eq_self_iff _).2 (natStr_no_space n)]
    simp only [Bool.false_eq_true, if_false, this]
  | true =>
    have : lvUnpack (lvPack [payload, natStr n, H.lib.b64e (H.lib.mac (payload ++ natStr n))]) =
        .ok [payload, natStr n, H.lib.b64e (H.lib.mac (payload ++ natStr n))] := by
      rw [lvUnpack_lvPack]
      simp only [trimLast]
      rw [(rstrip_eq_self_iff _).2 (b64e_no_space _ _)]
    simp only [if_true, this]
    unfold checkInner
    rw [H.lib.b64d_b64e]
    simp [hs]

theorem verDec_signEnc (H : CookieConf) (hk : HasKey H) (nonce n : Nat) (payload : Str)
    (hb : H.enc = false → '|' ∉ payload) :
    verDecContent H (pySplit ['|'] (signEncPayload H nonce payload (natStr n))) = .ok (some (payload, natStr n)) := by
  unfold signEncPayload
  simp only []
  cases he : H.enc with
  | false =>
    simp only [Bool.false_eq_true, if_false]
    rw [pySplit1_join '|' _ (by simp)]
    · have hs : H.sign = true := by
        rcases hk with h | h
        · exact h
        · rw [he] at h; cases h
      unfold verDecContent
      simp [hs, H.lib.b64d_b64e]
    · intro w hw
      simp only [List.mem_cons, List.not_mem_nil, or_false] at hw
      rcases hw with rfl | rfl | rfl
      · exact bar_not_mem_natStr n
      · exact hb he
      · exact H.lib.b64e_bar _
  | true =>
    simp only [if_true]
    rw [pySplit1_join '|' _ (by simp)]
    · unfold verDecContent
      simp only [H.lib.b64d_b64e, he, Bool.not_true, Bool.false_eq_true, if_false, H.lib.dec_enc]
      exact readMsg_cookieMsg H payload n
    · intro w hw
      simp only [List.mem_cons, List.not_mem_nil, or_false] at hw
      rcases hw with rfl | rfl | rfl | rfl
      · exact bar_not_mem_natStr n
      · exact H.lib.b64e_bar _
      · exact H.lib.b64e_bar _
      · exact H.lib.b64e_bar _

theorem readCookie_made (H : CookieConf) (hk : HasKey H) (a : CookieArgs) (h : Tellable H a) :
    readCookie H (a.cookie H) = .ok (some a.info) := by
  obtain ⟨h1, h2, h3, h4⟩ := h
  have hne : (a.value.isEmpty && a.typ.isEmpty) = false := by
    rcases h3 with h3 | h3
    · cases hv : a.value with
      | nil => exact absurd hv h3
      | cons => rfl
    · cases hv : a.typ with
      | nil => exact absurd hv h3
      | cons => simp
  have hst : (natStr a.stamp).isEmpty = false := by
    cases hv : natStr a.stamp with
    | nil => exact absurd hv (natStr_ne_nil _)
    | cons => rfl
  unfold readCookie CookieArgs.cookie makeCookie
  simp only [hne, hst, Bool.false_eq_true, if_false]
  rw [verDec_signEnc H hk a.nonce a.stamp _ ?_]
  · simp only []
    rw [readPayload_join h1 h2]
    rfl
  · intro he
    obtain ⟨b1, b2⟩ := h4 he
    simp [pyJoin, colons, b1, b2]

/-- C57, in part.  From the cookies that the handler has made, in any number and with any names, values, types and time
stamps, `parse_cookie` reads back those with the name in question, in order, provided that value and type can be told apart.
What is missing is that last condition. -/
theorem C57_cookie_roundtrip_partial (H : CookieConf) (hk : HasKey H) (name : Str) (made : List CookieArgs) (hne : made ≠ [])
    (h : ∀ a ∈ made, a.name = name → Tellable H a) :
    parseCookie H name (made.map (·.cookie H)) = .ok (some ((made.filter (fun a => a.name = name)).map (·.info))) := by
  have : parseCookies H name (made.map (·.cookie H)) = .ok ((made.filter (fun a => a.name = name)).map (·.info)) := by
    clear hne
    induction made with
    | nil => rfl
    | cons a rest ih =>
      have ih' := ih (fun b hb => h b (List.mem_cons_of_mem _ hb))
      rw [List.map_cons, parseCookies]
      have hn : (a.cookie H).name = a.name := rfl
      rw [hn]
      by_cases e : a.name = name
      · rw [if_pos e, readCookie_made H hk a (h a List.mem_cons_self e), List.filter_cons_of_pos (by simpa using e)]
        simp only [ih']
        rfl
      · rw [if_neg e, ih', List.filter_cons_of_neg (by simpa using e)]
  unfold parseCookie
  rw [if_neg (by cases made with | nil => exact absurd rfl hne | cons => simp), this]

/-! ### C58 -/

/-- C58 for encrypted cookies.  A cookie of four parts is accepted only with a payload and a time stamp that the server put
together in one cookie. -/
theorem C58_encrypted_authentic (H : CookieConf) (made : List (Str × Str)) (hmade : ∀ q ∈ made, ∃ n, q.2 = natStr n)
    (v ts a b c payload stamp : Str) (hf : FromServer H made v) (hp : pySplit ['|'] v = [ts, a, b, c])
    (h : verDecContent H (pySplit ['|'] v) = .ok (some (payload, stamp))) : (payload, stamp) ∈ made := by
  rw [hp] at h
  unfold verDecContent at h
  cases ha : H.lib.b64d a with
  | none => simp [ha] at h
  | some iv =>
    cases hb : H.lib.b64d b with
    | none => simp [ha, hb] at h
    | some ctx =>
      cases hc : H.lib.b64d c with
      | none => simp [ha, hb, hc] at h
      | some tag =>
        simp only [ha, hb, hc] at h
        split at h
        · cases h
        · cases hd : H.lib.dec (iv, ctx, tag) with
          | none => simp [hd] at h
          | some msg =>
            simp only [hd] at h
            obtain ⟨q, hq, n, hn⟩ := hf.2 ts a b c iv ctx tag msg hp ha hb hc hd
            rw [hn, H.lib.dec_enc] at hd
            cases hd
            obtain ⟨m, hm⟩ := hmade q hq
            rw [hm, readMsg_cookieMsg] at h
            simp only [Except.ok.injEq, Option.some.injEq, Prod.mk.injEq] at h
            rw [← h.1, ← h.2, ← hm]
            exact hq

/-- C58 for signed cookies, in part.  A cookie of three parts is accepted only if its payload followed by its time stamp is,
as one string, a payload and a time stamp that the server put together; if the two time stamps have the same length, payload
and time stamp are those.  What is missing: the place where the string is cut is not protected. -/
theorem C58_signed_partial (H : CookieConf) (hm : MacInjective H) (made : List (Str × Str))
    (v ts p m payload stamp : Str) (hf : FromServer H made v) (hp : pySplit ['|'] v = [ts, p, m])
    (h : verDecContent H (pySplit ['|'] v) = .ok (some (payload, stamp))) :
    ∃ q ∈ made, payload ++ stamp = q.1 ++ q.2 ∧ (stamp.length = q.2.length → (payload, stamp) = q) := by
  rw [hp] at h
  unfold verDecContent at h
  simp only [] at h
  cases hb : H.lib.b64d m with
  | none => simp [hb] at h
  | some tag =>
    simp only [hb] at h
    split at h
    · cases h
    · split at h
      · rename_i he
        simp only [Except.ok.injEq, Option.some.injEq, Prod.mk.injEq] at h
        obtain ⟨rfl, rfl⟩ := h
        obtain ⟨q, hq, ht⟩ := hf.1 ts p m tag hp hb he
        have heq := hm _ _ (he.trans ht)
        refine ⟨q, hq, heq, fun hl => ?_⟩
        obtain ⟨h1, h2⟩ := List.append_inj' heq hl
        exact Prod.ext h1 h2
      · cases h

/-- C58.  A string of any other number of parts is never accepted. -/
theorem C58_other_shapes_refused (H : CookieConf) (v : Str)
    (h : (pySplit ['|'] v).length ≠ 3 ∧ (pySplit ['|'] v).length ≠ 4) (payload stamp : Str) :
    verDecContent H (pySplit ['|'] v) ≠ .ok (some (payload, stamp)) := by
  generalize pySplit ['|'] v = l at *
  unfold verDecContent
  split
  · simp at h
  · simp at h
  · simp

/-- C58.  The name of a cookie is not part of what is protected: under whatever name a cookie is presented, it is read the
same way. -/
theorem C58_name_not_protected (H : CookieConf) (n n' v : Str) :
    parseCookie H n [⟨n, v⟩] = parseCookie H n' [⟨n', v⟩] := by
  unfold parseCookie
  simp [parseCookies, readCookie]

/-! ### C71 -/

theorem space_split {a b x y : Str} (ha : ' ' ∉ a) (hb : ' ' ∉ b) (h : a ++ ' ' :: x = b ++ ' ' :: y) : a = b ∧ x = y := by
  induction a generalizing b with
  | nil =>
    cases b with
    | nil => simpa using h
    | cons c t =>
      simp only [List.nil_append, List.cons_append, List.cons.injEq] at h
      rw [← h.1] at hb
      simp at hb
  | cons c t ih =>
    cases b with
    | nil =>
      simp only [List.nil_append, List.cons_append, List.cons.injEq] at h
      rw [h.1] at ha
      simp at ha
    | cons d u =>
      simp only [List.cons_append, List.cons.injEq] at h
      obtain ⟨rfl, h⟩ := h
      obtain ⟨rfl, rfl⟩ := ih (fun hc => ha (List.mem_cons_of_mem _ hc)) (fun hc => hb (List.mem_cons_of_mem _ hc)) h
      exact ⟨rfl, rfl⟩

/-- C71.  Two session states are equal only for the same client, the same origin, the same state of the browser's cookie and
the same salt, if the hash has a fixed length and does not collide on the two texts, and client ids and origins have no
spaces. -/
theorem C71_session_state (hash : Str → Str) (n : Nat) (hlen : ∀ s, (hash s).length = n)
    (opbs opbs' salt salt' c c' o o' : Str) (hc : ' ' ∉ c) (hc' : ' ' ∉ c') (ho : ' ' ∉ o) (ho' : ' ' ∉ o')
    (hcol : hash (c ++ [' '] ++ o ++ [' '] ++ opbs ++ [' '] ++ salt) =
        hash (c' ++ [' '] ++ o' ++ [' '] ++ opbs' ++ [' '] ++ salt') →
      c ++ [' '] ++ o ++ [' '] ++ opbs ++ [' '] ++ salt = c' ++ [' '] ++ o' ++ [' '] ++ opbs' ++ [' '] ++ salt')
    (h : sessionState hash opbs salt c o = sessionState hash opbs' salt' c' o') :
    c = c' ∧ o = o' ∧ opbs = opbs' ∧ salt = salt' := by
  unfold sessionState at h
  obtain ⟨h1, h2⟩ := List.append_inj h (by rw [hlen, hlen])
  simp only [List.cons.injEq, true_and] at h2
  subst h2
  have h3 := hcol (by simpa using h1)
  simp only [List.append_assoc, List.singleton_append] at h3
  obtain ⟨rfl, h4⟩ := space_split hc hc' h3
  obtain ⟨rfl, h5⟩ := space_split ho ho' h4
  have h6 := List.append_cancel_right h5
  exact ⟨rfl, rfl, h6, rfl⟩

end OidcOp
