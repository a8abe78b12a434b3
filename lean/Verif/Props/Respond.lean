/-
C104: answers are not cached, say what they are, and tell of errors.
-/
import Verif.Spec.Respond

namespace OidcOp
open Spec

theorem nocache_headers (a : AnswerArgs) (ct : String) : NotCached (answerHeaders a ct) := by
  unfold answerHeaders NotCached nocacheHeaders
  simp

theorem doResponse_cases {st : AnswerStyle} {info : Dict Json → Except Exc (Dict Json)} {a : AnswerArgs} {r : HttpAnswer}
    (h : doResponse st info a = .ok r) : ∃ b p, r = { body := b.1, headers := answerHeaders a b.2, placement := p, cookie := a.cookie, code := a.code } ∧
      ((a.error ≠ "" ∧ placeMessage st a (errorMessage a) = .ok b ∧ p = none) ∨
       (a.error = "" ∧ (∃ s, a.message = some s ∧ b = placeText st a s ∧ p = truthyStr a.placement)) ∨
       (a.error = "" ∧ a.message = none ∧ (∃ m, info (a.args.getD []) = .ok m ∧ placeMessage st a m = .ok b) ∧ p = none)) := by
  unfold doResponse at h
  simp only [] at h
  by_cases he : a.error = ""
  · rw [if_neg (by simp [he])] at h
    cases hm : a.message with
    | some s =>
      rw [hm] at h
      simp only [] at h
      cases h
      exact ⟨_, _, rfl, .inr (.inl ⟨he, s, rfl, rfl, rfl⟩)⟩
    | none =>
      rw [hm] at h
      simp only [] at h
      cases hi : info (a.args.getD []) with
      | error e => rw [hi] at h; cases h
      | ok m =>
        rw [hi] at h
        simp only [] at h
        cases hp : placeMessage st a m with
        | error e => rw [hp] at h; cases h
        | ok b =>
          rw [hp] at h
          cases h
          exact ⟨_, _, rfl, .inr (.inr ⟨he, rfl, ⟨m, rfl, hp⟩, rfl⟩)⟩
  · rw [if_pos he] at h
    cases hp : placeMessage st a (errorMessage a) with
    | error e => rw [hp] at h; cases h
    | ok b =>
      rw [hp] at h
      cases h
      exact ⟨_, _, rfl, .inl ⟨he, rfl, rfl⟩⟩

/-- C104. Whatever is answered, by whatever endpoint and however it is set up, is marked as not to be cached: errors, tokens, ready messages,
redirections; the WebFinger endpoint is the exception, see `C104_webfinger_refuted`. -/
theorem C104_not_cached_partial (st : AnswerStyle) (info : Dict Json → Except Exc (Dict Json))
    (pack : JwtArgs → Dict Json → Except Exc String) (client : String) (ci : Option Cinfo) (a : AnswerArgs) (r : HttpAnswer)
    (h : doResponse st info a = .ok r ∨ userinfoResponse st info pack client ci a = .ok r) : NotCached r.headers := by
  have gen : ∀ r, doResponse st info a = .ok r → NotCached r.headers := by
    intro r h
    obtain ⟨b, p, rfl, _⟩ := doResponse_cases h
    exact nocache_headers a b.2
  rcases h with h | h
  · exact gen r h
  · unfold userinfoResponse at h
    by_cases he : a.error = ""
    · rw [if_neg (by simp [he])] at h
      by_cases hc : client = ""
      · rw [if_pos hc] at h; cases h
      · rw [if_neg hc] at h
        cases ci with
        | none => cases h
        | some ci =>
          simp only [] at h
          cases hu : userinfoArgs ci with
          | error e => rw [hu] at h; cases h
          | ok o =>
            rw [hu] at h
            cases o with
            | none =>
              simp only [] at h
              cases ha : a.args with
              | none => rw [ha] at h; cases h
              | some m => rw [ha] at h; cases h; exact ⟨by simp [nocacheHeaders], by simp [nocacheHeaders]⟩
            | some j =>
              simp only [] at h
              cases hp : pack j (a.args.getD []) with
              | error e => rw [hp] at h; cases h
              | ok s => rw [hp] at h; cases h; exact ⟨by simp [nocacheHeaders], by simp [nocacheHeaders]⟩
    · rw [if_pos he] at h
      exact gen r h

theorem saysType_exact (v : String) : SaysType ("Content-type", v) := by
  show ("Content-type" : String).toList.map Char.toLower = "content-type".toList
  decide +kernel

theorem nocache_no_type : nocacheHeaders.filter (fun h => decide (SaysType h)) = [] := by decide +kernel

theorem answer_type {a : AnswerArgs} {ct : String} (hct : ct ≠ "")
    (hh : ∀ l, a.headers = some l → (∀ h ∈ l, SaysType h → h.1 = "Content-type") ∧
      (l.filter (fun h => decide (SaysType h))).length ≤ 1) : OneType (answerHeaders a ct) ct := by
  refine ⟨"Content-type", ?_⟩
  unfold answerHeaders
  rw [if_neg hct, List.filter_append, nocache_no_type, List.append_nil]
  cases hl : a.headers with
  | none => simp [saysType_exact]
  | some l =>
    obtain ⟨h1, h2⟩ := hh l hl
    simp only []
    unfold setContentType
    by_cases hm : ("Content-type", ct) ∈ l
    · rw [if_pos hm]
      have hin : ("Content-type", ct) ∈ l.filter (fun h => decide (SaysType h)) := by
        rw [List.mem_filter]
        exact ⟨hm, by simp [saysType_exact]⟩
      match hf : l.filter (fun h => decide (SaysType h)) with
      | [] => rw [hf] at hin; cases hin
      | [x] => rw [hf, List.mem_singleton] at hin; rw [hin]
      | x :: y :: r => rw [hf] at h2; simp at h2
    · rw [if_neg hm, List.filter_append]
      have hnone : (l.filter (fun h => decide (h.1 ≠ "Content-type"))).filter (fun h => decide (SaysType h)) = [] := by
        rw [List.filter_eq_nil_iff]
        intro h hmem
        rw [List.mem_filter] at hmem
        simp only [decide_eq_true_eq]
        intro hs
        exact of_decide_eq_true hmem.2 (h1 h hmem.1 hs)
      rw [hnone]
      simp [saysType_exact]

/-- C104 (partial: if the headers that are passed say the type more than once, or with other letters, so does the answer, see
`C104_types_refuted`). An answer says once what type it has. -/
theorem C104_one_type_partial (st : AnswerStyle) (info : Dict Json → Except Exc (Dict Json)) (a : AnswerArgs) (r : HttpAnswer)
    (h : doResponse st info a = .ok r) (hc : a.contentType ≠ some "")
    (hh : ∀ l, a.headers = some l → (∀ x ∈ l, SaysType x → x.1 = "Content-type") ∧
      (l.filter (fun x => decide (SaysType x))).length ≤ 1) :
    ∃ ct, OneType r.headers ct ∧
      (∀ x, a.contentType = some x → ct = x) ∧
      (∀ m, r.body = .json m → ct = "application/json; charset=utf-8") ∧
      (∀ m, r.body = .jose m → ct = "application/jose; charset=utf-8") ∧
      (∀ m, r.body = .form m → ct = "application/x-www-form-urlencoded") := by
  obtain ⟨b, p, rfl, hb⟩ := doResponse_cases h
  have place : ∀ m, placeMessage st a m = .ok b → b.2 ≠ "" ∧ (∀ x, a.contentType = some x → b.2 = x) ∧
      (∀ m, b.1 = .json m → b.2 = "application/json; charset=utf-8") ∧
      (∀ m, b.1 = .jose m → b.2 = "application/jose; charset=utf-8") ∧
      (∀ m, b.1 = .form m → b.2 = "application/x-www-form-urlencoded") := by
    intro m hm
    unfold placeMessage at hm
    cases hct : a.contentType with
    | some ct =>
      rw [hct] at hm hc
      cases hm
      exact ⟨fun e => hc (by rw [← e]), fun x hx => by cases hx; rfl, nofun, nofun,
        nofun⟩
    | none =>
      rw [hct] at hm
      simp only [] at hm
      split at hm
      · split at hm
        · cases hm
          exact ⟨by simp, nofun, fun _ _ => rfl, nofun, nofun⟩
        · split at hm
          · cases hm
            exact ⟨by simp, nofun, nofun, fun _ _ => rfl, nofun⟩
          · cases hm
            exact ⟨by simp, nofun, nofun, nofun, fun _ _ => rfl⟩
      · split at hm
        · cases hu : a.returnUri with
          | none => rw [hu] at hm; cases hm
          | some u =>
            rw [hu] at hm
            cases hm
            exact ⟨by simp, nofun, nofun, nofun, nofun⟩
        · cases hm
  have all : b.2 ≠ "" ∧ (∀ x, a.contentType = some x → b.2 = x) ∧
      (∀ m, b.1 = .json m → b.2 = "application/json; charset=utf-8") ∧
      (∀ m, b.1 = .jose m → b.2 = "application/jose; charset=utf-8") ∧
      (∀ m, b.1 = .form m → b.2 = "application/x-www-form-urlencoded") := by
    rcases hb with ⟨_, hm, _⟩ | ⟨_, s, _, rfl, _⟩ | ⟨_, _, ⟨m, _, hm⟩, _⟩
    · exact place _ hm
    · unfold placeText
      refine ⟨?_, fun x hx => by simp [hx], nofun, nofun, nofun⟩
      cases hct : a.contentType with
      | some ct =>
        rw [hct] at hc
        exact fun e => hc (by rw [← show ct = "" from e])
      | none =>
        simp only [Option.getD_none]
        split
        · decide
        · split <;> decide
    · exact place _ hm
  exact ⟨b.2, answer_type all.1 hh, all.2⟩

theorem errorMessage_tells (a : AnswerArgs) : TellsError a (errorMessage a) := by
  unfold errorMessage errorMember
  constructor
  · rfl
  all_goals cases a.errorDescription <;> cases a.errorUri <;> cases a.state <;> simp [Dict.get?, Dict.keys]

/-- C104 (partial: not if a content type is passed, see `C104_error_lost_refuted`). An error at any endpoint but those for authorization and
for logout is answered with a JSON message that tells of the error and of nothing else: nothing of a response that was prepared, and
nothing that depends on it. -/
theorem C104_error_partial (name : String) (hn : name ≠ "authorization" ∧ name ≠ "session")
    (info : Dict Json → Except Exc (Dict Json)) (a : AnswerArgs) (he : a.error ≠ "") (hc : a.contentType = none) :
    ∃ r m, doResponse (answerStyle name) info a = .ok r ∧ r.body = .json m ∧ TellsError a m ∧ r.cookie = a.cookie ∧ r.code = a.code := by
  have hst : answerStyle name = {} := by
    unfold answerStyle
    split
    · exact absurd rfl hn.1
    · exact absurd rfl hn.2
    · rfl
  refine ⟨{ body := .json (errorMessage a), headers := answerHeaders a "application/json; charset=utf-8", cookie := a.cookie,
            code := a.code }, _, ?_, rfl, errorMessage_tells a, rfl, rfl⟩
  unfold doResponse placeMessage
  rw [hst]
  simp only []
  rw [if_pos he, hc]
  rfl

/-- C104 (partial: only where there is a URI to send it to, see `C104_error_uri_refuted`). An error at the endpoints for authorization and
for logout goes to the URI in the query or in the fragment. -/
theorem C104_error_redirect_partial (name : String) (hn : name = "authorization" ∨ name = "session")
    (info : Dict Json → Except Exc (Dict Json)) (a : AnswerArgs) (he : a.error ≠ "") (hc : a.contentType = none) (u : String)
    (hu : a.returnUri = some u) :
    ∃ r m f, doResponse (answerStyle name) info a = .ok r ∧ r.body = .url u f m ∧ TellsError a m ∧ r.cookie = a.cookie ∧
      r.code = a.code := by
  have hst : answerStyle name = { placement := "url", format := "urlencoded" } := by
    rcases hn with rfl | rfl <;> rfl
  refine ⟨{ body := .url u (inFragment { fragmentEnc := some a.fragmentEnc, returnType := a.returnType }) (errorMessage a),
            headers := answerHeaders a "application/x-www-form-urlencoded", cookie := a.cookie, code := a.code }, _, _, ?_, rfl,
    errorMessage_tells a, rfl, rfl⟩
  unfold doResponse placeMessage
  rw [hst]
  simp only []
  rw [if_pos he, hc, hu]
  rfl

/-- C104. A response without an error at such an endpoint is the message made of its arguments; cookies and the status code are the
ones that were prepared. -/
theorem C104_response_partial (name : String) (hn : name ≠ "authorization" ∧ name ≠ "session")
    (info : Dict Json → Except Exc (Dict Json)) (a : AnswerArgs) (he : a.error = "") (hm : a.message = none) (hc : a.contentType = none)
    (m : Dict Json) (hi : info (a.args.getD []) = .ok m) :
    ∃ r, doResponse (answerStyle name) info a = .ok r ∧ r.body = .json m ∧ r.cookie = a.cookie ∧ r.code = a.code := by
  have hst : answerStyle name = {} := by
    unfold answerStyle
    split
    · exact absurd rfl hn.1
    · exact absurd rfl hn.2
    · rfl
  refine ⟨{ body := .json m, headers := answerHeaders a "application/json; charset=utf-8", cookie := a.cookie,
            code := a.code }, ?_, rfl, rfl, rfl⟩
  unfold doResponse placeMessage
  rw [hst]
  simp only []
  rw [if_neg (by simp [he]), hm, hi, hc]
  rfl

/-- C104. A message that is ready is answered as it is, with the type that was given for it, or else the type of the endpoint's answers:
JSON, but form parameters at the endpoints for authorization and for logout. -/
theorem C104_ready_message (name : String) (info : Dict Json → Except Exc (Dict Json)) (a : AnswerArgs) (he : a.error = "") (s : String)
    (hm : a.message = some s) (hc : a.contentType ≠ some "")
    (hh : ∀ l, a.headers = some l → (∀ x ∈ l, SaysType x → x.1 = "Content-type") ∧
      (l.filter (fun x => decide (SaysType x))).length ≤ 1) :
    ∃ r ct, doResponse (answerStyle name) info a = .ok r ∧ r.body = .text s ∧ r.cookie = a.cookie ∧ r.code = a.code ∧
      OneType r.headers ct ∧ (∀ x, a.contentType = some x → ct = x) ∧
      (a.contentType = none → name = "authorization" ∨ name = "session" → ct = "application/x-www-form-urlencoded") ∧
      (a.contentType = none → name ≠ "authorization" → name ≠ "session" → ct = "application/json") := by
  have hst : (name = "authorization" ∨ name = "session") ∧ answerStyle name = { placement := "url", format := "urlencoded" } ∨
      (name ≠ "authorization" ∧ name ≠ "session") ∧ answerStyle name = {} := by
    unfold answerStyle
    split
    · exact .inl ⟨.inl rfl, rfl⟩
    · exact .inl ⟨.inr rfl, rfl⟩
    · rename_i h1 h2
      exact .inr ⟨⟨h1, h2⟩, rfl⟩
  have h1 : doResponse (answerStyle name) info a = .ok
      { body := (placeText (answerStyle name) a s).1
        headers := answerHeaders a (placeText (answerStyle name) a s).2
        placement := truthyStr a.placement
        cookie := a.cookie
        code := a.code } := by
    unfold doResponse
    simp only []
    rw [if_neg (by simp [he]), hm]
  refine ⟨_, (placeText (answerStyle name) a s).2, h1, rfl, rfl, rfl, answer_type ?_ hh, ?_, ?_, ?_⟩
  · unfold placeText
    cases hct : a.contentType with
    | some ct =>
      rw [hct] at hc
      exact fun e => hc (by rw [← show ct = "" from e])
    | none =>
      simp only [Option.getD_none]
      split
      · decide
      · split <;> decide
  · intro x hx
    unfold placeText
    rw [hx]
    rfl
  · intro hn hname
    rcases hst with ⟨_, h2⟩ | ⟨⟨k1, k2⟩, _⟩
    · unfold placeText
      rw [hn, h2]
      rfl
    · exact absurd hname (not_or.2 ⟨k1, k2⟩)
  · intro hn k1 k2
    rcases hst with ⟨h2, _⟩ | ⟨_, h2⟩
    · exact absurd h2 (not_or.2 ⟨k1, k2⟩)
    · unfold placeText
      rw [hn, h2]
      rfl

/-- C104. An endpoint that was configured to answer in another format does so: a response without an error is JSON, JOSE or form
parameters as the format says, and a ready message without a type of its own has the type that belongs to the format. -/
theorem C104_configured_format (f : String) (info : Dict Json → Except Exc (Dict Json)) (a : AnswerArgs) (he : a.error = "")
    (hc : a.contentType = none) (hh : a.headers = none) :
    (∀ m, a.message = none → info (a.args.getD []) = .ok m →
      ∃ r, doResponse { placement := "body", format := f } info a = .ok r ∧
        (f = "json" → r.body = .json m) ∧
        (f ∈ ["jws", "jwe", "jose"] → r.body = .jose m) ∧
        (f ∉ ["json", "jws", "jwe", "jose"] → r.body = .form m)) ∧
    (∀ s, a.message = some s →
      ∃ r ct, doResponse { placement := "body", format := f } info a = .ok r ∧ r.body = .text s ∧ OneType r.headers ct ∧
        (f = "json" → ct = "application/json") ∧
        (f ∈ ["jws", "jwe", "jose"] → ct = "application/jose") ∧
        (f ∉ ["json", "jws", "jwe", "jose"] → ct = "application/x-www-form-urlencoded")) := by
  have three : f = "json" ∨ (f ∈ ["jws", "jwe", "jose"] ∧ f ≠ "json") ∨ f ∉ ["json", "jws", "jwe", "jose"] := by
    by_cases h1 : f = "json"
    · exact .inl h1
    · by_cases h2 : f ∈ ["jws", "jwe", "jose"]
      · exact .inr (.inl ⟨h2, h1⟩)
      · exact .inr (.inr (by simpa [h1] using h2))
  have types : ∀ ct, ct ≠ "" → OneType (answerHeaders a ct) ct := fun ct h => answer_type h (by rw [hh]; nofun)
  constructor
  · intro m hm hi
    unfold doResponse placeMessage
    simp only []
    rw [if_neg (by simp [he]), hm, hi, hc]
    simp only [if_true]
    rcases three with h | ⟨h, hj⟩ | h
    · subst h
      exact ⟨_, rfl, fun _ => rfl, fun h => absurd h (by decide), fun h => absurd h (by decide)⟩
    · rw [if_neg hj, if_pos (by simpa using h)]
      exact ⟨_, rfl, fun h' => absurd h' hj, fun _ => rfl, fun h' => absurd (List.mem_cons_of_mem _ h) h'⟩
    · have h' := h
      simp only [List.mem_cons, List.not_mem_nil, or_false, not_or] at h'
      rw [if_neg h'.1, if_neg (by simp [h'.2])]
      exact ⟨_, rfl, fun k => absurd k h'.1, fun k => absurd (List.mem_cons_of_mem _ k) h, fun _ => rfl⟩
  · intro s hm
    unfold doResponse placeText
    simp only []
    rw [if_neg (by simp [he]), hm, hc]
    simp only [Option.getD_none]
    rcases three with h | ⟨h, hj⟩ | h
    · subst h
      exact ⟨_, _, rfl, rfl, types _ (by decide), fun _ => rfl, fun h => absurd h (by decide), fun h => absurd h (by decide)⟩
    · rw [if_neg hj, if_pos (by simpa using h)]
      exact ⟨_, _, rfl, rfl, types _ (by decide), fun h' => absurd h' hj, fun _ => rfl,
        fun h' => absurd (List.mem_cons_of_mem _ h) h'⟩
    · have h' := h
      simp only [List.mem_cons, List.not_mem_nil, or_false, not_or] at h'
      rw [if_neg h'.1, if_neg (by simp [h'.2])]
      exact ⟨_, _, rfl, rfl, types _ (by decide), fun k => absurd k h'.1, fun k => absurd (List.mem_cons_of_mem _ k) h, fun _ => rfl⟩

/-- C104. The user info endpoint says which type its answers have: plain ones are JSON, and signed or encrypted ones JWTs. -/
theorem C104_userinfo_type (st : AnswerStyle) (info : Dict Json → Except Exc (Dict Json))
    (pack : JwtArgs → Dict Json → Except Exc String) (client : String) (ci : Option Cinfo) (a : AnswerArgs) (he : a.error = "")
    (r : HttpAnswer) (h : userinfoResponse st info pack client ci a = .ok r) :
    (∃ m, a.args = some m ∧ r.body = .json m ∧ OneType r.headers "application/json") ∨
      ∃ j s, pack j (a.args.getD []) = .ok s ∧ r.body = .text s ∧ OneType r.headers "application/jwt" := by
  have types : ∀ ct, OneType ([("Content-type", ct)] ++ nocacheHeaders) ct := by
    intro ct
    refine ⟨"Content-type", ?_⟩
    rw [List.filter_append, nocache_no_type]
    simp [saysType_exact]
  unfold userinfoResponse at h
  rw [if_neg (by simp [he])] at h
  split at h
  · cases h
  · cases ci with
    | none => cases h
    | some c =>
      simp only [] at h
      cases hj : userinfoArgs c with
      | error e => rw [hj] at h; cases h
      | ok x =>
        rw [hj] at h
        cases x with
        | none =>
          simp only [] at h
          cases ha : a.args with
          | none => rw [ha] at h; cases h
          | some m => rw [ha] at h; cases h; exact .inl ⟨m, rfl, rfl, types _⟩
        | some j =>
          simp only [] at h
          cases hp : pack j (a.args.getD []) with
          | error e => rw [hp] at h; cases h
          | ok s => rw [hp] at h; cases h; exact .inr ⟨j, s, hp, rfl, types _⟩

/-- C104. A WebFinger answer (RFC 7033, OpenID Connect Discovery 2) is about the resource that was asked for, and its one link names the
provider as the issuer. -/
theorem C104_webfinger (issuer resource : String) :
    ∃ (m link : Dict Json), (discoveryResponse issuer resource).body = .json m ∧ OneType (discoveryResponse issuer resource).headers "application/json" ∧
      m.get? "subject" = some (.str resource) ∧ m.get? "links" = some (.arr [.obj link]) ∧
      link.get? "rel" = some (.str "http://openid.net/specs/connect/1.0/issuer") ∧ link.get? "href" = some (.str issuer) :=
  ⟨_, _, rfl, ⟨"Content-type", by
    show List.filter (fun h => decide (SaysType h)) [("Content-type", "application/json")] = _
    simp [saysType_exact]⟩, rfl, rfl, rfl, rfl⟩

namespace Ex

/-- User info: plain, and as a JWT. -/
example : userinfoResponse {} (fun m => .ok m) (fun _ _ => .ok "a.b.c") "rp1" (some []) { args := some [("sub", .str "diana")] } =
      .ok { body := .json [("sub", .str "diana")], headers := [("Content-type", "application/json")] ++ nocacheHeaders } ∧
    userinfoResponse {} (fun m => .ok m) (fun _ _ => .ok "a.b.c") "rp1" (some [("userinfo_signed_response_alg", .json (.str "ES256"))])
        { args := some [("sub", .str "diana")] } =
      .ok { body := .text "a.b.c", headers := [("Content-type", "application/jwt")] ++ nocacheHeaders } := by
  constructor <;> rfl

/-- A ready message: a page, and one without a type at the token endpoint. -/
example : doResponse (answerStyle "authorization") (fun m => .ok m) { message := some "<html>", contentType := some "text/html" } =
      .ok { body := .text "<html>", headers := [("Content-type", "text/html"), ("Pragma", "no-cache"), ("Cache-Control", "no-store")] } ∧
    doResponse (answerStyle "token") (fun m => .ok m) { message := some "{}" } =
      .ok { body := .text "{}", headers := [("Content-type", "application/json"), ("Pragma", "no-cache"), ("Cache-Control", "no-store")] } := by
  decide +kernel

/-- An endpoint that answers with a JWT. -/
example : doResponse { placement := "body", format := "jwe" } (fun m => .ok m) { message := some "eyJ" } =
      .ok { body := .text "eyJ", headers := [("Content-type", "application/jose"), ("Pragma", "no-cache"), ("Cache-Control", "no-store")] } := by
  decide +kernel

/-- Cases that meet the hypotheses: a token response, an error at the token endpoint, one at the authorization endpoint. -/
example : doResponse (answerStyle "token") (fun m => .ok m)
      { args := some [("access_token", .str "T1")], headers := some [("Content-type", "application/json")], cookie := some ["c"] } =
    .ok { body := .json [("access_token", .str "T1")],
          headers := [("Content-type", "application/json; charset=utf-8"), ("Pragma", "no-cache"), ("Cache-Control", "no-store")],
          cookie := some ["c"] } ∧
    doResponse (answerStyle "token") (fun m => .ok m) { error := "invalid_grant", args := some [("access_token", .str "T1")] } =
    .ok { body := .json [("error", .str "invalid_grant")],
          headers := [("Content-type", "application/json; charset=utf-8"), ("Pragma", "no-cache"), ("Cache-Control", "no-store")] } ∧
    doResponse (answerStyle "authorization") (fun m => .ok m)
      { error := "access_denied", state := some (.str "s"), returnUri := some "https://rp.example/cb", returnType := some ["code"] } =
    .ok { body := .url "https://rp.example/cb" false [("error", .str "access_denied"), ("state", .str "s")],
          headers := [("Content-type", "application/x-www-form-urlencoded"), ("Pragma", "no-cache"), ("Cache-Control", "no-store")] } := by
  decide +kernel

/-- C104 fails for WebFinger: its answer is not marked. -/
theorem C104_webfinger_refuted (issuer resource : String) : ¬ NotCached (discoveryResponse issuer resource).headers := by
  unfold NotCached discoveryResponse
  simp

/-- C104 fails if headers are passed with a type in other letters: two types are said. -/
theorem C104_types_refuted : ¬ (∀ (st : AnswerStyle) (info : Dict Json → Except Exc (Dict Json)) (a : AnswerArgs) (r : HttpAnswer),
    doResponse st info a = .ok r → ∃ ct, OneType r.headers ct) := by
  intro h
  obtain ⟨ct, name, h1⟩ := h {} (fun m => .ok m) { headers := some [("Content-Type", "application/json")] } _ rfl
  have : ([("Content-Type", "application/json"), ("Content-type", "application/json; charset=utf-8"), ("Pragma", "no-cache"),
      ("Cache-Control", "no-store")] : List Header).filter (fun h => decide (SaysType h)) =
      [("Content-Type", "application/json"), ("Content-type", "application/json; charset=utf-8")] := by decide +kernel
  have h1 : _ = [(name, ct)] := h1
  have h2 := this.symm.trans h1
  cases h2

/-- C104 fails if a content type is passed with an error: nothing is said of the error (endpoint.py:354-356). -/
theorem C104_error_lost_refuted (st : AnswerStyle) (info : Dict Json → Except Exc (Dict Json)) (a : AnswerArgs) (ct : String)
    (hc : a.contentType = some ct) (hm : a.message = none) (r : HttpAnswer) (h : doResponse st info a = .ok r) : r.body = .empty := by
  obtain ⟨b, p, rfl, hb⟩ := doResponse_cases h
  have place : ∀ m, placeMessage st a m = .ok b → b.1 = .empty := by
    intro m hp
    unfold placeMessage at hp
    rw [hc] at hp
    cases hp
    rfl
  rcases hb with ⟨_, hp, _⟩ | ⟨_, s, hs, _⟩ | ⟨_, _, ⟨m, _, hp⟩, _⟩
  · exact place _ hp
  · rw [hm] at hs; cases hs
  · exact place _ hp

/-- C104 fails at the endpoints for authorization and for logout where no URI is known: instead of an answer there is a KeyError. -/
theorem C104_error_uri_refuted (name : String) (hn : name = "authorization" ∨ name = "session")
    (info : Dict Json → Except Exc (Dict Json)) (a : AnswerArgs) (he : a.error ≠ "") (hc : a.contentType = none)
    (hu : a.returnUri = none) : doResponse (answerStyle name) info a = .error .keyError := by
  have hst : answerStyle name = { placement := "url", format := "urlencoded" } := by
    rcases hn with rfl | rfl <;> rfl
  unfold doResponse placeMessage
  rw [hst]
  simp only []
  rw [if_pos he, hc, hu]
  rfl

/-- What `C104_error_lost_refuted` and `C104_error_uri_refuted` are about. -/
example : doResponse (answerStyle "token") (fun m => .ok m) { error := "invalid_grant", contentType := some "application/json" } =
      .ok { body := .empty, headers := [("Content-type", "application/json"), ("Pragma", "no-cache"), ("Cache-Control", "no-store")] } ∧
    doResponse (answerStyle "session") (fun m => .ok m) { error := "invalid_request" } = .error .keyError := by
  decide +kernel

end Ex

end OidcOp
