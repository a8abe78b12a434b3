/-
Extra arguments are in the answers they are configured for (C111).
-/
import Verif.Spec.ExtraArgs

namespace OidcOp
open Spec

theorem addExtra_has {attr : String → Option Json} {extra : Dict String} (hn : extra.keys.Nodup) {was m : Dict Json}
    (h : addExtra attr extra was = .ok m) : HasExtra attr extra was m := by
  induction extra generalizing was with
  | nil =>
    cases h
    exact ⟨fun _ _ _ h => (by cases h), fun _ _ => rfl⟩
  | cons x t ih =>
    obtain ⟨a, p⟩ := x
    unfold addExtra at h
    unfold Dict.keys at hn
    rw [List.map_cons, List.nodup_cons] at hn
    cases hp : attr p with
    | none => rw [hp] at h; cases h
    | some v =>
      rw [hp] at h
      have hi := ih hn.2 h
      have hnone : Dict.get? t a = none := (Dict.get?_eq_none_iff ..).2 hn.1
      constructor
      · intro arg param v' h1 h2 h3
        rw [Dict.get?_cons] at h1
        by_cases e : a = arg
        · subst e
          rw [if_pos rfl] at h1
          cases h1
          rw [hp] at h2
          cases h2
          rw [hi.rest a hnone, if_pos h3, Dict.get?_set_self]
        · rw [if_neg e] at h1
          exact hi.there arg param v' h1 h2 h3
      · intro k h1
        rw [Dict.get?_cons] at h1
        by_cases e : a = k
        · rw [if_pos e] at h1; cases h1
        · rw [if_neg e] at h1
          rw [hi.rest k h1]
          by_cases hv : v.truthy = true
          · rw [if_pos hv, Dict.get?_set_ne _ _ e]
          · rw [if_neg hv]

theorem addExtra_ok {attr : String → Option Json} {extra : Dict String} (h : ∀ arg param, (arg, param) ∈ extra → attr param ≠ none)
    (was : Dict Json) : ∃ m, addExtra attr extra was = .ok m := by
  induction extra generalizing was with
  | nil => exact ⟨_, rfl⟩
  | cons x t ih =>
    obtain ⟨a, p⟩ := x
    unfold addExtra
    cases hp : attr p with
    | none => exact absurd hp (h a p (List.mem_cons_self ..))
    | some v => exact ih (fun arg param hm => h arg param (List.mem_cons_of_mem _ hm)) _

theorem support_spec {endpoints : List String} {kwargs : Dict (Dict String)} {hooks : List String × Option (Dict (Dict String))}
    (h : addExtraSupport endpoints kwargs = .ok hooks) {name : String} {extra : Dict String} (he : kwargs.get? name = some extra) :
    name ∈ hooks.1 ∧ hooks.2 = some kwargs ∧ name ∈ endpoints := by
  unfold addExtraSupport at h
  have hk : name ∈ kwargs.keys := by rw [← Dict.has_iff]; unfold Dict.has; rw [he]; rfl
  split at h
  · rename_i hall
    cases h
    refine ⟨hk, ?_, ?_⟩
    · show (if kwargs.isEmpty then none else some kwargs) = _
      rw [if_neg]
      intro hz
      rw [List.isEmpty_iff.1 hz] at he
      cases he
    · rw [List.all_eq_true] at hall
      have := hall name hk
      rwa [List.contains_iff_mem] at this
  · cases h

/-- C111 (partial). The answers of the authorization endpoint have the extra arguments that are configured for it, and otherwise what
they would have. -/
theorem C111_authorization_partial : ExtraThere "authorization" := by
  intro endpoints kwargs hooks attr extra a r hk hn hs he hp hr
  obtain ⟨h1, h2, -⟩ := support_spec hs he
  unfold extraResponse doResponse at hr
  simp only [hp.noError, ne_eq, not_true_eq_false, if_false, hp.noMessage] at hr
  unfold extraConstruct extraPre at hr
  rw [if_pos h1, h2] at hr
  simp only [argsKind, ArgsKind.name, Option.bind_some, he, Option.getD_some] at hr
  cases hx : addExtra attr extra (a.args.getD []) with
  | error e => rw [hx] at hr; cases hr
  | ok m =>
    rw [hx] at hr
    simp only [placeMessage, hp.noType, answerStyle] at hr
    rw [if_neg (by decide), if_pos trivial] at hr
    cases hu : a.returnUri with
    | none => rw [hu] at hr; cases hr
    | some u =>
      rw [hu] at hr
      cases hr
      exact ⟨m, rfl, addExtra_has hn hx⟩

/-- C111 (partial). If the attributes exist and the answer goes to a URL, then there is an answer. -/
theorem C111_authorization_answers_partial (endpoints : List String) (kwargs : Dict (Dict String))
    (hooks : List String × Option (Dict (Dict String))) (attr : String → Option Json) (extra : Dict String) (a : AnswerArgs) (u : String)
    (hs : addExtraSupport endpoints kwargs = .ok hooks) (he : kwargs.get? "authorization" = some extra) (hp : Plain a)
    (ha : ∀ arg param, (arg, param) ∈ extra → attr param ≠ none) (hu : a.returnUri = some u) :
    ∃ r f m, extraResponse hooks attr "authorization" a = .ok r ∧ r.body = .url u f m := by
  obtain ⟨h1, h2, -⟩ := support_spec hs he
  obtain ⟨m, hm⟩ := addExtra_ok ha (a.args.getD [])
  unfold extraResponse doResponse
  simp only [hp.noError, ne_eq, not_true_eq_false, if_false, hp.noMessage]
  unfold extraConstruct extraPre
  rw [if_pos h1, h2]
  simp only [argsKind, ArgsKind.name, Option.bind_some, he, Option.getD_some, hm, placeMessage, hp.noType, answerStyle]
  rw [if_neg (by decide), if_pos trivial, hu]
  exact ⟨_, _, _, rfl, rfl⟩

/-- C111. Errors and answers that are ready made, forms for example, stay as they are, at every endpoint. -/
theorem C111_errors (hooks : List String × Option (Dict (Dict String))) (attr : String → Option Json) (name : String) (a : AnswerArgs)
    (h : a.error ≠ "" ∨ a.message ≠ none) :
    extraResponse hooks attr name a = doResponse (answerStyle name) (fun m => .ok m) a := by
  unfold extraResponse doResponse
  by_cases he : a.error = ""
  · rcases h with h | h
    · exact absurd he h
    · cases hm : a.message with
      | none => exact absurd hm h
      | some s => simp only [he, ne_eq, not_true_eq_false, if_false]
  · simp only [ne_eq, he, not_false_eq_true, if_true]

/-- C111. An endpoint without extra arguments answers as it would without the add-on. -/
theorem C111_others (endpoints : List String) (kwargs : Dict (Dict String)) (hooks : List String × Option (Dict (Dict String)))
    (attr : String → Option Json) (name : String) (a : AnswerArgs) (hs : addExtraSupport endpoints kwargs = .ok hooks)
    (hn : kwargs.get? name = none) :
    extraResponse hooks attr name a = doResponse (answerStyle name) (fun m => .ok m) a := by
  have : extraConstruct hooks attr name = fun m => .ok m := by
    funext m
    unfold extraConstruct
    rw [if_neg]
    unfold addExtraSupport at hs
    split at hs
    · cases hs
      exact (Dict.get?_eq_none_iff ..).1 hn
    · cases hs
  unfold extraResponse
  rw [this]

/-- C111. A provider for which extra arguments are configured starts exactly if it has the endpoints. -/
theorem C111_start (endpoints : List String) (kwargs : Dict (Dict String)) :
    (∃ hooks, addExtraSupport endpoints kwargs = .ok hooks) ↔ ∀ name, kwargs.has name = true → name ∈ endpoints := by
  unfold addExtraSupport
  constructor
  · rintro ⟨hooks, h⟩ name hn
    split at h
    · rename_i hall
      rw [List.all_eq_true] at hall
      have := hall name ((Dict.has_iff ..).1 hn)
      rwa [List.contains_iff_mem] at this
    · cases h
  · intro h
    rw [if_pos]
    · exact ⟨_, rfl⟩
    · rw [List.all_eq_true]
      intro x hx
      rw [List.contains_iff_mem]
      exact h x ((Dict.has_iff ..).2 hx)

namespace Ex

def extraAttr (s : String) : Option Json :=
  if s = "issuer" then some (.str "https://op") else if s = "jwks_uri" then some .null else none

/-- C111: a case of the theorems about the authorization endpoint. -/
example : ∃ hooks, addExtraSupport ["authorization", "token"] [("authorization", [("iss", "issuer"), ("keys", "jwks_uri")])] = .ok hooks ∧
    Plain { args := some [("code", .str "abc")], returnUri := some "https://rp/cb" } ∧
    ((extraResponse hooks extraAttr "authorization" { args := some [("code", .str "abc")], returnUri := some "https://rp/cb" }).map
      (·.body)) = .ok (.url "https://rp/cb" false [("code", .str "abc"), ("iss", .str "https://op")]) := by
  refine ⟨_, rfl, ⟨rfl, rfl, rfl⟩, by decide +kernel⟩

/-- A provider with these endpoints, and answers without the configured issuer. -/
theorem not_there {name : String} (r : HttpAnswer) (hr : extraResponse ([name], some [(name, [("iss", "issuer")])]) extraAttr name {} = .ok r)
    (hb : ∀ m, messageOf r.body = some m → m.get? "iss" = none) : ¬ ExtraThere name := by
  intro h
  have hs : addExtraSupport [name] [(name, [("iss", "issuer")])] = .ok ([name], some [(name, [("iss", "issuer")])]) := by
    simp [addExtraSupport, Dict.keys]
  obtain ⟨m, h1, h2⟩ := h [name] [(name, [("iss", "issuer")])] _ extraAttr [("iss", "issuer")] {} r (by simp [Dict.keys])
    (by simp [Dict.keys]) hs (by rw [Dict.get?_cons, if_pos rfl]) ⟨rfl, rfl, rfl⟩ hr
  have := h2.there "iss" "issuer" (.str "https://op") rfl rfl rfl
  rw [hb m h1] at this
  cases this

/-- C111 is false of the code for the token endpoint: it hands over a dictionary, for which there are no arguments
(oauth2/token.py:487, oauth2/add_on/extra_args.py:31-32). -/
theorem C111_token_refuted : ¬ ExtraThere "token" :=
  not_there _ rfl (by intro m h; cases h; rfl)

/-- C111 is false of the code for the introspection endpoint: its arguments are looked for under another name than the endpoint's
(oauth2/add_on/extra_args.py:27-28, 45). -/
theorem C111_introspection_refuted : ¬ ExtraThere "introspection" :=
  not_there _ rfl (by intro m h; cases h; rfl)

/-- C111 is false of the code for the user info endpoint, whose `do_response` calls no `pre_construct` (oidc/userinfo.py:52-109): whatever
`construct` does, the answer is the same. -/
theorem C111_userinfo_refuted (st : AnswerStyle) (info info' : Dict Json → Except Exc (Dict Json))
    (pack : JwtArgs → Dict Json → Except Exc String) (client : String) (ci : Option Cinfo) (a : AnswerArgs) (he : a.error = "") :
    userinfoResponse st info pack client ci a = userinfoResponse st info' pack client ci a := by
  unfold userinfoResponse
  simp only [he, ne_eq, not_true_eq_false, if_false]

end Ex
end OidcOp
