/-
Property theorems about the login page: C112.
-/
import Verif.Model.LoginPage
import Verif.Spec.LoginPage

namespace OidcOp
open Spec

theorem copyTruthy_get? (d : Dict Json) (l : List String) (args : Dict Json) (k : String) :
    (copyTruthy d l args).get? k = if k ∈ l ∧ given d k ≠ none then given d k else args.get? k := by
  induction l generalizing args with
  | nil => simp [copyTruthy]
  | cons a rest ih =>
    unfold copyTruthy
    cases ha : d.get? a with
    | none =>
      simp only []
      rw [ih]
      by_cases hk : k = a
      · subst hk; simp [given, ha]
      · simp [hk]
    | some v =>
      simp only []
      rw [ih]
      by_cases hk : k = a
      · subst hk
        by_cases hv : v.truthy = true
        · by_cases hr : k ∈ rest <;> simp [given, ha, hv, hr, Option.filter]
        · simp [given, ha, hv, Option.filter]
      · by_cases hv : v.truthy = true
        · simp [hk, hv, Dict.get?_set, Ne.symm hk]
        · simp [hk, hv]

/-- What `authn_args_gather` collects. -/
theorem gather_get? {Q : QueryLib} {req cinfo : Dict Json} {acr : String} {reqUser : Option Json} {args : Dict Json}
    (h : authnArgsGather Q req acr cinfo reqUser = .ok args) (k : String) :
    args.get? k =
      if k ∈ ["ui_locales", "acr_values", "login_hint"] ∧ given req k ≠ none then given req k
      else if k ∈ ["policy_uri", "logo_uri", "tos_uri"] ∧ given cinfo k ≠ none then given cinfo k
      else if k = "as_user" then reqUser.map (fun u => .arr [u])
      else if k = "query" then some (.str (Q.enc req))
      else if k = "authn_class_ref" then some (.str acr)
      else if k = "return_uri" then req.get? "redirect_uri" else none := by
  unfold authnArgsGather at h
  cases hr : req.get? "redirect_uri" with
  | none => rw [hr] at h; cases h
  | some ru =>
    rw [hr] at h
    simp only [Except.ok.injEq] at h
    subst h
    rw [copyTruthy_get?, copyTruthy_get?]
    split
    · rfl
    · split
      · rfl
      · cases reqUser with
        | none =>
          simp only [Dict.get?_cons, Dict.get?_nil]
          by_cases h1 : k = "as_user"
          · subst h1; simp
          · by_cases h2 : k = "query"
            · subst h2; simp
            · by_cases h3 : k = "authn_class_ref"
              · subst h3; simp
              · by_cases h4 : k = "return_uri"
                · subst h4; simp
                · simp [h1, Ne.symm h2, Ne.symm h3, Ne.symm h4, h2, h3, h4]
        | some u =>
          simp only [Dict.get?_set, Dict.get?_cons, Dict.get?_nil]
          by_cases h1 : k = "as_user"
          · subst h1; simp
          · by_cases h2 : k = "query"
            · subst h2; simp
            · by_cases h3 : k = "authn_class_ref"
              · subst h3; simp
              · by_cases h4 : k = "return_uri"
                · subst h4; simp
                · simp [Ne.symm h1, h1, Ne.symm h2, Ne.symm h3, Ne.symm h4, h2, h3, h4]

/-- The payload of the hidden token of a page. -/
theorem pageFor_packed {Q : QueryLib} {req cinfo : Dict Json} {acr : String} {reqUser : Option Json} {args : Dict Json}
    (h : authnArgsGather Q req acr cinfo reqUser = .ok args) (issuer : String) (now : Int) :
    PageFor (Q.enc req) req cinfo acr reqUser issuer now ((args.set "iss" (.str issuer)).set "iat" (.num now)) := by
  have hg := gather_get? h
  have hx : ∀ k, k ≠ "iss" → k ≠ "iat" → ((args.set "iss" (.str issuer)).set "iat" (.num now)).get? k = args.get? k := by
    intro k h1 h2
    rw [Dict.get?_set_ne _ _ (Ne.symm h2), Dict.get?_set_ne _ _ (Ne.symm h1)]
  refine ⟨?_, ?_, ?_, ?_, ?_, ?_, ?_, ?_, ?_⟩
  · rw [hx _ (by decide) (by decide), hg]; simp
  · rw [hx _ (by decide) (by decide), hg]; simp
  · rw [hx _ (by decide) (by decide), hg]; simp
  · rw [hx _ (by decide) (by decide), hg]; simp
  · intro k hk
    have h1 : k ≠ "iss" := by rintro rfl; exact absurd hk (by decide)
    have h2 : k ≠ "iat" := by rintro rfl; exact absurd hk (by decide)
    rw [hx _ h1 h2, hg]
    simp only [List.mem_cons, List.not_mem_nil, or_false] at hk
    rcases hk with rfl | rfl | rfl <;> cases hc : given cinfo _ <;> simp
  · intro k hk
    have h1 : k ≠ "iss" := by rintro rfl; exact absurd hk (by decide)
    have h2 : k ≠ "iat" := by rintro rfl; exact absurd hk (by decide)
    rw [hx _ h1 h2, hg]
    simp only [List.mem_cons, List.not_mem_nil, or_false] at hk
    rcases hk with rfl | rfl | rfl <;> cases hc : given req _ <;> simp
  · rw [Dict.get?_set_ne _ _ (by decide), Dict.get?_set_self]
  · rw [Dict.get?_set_self]
  · intro k hk
    by_cases h1 : k = "iss"
    · subst h1; decide
    · by_cases h2 : k = "iat"
      · subst h2; decide
      · rw [hx _ h1 h2, hg] at hk
        simp only [List.mem_cons, List.not_mem_nil, or_false] at hk ⊢
        by_cases h3 : k = "as_user"
        · simp [h3]
        · by_cases h4 : k = "query"
          · simp [h4]
          · by_cases h5 : k = "authn_class_ref"
            · simp [h5]
            · by_cases h6 : k = "return_uri"
              · simp [h6]
              · simp only [h3, h4, h5, h6, if_false] at hk
                split at hk
                · rename_i h7; rcases h7.1 with h | h | h <;> simp [h]
                · split at hk
                  · rename_i h7; rcases h7.1 with h | h | h <;> simp [h]
                  · exact absurd rfl hk

theorem userPassCall_token {Tok : Type} {L : FormLib Tok} {issuer action : String} {now : Int} {kwargs args : Dict Json}
    {form : LoginForm Tok} (h : userPassCall L issuer now action kwargs args = .ok form) :
    form.token = createSignedJwt L issuer now args := by
  unfold userPassCall at h
  simp only [] at h
  split at h
  · cases h
  · cases h; rfl

/-- C112.  The hidden token of a login page gives back to the application what the page was made for, and nothing else: the
request, the authentication context, the redirect URI, what the client has registered and what the request says about the
user. -/
theorem C112_comes_back {Tok : Type} (L : FormLib Tok) (Q : QueryLib) (issuer : String) (hi : issuer ∈ L.holders) (made : Int)
    (action acr : String) (kwargs req cinfo args : Dict Json) (wanted : Option Json)
    (hg : authnArgsGather Q req acr cinfo wanted = .ok args) (form : LoginForm Tok)
    (hf : userPassCall L issuer made action kwargs args = .ok form) :
    ∃ got, L.unpack form.token = .ok got ∧ PageFor (Q.enc req) req cinfo acr wanted issuer made got := by
  refine ⟨_, ?_, pageFor_packed hg issuer made⟩
  rw [userPassCall_token hf]
  exact L.unpack_sign _ _ hi (pageFor_packed hg issuer made).issuer

/-- C112.  A user who submits the page made for a request, with a name and the password that goes with it in the user
database, is logged in for that request, with the authentication context that the page was made for; with any other
password nobody is. -/
theorem C112_login {Tok : Type} (L : FormLib Tok) (Q : QueryLib) (issuer : String) (hi : issuer ∈ L.holders) (made : Int)
    (action acr : String) (kwargs req cinfo args : Dict Json) (wanted : Option Json) (hq : Q.dec (Q.enc req) = .ok req)
    (hg : authnArgsGather Q req acr cinfo wanted = .ok args) (form : LoginForm Tok)
    (hf : userPassCall L issuer made action kwargs args = .ok form) (db : Dict String) (user password : String)
    (x : PageLogin) :
    verifyLogin L Q db ⟨user, password, form.token⟩ = .ok x ↔
      db.get? user = some password ∧ x = { request := req, user := user, acr := .str acr, time := .num made } := by
  obtain ⟨got, h1, h2⟩ := C112_comes_back L Q issuer hi made action acr kwargs req cinfo args wanted hg form hf
  unfold verifyLogin userPassVerify
  by_cases hp : db.get? user = some password
  · simp only [hp, if_true, h1, h2.query, hq, h2.acr, h2.made, Except.ok.injEq, true_and]
    exact eq_comm
  · simp [hp]

/-- C112.  Whoever is logged in gave a name and the password that goes with it, and the form had a token that was signed
with a key of somebody who has keys at the provider, in that one's name.  Missing from C112: that it was the provider, see
`C112_signed_by_client_refuted`. -/
theorem C112_authentic_partial {Tok : Type} (L : FormLib Tok) (Q : QueryLib) (db : Dict String) (f : Submitted Tok)
    (x : PageLogin) (h : verifyLogin L Q db f = .ok x) :
    db.get? f.username = some f.password ∧ x.user = f.username ∧
    ∃ holder ∈ L.holders, ∃ payload, f.token = L.sign holder payload ∧
      (∀ i, payload.get? "iss" = some i → i = .str holder) ∧
      (∃ q, payload.get? "query" = some (.str q) ∧ Q.dec q = .ok x.request) ∧
      payload.get? "authn_class_ref" = some x.acr ∧ payload.get? "iat" = some x.time := by
  unfold verifyLogin userPassVerify at h
  by_cases hp : db.get? f.username = some f.password
  · simp only [hp, if_true] at h
    cases hu : L.unpack f.token with
    | error e => rw [hu] at h; cases h
    | ok args =>
      rw [hu] at h
      simp only [] at h
      cases hq : args.get? "query" with
      | none => rw [hq] at h; cases h
      | some qv =>
        rw [hq] at h
        cases qv with
        | str q =>
          simp only [] at h
          cases hd : Q.dec q with
          | error e => rw [hd] at h; cases h
          | ok req =>
            rw [hd] at h
            simp only [] at h
            cases ha : args.get? "authn_class_ref" with
            | none => rw [ha] at h; cases h
            | some acr =>
              cases ht : args.get? "iat" with
              | none => rw [ha, ht] at h; cases h
              | some t =>
                rw [ha, ht] at h
                simp only [Except.ok.injEq] at h
                subst h
                obtain ⟨o, ho, h1, h2⟩ := L.authentic _ _ hu
                exact ⟨hp, rfl, o, ho, args, h1, h2, ⟨q, hq, hd⟩, ha, ht⟩
        | _ => cases h
  · simp [hp] at h

theorem pageSettings_get? (defaults kwargs : Dict Json) (k : String) :
    (pageSettings defaults kwargs).get? k = if kwargs.has k then kwargs.get? k else defaults.get? k := by
  unfold pageSettings
  induction defaults generalizing kwargs with
  | nil => cases h : kwargs.has k <;> simp_all [Dict.has]
  | cons p rest ih =>
    obtain ⟨a, v⟩ := p
    simp only [List.foldl_cons]
    rw [ih]
    by_cases ha : kwargs.has a = true
    · simp only [ha, if_true]
      by_cases hk : kwargs.has k = true
      · simp [hk]
      · have : a ≠ k := by rintro rfl; exact hk ha
        simp [hk, Dict.get?_cons, this]
    · simp only [ha, if_false, Bool.false_eq_true]
      by_cases hak : a = k
      · subst hak; simp [Dict.has, Dict.get?_cons] at *; simp [ha]
      · simp [Dict.has, Dict.get?_set, hak, Dict.get?_cons]

theorem showUri_get? (args shown : Dict Json) (u l k : String) (h : u ≠ l) :
    (showUri args shown u l).get? k =
      match args.get? u with
      | some v => if k = u then some v else if k = l then some (pageLabel u) else shown.get? k
      | none => shown.get? k := by
  unfold showUri
  cases args.get? u with
  | none => rfl
  | some v =>
    simp only [Dict.get?_set]
    by_cases h1 : k = l
    · subst h1; simp [Ne.symm h]
    · by_cases h2 : k = u
      · subst h2; simp [Ne.symm h1]
      · simp [h1, h2, Ne.symm h1, Ne.symm h2]

/-- What is shown: a link of the request's client with its label, or what is configured, or what is shown by default. -/
theorem shown_get? {Tok : Type} {L : FormLib Tok} {issuer action : String} {now : Int} {kwargs args : Dict Json}
    {form : LoginForm Tok} (h : userPassCall L issuer now action kwargs args = .ok form) (k : String) :
    form.action = action ∧
    form.shown.get? k = (showUri args (showUri args (showUri args (pageSettings pageDefaults kwargs) "policy_uri" "policy_label")
      "tos_uri" "tos_label") "logo_uri" "logo_label").get? k := by
  unfold userPassCall at h
  simp only [] at h
  split at h
  · cases h
  · cases h; exact ⟨rfl, rfl⟩

/-- C112.  The page shows the client's links with the labels that go with them, and where the client has registered none,
and for everything else, what the provider's configuration says, or else the default; the form is sent to the configured
place. -/
theorem C112_shows {Tok : Type} (L : FormLib Tok) (Q : QueryLib) (issuer : String) (made : Int)
    (action acr : String) (kwargs req cinfo args : Dict Json) (wanted : Option Json)
    (hg : authnArgsGather Q req acr cinfo wanted = .ok args) (form : LoginForm Tok)
    (hf : userPassCall L issuer made action kwargs args = .ok form) :
    form.action = action ∧
    (∀ u l text, (u, l, text) ∈ [("policy_uri", "policy_label", "Service policy"), ("tos_uri", "tos_label", "Terms of Service"),
        ("logo_uri", "logo_label", "")] → ∀ link, given cinfo u = some link →
        form.shown.get? u = some link ∧ form.shown.get? l = some (.str text)) ∧
    (∀ k, (∀ u l, (u, l) ∈ [("policy_uri", "policy_label"), ("tos_uri", "tos_label"), ("logo_uri", "logo_label")] →
        (k = u ∨ k = l) → given cinfo u = none) →
      form.shown.get? k = if kwargs.has k then kwargs.get? k else pageDefaults.get? k) := by
  have hs := fun k => (shown_get? hf k).2
  have hgc : ∀ u, u ∈ ["policy_uri", "logo_uri", "tos_uri"] → args.get? u = given cinfo u := by
    intro u hu
    rw [gather_get? hg u]
    simp only [List.mem_cons, List.not_mem_nil, or_false] at hu
    rcases hu with rfl | rfl | rfl <;> cases hc : given cinfo _ <;> simp
  have hp := hgc "policy_uri" (by decide)
  have ht := hgc "tos_uri" (by decide)
  have hl := hgc "logo_uri" (by decide)
  refine ⟨(shown_get? hf "").1, ?_, ?_⟩
  · intro u l text hm link hlink
    simp only [List.mem_cons, List.not_mem_nil, or_false, Prod.mk.injEq] at hm
    rw [hs, hs]
    rcases hm with ⟨rfl, rfl, rfl⟩ | ⟨rfl, rfl, rfl⟩ | ⟨rfl, rfl, rfl⟩
    · rw [hlink] at hp
      constructor <;>
        simp only [showUri_get? _ _ _ _ _ (show "logo_uri" ≠ "logo_label" by decide),
          showUri_get? _ _ _ _ _ (show "tos_uri" ≠ "tos_label" by decide),
          showUri_get? _ _ _ _ _ (show "policy_uri" ≠ "policy_label" by decide), hp, ht, hl] <;>
        cases given cinfo "tos_uri" <;> cases given cinfo "logo_uri" <;> simp [pageLabel]
    · rw [hlink] at ht
      constructor <;>
        simp only [showUri_get? _ _ _ _ _ (show "logo_uri" ≠ "logo_label" by decide),
          showUri_get? _ _ _ _ _ (show "tos_uri" ≠ "tos_label" by decide),
          showUri_get? _ _ _ _ _ (show "policy_uri" ≠ "policy_label" by decide), hp, ht, hl] <;>
        cases given cinfo "policy_uri" <;> cases given cinfo "logo_uri" <;> simp [pageLabel]
    · rw [hlink] at hl
      constructor <;>
        simp only [showUri_get? _ _ _ _ _ (show "logo_uri" ≠ "logo_label" by decide),
          showUri_get? _ _ _ _ _ (show "tos_uri" ≠ "tos_label" by decide),
          showUri_get? _ _ _ _ _ (show "policy_uri" ≠ "policy_label" by decide), hp, ht, hl] <;>
        cases given cinfo "policy_uri" <;> cases given cinfo "tos_uri" <;> simp [pageLabel]
  · intro k hk
    have none_of : ∀ u l, (u, l) ∈ [("policy_uri", "policy_label"), ("tos_uri", "tos_label"), ("logo_uri", "logo_label")] →
        ∀ (shown : Dict Json), u ≠ l → args.get? u = given cinfo u → (showUri args shown u l).get? k = shown.get? k := by
      intro u l hul shown hne ha
      rw [showUri_get? _ _ _ _ _ hne, ha]
      by_cases h1 : k = u ∨ k = l
      · rw [hk u l hul h1]
      · simp only [not_or] at h1
        cases given cinfo u with
        | none => rfl
        | some v => simp [h1.1, h1.2]
    rw [hs, none_of "logo_uri" "logo_label" (by decide) _ (by decide) hl,
      none_of "tos_uri" "tos_label" (by decide) _ (by decide) ht,
      none_of "policy_uri" "policy_label" (by decide) _ (by decide) hp, pageSettings_get?]

/-- C112.  A page can be made for every request with a redirect URI, unless the configuration has an entry that is in the
way of the form's own fields. -/
theorem C112_made {Tok : Type} (L : FormLib Tok) (Q : QueryLib) (issuer : String) (made : Int) (action acr : String)
    (kwargs req cinfo : Dict Json) (wanted : Option Json) :
    (∃ args form, authnArgsGather Q req acr cinfo wanted = .ok args ∧
      userPassCall L issuer made action kwargs args = .ok form) ↔
    req.get? "redirect_uri" ≠ none ∧ kwargs.get? "action" = none ∧ kwargs.get? "token" = none := by
  have key : ∀ args k, k ∈ ["action", "token"] →
      (showUri args (showUri args (showUri args (pageSettings pageDefaults kwargs) "policy_uri" "policy_label")
        "tos_uri" "tos_label") "logo_uri" "logo_label").has k = (kwargs.get? k).isSome := by
    intro args k hk
    have h1 : ∀ u l (shown : Dict Json), u ≠ l → k ≠ u → k ≠ l → (showUri args shown u l).get? k = shown.get? k := by
      intro u l shown hne h1 h2
      rw [showUri_get? _ _ _ _ _ hne]
      cases args.get? u with
      | none => rfl
      | some v => simp [h1, h2]
    simp only [List.mem_cons, List.not_mem_nil, or_false] at hk
    unfold Dict.has
    rcases hk with rfl | rfl <;>
    · rw [h1 _ _ _ (by decide) (by decide) (by decide), h1 _ _ _ (by decide) (by decide) (by decide),
        h1 _ _ _ (by decide) (by decide) (by decide), pageSettings_get?]
      cases hc : kwargs.get? _ with
      | none => simp [Dict.has, hc, pageDefaults, Dict.get?_cons]
      | some v => simp [Dict.has, hc]
  constructor
  · rintro ⟨args, form, hg, hf⟩
    refine ⟨?_, ?_⟩
    · intro h; unfold authnArgsGather at hg; rw [h] at hg; cases hg
    · unfold userPassCall at hf
      simp only [key args "action" (by decide), key args "token" (by decide)] at hf
      cases h1 : kwargs.get? "action" <;> cases h2 : kwargs.get? "token" <;> simp [h1, h2] at hf ⊢
  · rintro ⟨h1, h2, h3⟩
    cases hr : req.get? "redirect_uri" with
    | none => exact absurd hr h1
    | some ru =>
      have : ∃ args, authnArgsGather Q req acr cinfo wanted = .ok args := by
        unfold authnArgsGather; rw [hr]; exact ⟨_, rfl⟩
      obtain ⟨args, hg⟩ := this
      have hf : ∃ form, userPassCall L issuer made action kwargs args = .ok form := by
        unfold userPassCall
        simp only [key args "action" (by decide), key args "token" (by decide), h2, h3]
        exact ⟨_, rfl⟩
      obtain ⟨form, hf⟩ := hf
      exact ⟨args, form, hg, hf⟩

/-! ## An example, and what does not hold -/

namespace Ex.Page

/-- Tokens that show who signed them. -/
def L : FormLib (String × Dict Json) where
  holders := ["https://op.example", "c1"]
  sign := Prod.mk
  unpack t := if t.1 ∈ ["https://op.example", "c1"] ∧ (t.2.get? "iss").all (fun i => decide (i = .str t.1)) = true then .ok t.2
    else .error (.other "BadSignature")
  unpack_sign o p ho hp := by rw [if_pos ⟨ho, by simp [hp]⟩]
  authentic t p h := by
    split at h
    · rename_i hc
      cases h
      refine ⟨t.1, hc.1, rfl, fun i hi => ?_⟩
      have := hc.2
      rw [hi] at this
      simpa using this
    · cases h

def req1 : Dict Json :=
  [("client_id", .str "c1"), ("redirect_uri", .str "https://rp.example/cb"), ("acr_values", .arr [.str "loa2"]), ("login_hint", .str "")]

def req2 : Dict Json := [("client_id", .str "c2"), ("redirect_uri", .str "https://bank.example/cb")]

def Q : QueryLib where
  enc d := if d = req1 then "r1" else if d = req2 then "r2" else ""
  dec s := if s = "r1" then .ok req1 else if s = "r2" then .ok req2 else .error .valueError

def cinfo : Dict Json := [("policy_uri", .str "https://rp.example/policy"), ("tos_uri", .str "")]

def db : Dict String := [("diana", "krall")]

/-- C112: a page is made for a request, with the client's policy and the configured header; the user logs in with it. -/
example :
    ∃ args form, authnArgsGather Q req1 "loa2" cinfo none = .ok args ∧
      userPassCall L "https://op.example" 1000 "/verify" [("page_header", .str "Welcome")] args = .ok form ∧
      "https://op.example" ∈ L.holders ∧ Q.dec (Q.enc req1) = .ok req1 ∧
      form.shown.get? "policy_uri" = some (.str "https://rp.example/policy") ∧
      form.shown.get? "tos_uri" = some (.str "") ∧ form.shown.get? "page_header" = some (.str "Welcome") ∧
      given req1 "acr_values" = some (.arr [.str "loa2"]) ∧ given req1 "login_hint" = none ∧
      (match verifyLogin L Q db ⟨"diana", "krall", form.token⟩ with
        | .ok x => decide (x = ⟨req1, "diana", .str "loa2", .num 1000⟩)
        | .error _ => false) = true :=
  ⟨_, _, rfl, rfl, by decide, by decide, by decide, by decide, by decide, by decide, by decide, by decide⟩

/-- C112 does not hold in full: the form's token is accepted whoever signed it.  Here a client has signed, with its own
key, a token for a request of another client and an authentication context of its choice; the user who submits it with
their password is logged in for that request, though the provider never made such a page. -/
theorem C112_signed_by_client_refuted :
    ∃ (f : Submitted (String × Dict Json)) (x : PageLogin),
      verifyLogin L Q db f = .ok x ∧ x.request = req2 ∧ x.acr = .str "loa4" ∧
      (∀ payload, f.token ≠ L.sign "https://op.example" payload) ∧ ∃ payload, f.token = L.sign "c1" payload :=
  ⟨⟨"diana", "krall", ("c1", [("query", .str "r2"), ("authn_class_ref", .str "loa4"), ("iat", .num 5), ("iss", .str "c1")])⟩,
    ⟨req2, "diana", .str "loa4", .num 5⟩, rfl, rfl, rfl,
    fun _ h => absurd (congrArg Prod.fst h) (show "c1" ≠ "https://op.example" by decide), _, rfl⟩

end Ex.Page

end OidcOp
