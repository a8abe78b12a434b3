/-
C33: contents and place of an authorization response.  C64: form_post.
-/
import Verif.Model.Response
import Verif.Lemmas.Micro

namespace OidcOp

theorem mintIfAsked_isSome {mk : Minter} {clock : Int} {c : TokenClass} {wanted : Bool} {s s' : GS} {o : Option Token}
    (h : mintIfAsked mk clock c wanted s = (.ok o, s')) : o.isSome = wanted := by
  unfold mintIfAsked at h
  split at h
  · rename_i hw
    split at h
    · cases h; simp [hw]
    · cases h
  · rename_i hw
    cases h; simpa using hw

theorem mintIdToken_isSome {mk : Minter} {clock : Int} {scope : Option (List String)} {wanted : Bool} {s s' : GS}
    {o : Option Token} (h : mintIdTokenAuthz mk clock scope wanted s = (.ok (some o), s')) : o.isSome = wanted := by
  unfold mintIdTokenAuthz at h
  split at h
  · rename_i hw
    split at h
    · cases h
    · split at h
      all_goals first
        | (cases h; done)
        | (cases h; simp [hw])
  · rename_i hw
    cases h; simpa using hw

/-- The outcomes of `createAuthnResponse`. -/
theorem createAuthnResponse_cases {mk : Minter} {clock : Int} {filter : List String → List String} {req : AuthzReq}
    {s s' : GS} {r : ARes} (h : createAuthnResponse mk clock filter req s = (.ok r, s')) :
    (req.responseType = ["none"] ∧ r = .resp { state := truthyStr req.state } false) ∨
    (req.responseType ≠ ["none"] ∧ r = .err "invalid_request" "Could not sign/encrypt id_token" (fragmentEnc req.responseType)) ∨
    (req.responseType ≠ ["none"] ∧ r = .err "invalid_request" "unsupported_response_type" (fragmentEnc req.responseType) ∧
      ¬ ∀ x ∈ req.responseType, x = "code" ∨ x = "token" ∨ x = "id_token") ∨
    (req.responseType ≠ ["none"] ∧ (∀ x ∈ req.responseType, x = "code" ∨ x = "token" ∨ x = "id_token") ∧
      ∃ x, r = .resp x (fragmentEnc req.responseType) ∧
      (x.code.isSome = true ↔ "code" ∈ req.responseType) ∧ (x.accessToken.isSome = true ↔ "token" ∈ req.responseType) ∧
      (x.idToken.isSome = true ↔ "id_token" ∈ req.responseType)) := by
  unfold createAuthnResponse at h
  simp only [] at h
  split at h
  · rename_i hn
    cases h
    exact .inl ⟨hn, rfl⟩
  · rename_i hn
    split at h
    · cases h
    · simp only [SE.bind_apply] at h
      cases h1 : mintIfAsked mk clock .authorizationCode (req.responseType.contains "code") s with
      | mk a1 s1 =>
        rw [h1] at h
        cases a1 with
        | error e => cases h
        | ok code =>
          simp only [] at h
          cases h2 : mintIfAsked mk clock .accessToken (req.responseType.contains "token") s1 with
          | mk a2 s2 =>
            rw [h2] at h
            cases a2 with
            | error e => cases h
            | ok at' =>
              simp only [] at h
              cases h3 : mintIdTokenAuthz mk clock req.scope (req.responseType.contains "id_token") s2 with
              | mk a3 s3 =>
                rw [h3] at h
                cases a3 with
                | error e => cases h
                | ok idt =>
                  cases idt with
                  | none => cases h; exact .inr (.inl ⟨hn, rfl⟩)
                  | some idt =>
                    simp only [] at h
                    split at h
                    · rename_i hall
                      cases h
                      refine .inr (.inr (.inr ⟨hn, ?_, _, rfl, ?_, ?_, ?_⟩))
                      · intro x hx
                        have := List.all_eq_true.1 hall x hx
                        simp only [Bool.or_eq_true, beq_iff_eq] at this
                        rcases this with (h | h) | h <;> simp [h]
                      · simp [mintIfAsked_isSome h1]
                      · simp [mintIfAsked_isSome h2]
                      · simp [mintIdToken_isSome h3]
                    · rename_i hall
                      cases h
                      refine .inr (.inr (.inl ⟨hn, rfl, fun hx => hall ?_⟩))
                      rw [List.all_eq_true]
                      intro x hm
                      rcases hx x hm with rfl | rfl | rfl <;> decide

/-- C33.  A successful authorization response, to a response type other than "none", contains a code, an access token and
an ID token exactly as far as they were asked for; nothing else was asked for. -/
theorem C33_response_contents (mk : Minter) (clock : Int) (filter : List String → List String) (req : AuthzReq)
    (s s' : GS) (x : AuthzResp) (f : Bool) (hn : req.responseType ≠ ["none"])
    (h : createAuthnResponse mk clock filter req s = (.ok (.resp x f), s')) :
    (x.code.isSome = true ↔ "code" ∈ req.responseType) ∧ (x.accessToken.isSome = true ↔ "token" ∈ req.responseType) ∧
    (x.idToken.isSome = true ↔ "id_token" ∈ req.responseType) ∧
    ∀ y ∈ req.responseType, y = "code" ∨ y = "token" ∨ y = "id_token" := by
  rcases createAuthnResponse_cases h with ⟨h1, -⟩ | ⟨-, h1⟩ | ⟨-, h1, -⟩ | ⟨-, h1, y, h2, h3, h4, h5⟩
  · exact absurd h1 hn
  · cases h1
  · cases h1
  · cases h2; exact ⟨h3, h4, h5, h1⟩

/-- C33.  A response type with anything else in it is answered with unsupported_response_type, unless minting fails. -/
theorem C33_unsupported (mk : Minter) (clock : Int) (filter : List String → List String) (req : AuthzReq)
    (s s' : GS) (r : ARes) (hn : req.responseType ≠ ["none"])
    (hx : ∃ y ∈ req.responseType, y ≠ "code" ∧ y ≠ "token" ∧ y ≠ "id_token")
    (h : createAuthnResponse mk clock filter req s = (.ok r, s')) :
    ∃ desc f, r = .err "invalid_request" desc f ∧
      (desc = "unsupported_response_type" ∨ desc = "Could not sign/encrypt id_token") := by
  obtain ⟨y, hy, h1, h2, h3⟩ := hx
  rcases createAuthnResponse_cases h with ⟨h4, -⟩ | ⟨-, h4⟩ | ⟨-, h4, -⟩ | ⟨-, h4, -⟩
  · exact absurd h4 hn
  · exact ⟨_, _, h4, .inr rfl⟩
  · exact ⟨_, _, h4, .inl rfl⟩
  · rcases h4 y hy with h | h | h
    · exact absurd h h1
    · exact absurd h h2
    · exact absurd h h3

/-- C33.  With the response type "none" the response contains no code and no token, and nothing is minted. -/
theorem C33_none (mk : Minter) (clock : Int) (filter : List String → List String) (req : AuthzReq) (s : GS)
    (hn : req.responseType = ["none"]) :
    createAuthnResponse mk clock filter req s = (.ok (.resp { state := truthyStr req.state } false), s) := by
  unfold createAuthnResponse
  simp only [hn, if_true]
  rfl

/-- C33.  Whatever the response mode is, an answer with an access token or an ID token is not put into the query part of
the redirect URI. -/
theorem C33_tokens_never_in_query (mk : Minter) (clock : Int) (filter : List String → List String) (req : AuthzReq)
    (s s' : GS) (r : ARes) (h : createAuthnResponse mk clock filter req s = (.ok r, s')) (mode : Option String)
    (x : AuthzResp) (p : Placement) (ha : answerOf mode r = .resp x p)
    (ht : x.accessToken.isSome = true ∨ x.idToken.isSome = true) : p ≠ .query := by
  have hplace : ∀ {f : Bool} {p' : Placement}, responsePlace mode f = .ok p' → f = true → p' ≠ .query := by
    intro f p' hp hf hq
    subst hf hq
    unfold responsePlace at hp
    split at hp
    · cases hp
    · repeat' split at hp
      all_goals first
        | (cases hp; done)
        | (rename_i h; simp at h)
  rcases createAuthnResponse_cases h with ⟨-, h1⟩ | ⟨-, h1⟩ | ⟨-, h1, -⟩ | ⟨-, -, y, h2, h3, h4, h5⟩
  · subst h1
    simp only [answerOf] at ha
    split at ha
    · cases ha; simp at ht
    · cases ha
  · subst h1
    simp only [answerOf] at ha
    split at ha <;> cases ha
  · subst h1
    simp only [answerOf] at ha
    split at ha <;> cases ha
  · subst h2
    simp only [answerOf] at ha
    split at ha
    · rename_i p' hp
      cases ha
      refine hplace hp ?_
      unfold fragmentEnc
      rw [h4, h5] at ht
      simp only [Bool.not_eq_true', Bool.and_eq_false_iff]
      right
      rw [List.all_eq_false]
      rcases ht with ht | ht
      · exact ⟨_, ht, by decide⟩
      · exact ⟨_, ht, by decide⟩
    · cases ha

namespace Ex

/-- An environment in which the handlers always succeed. -/
def plainMinter : Minter := fun n _ => .ok ("t" ++ n.repr)

def hybrid : AuthzReq := { responseType := ["code", "id_token", "token"], scope := some ["openid"] }

/-- A hybrid response goes to the fragment; asked for in the query it is refused; a form post is possible. -/
example : ∃ x s', createAuthnResponse plainMinter 10 id hybrid ⟨{}, 0⟩ = (.ok (.resp x true), s') ∧
    x.code = some "t0" ∧ x.accessToken = some "t1" ∧ x.idToken = some "t2" ∧
    answerOf none (.resp x true) = .resp x .fragment ∧
    answerOf (some "query") (.resp x true) = .err "invalid_request" "wrong response_mode" .fragment ∧
    answerOf (some "form_post") (.resp x true) = .resp x .body :=
  ⟨{ scope := some ["openid"], code := some "t0", accessToken := some "t1", idToken := some "t2" },
   (createAuthnResponse plainMinter 10 id hybrid ⟨{}, 0⟩).2, by decide +kernel, rfl, rfl, rfl, by decide +kernel,
   by decide +kernel, by decide +kernel⟩

end Ex
end OidcOp
