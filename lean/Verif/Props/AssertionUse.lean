/-
C50: assertions do not get in the way of each other.
-/
import Verif.Props.EndpointAuth
import Verif.Props.ClientAuthnExamples

namespace OidcOp
open Spec

namespace Spec

/-- The request carries a verified JWT of the issuer with the identifier, as an assertion or as a request object. -/
def CarriesJwt (x : AuthCall) (iss jti : String) : Prop :=
  ∃ t A, (x.req.clientAssertion = some t ∨ x.req.request = some t) ∧ x.C.unpack t = some A ∧ A.iss = some iss ∧ A.jti = some jti

end Spec

theorem truthyStr_eq {o : Option String} {s : String} (h : truthyStr o = some s) : o = some s := by
  cases o with
  | none => cases h
  | some x =>
    unfold truthyStr at h
    simp only [] at h
    split at h
    · cases h
    · exact h

theorem jtiCheck_used {method : String} {A : Assertion} {seen : List String} {k : String} (h : k ∈ (jtiCheck method A seen).2) :
    k ∈ seen ∨ ∃ iss jti, A.iss = some iss ∧ A.jti = some jti ∧ k = jtiKey iss jti := by
  unfold jtiCheck at h
  split at h
  · exact .inl h
  · rename_i iss hi
    split at h
    · exact .inl h
    · rename_i jti hj
      split at h
      · exact .inl h
      · rcases List.mem_cons.1 h with h | h
        · exact .inr ⟨iss, jti, hi, truthyStr_eq hj, h⟩
        · exact .inl h

theorem verify_used {x : AuthCall} {seen : List String} {m : CAuthn} {k : String} (h : k ∈ (m.verify x.C x.req x.header seen).2) :
    k ∈ seen ∨ ∃ iss jti, CarriesJwt x iss jti ∧ k = jtiKey iss jti := by
  have hj : ∀ {method pk}, k ∈ (jwsVerify x.C method pk x.req.clientAssertion seen).2 →
      k ∈ seen ∨ ∃ iss jti, CarriesJwt x iss jti ∧ k = jtiKey iss jti := by
    intro method pk h
    unfold jwsVerify at h
    split at h
    · exact .inl h
    · rename_i A hA
      split at h
      · rcases jtiCheck_used h with h | ⟨iss, jti, h1, h2, h3⟩
        · exact .inl h
        · cases ht : x.req.clientAssertion with
          | none => rw [ht] at hA; cases hA
          | some t =>
            rw [ht] at hA
            exact .inr ⟨iss, jti, ⟨t, A, .inl ht, hA, h1, h2⟩, h3⟩
      · exact .inl h
  cases m with
  | basic => simp only [CAuthn.verify] at h; split at h <;> exact .inl h
  | post => simp only [CAuthn.verify] at h; split at h <;> exact .inl h
  | bearerHeader => simp only [CAuthn.verify] at h; split at h <;> exact .inl h
  | bearerBody => simp only [CAuthn.verify] at h; split at h <;> exact .inl h
  | secretJwt => exact hj h
  | privateKeyJwt => exact hj h
  | requestParam =>
    simp only [CAuthn.verify] at h
    split at h
    · exact .inl h
    · rename_i A hA
      rcases jtiCheck_used h with h | ⟨iss, jti, h1, h2, h3⟩
      · exact .inl h
      · cases ht : x.req.request with
        | none => rw [ht] at hA; cases hA
        | some t =>
          rw [ht] at hA
          exact .inr ⟨iss, jti, ⟨t, A, .inr ht, hA, h1, h2⟩, h3⟩
  | dpop => exact .inl h

theorem try_used {x : AuthCall} {ms : List (Option CAuthn)} {seen : List String} {k : String}
    (h : k ∈ (tryMethods x.C x.req x.header ms seen).2) : k ∈ seen ∨ ∃ iss jti, CarriesJwt x iss jti ∧ k = jtiKey iss jti := by
  induction ms generalizing seen with
  | nil => exact .inl h
  | cons o ms ih =>
    cases o with
    | none => exact ih h
    | some m =>
      simp only [tryMethods] at h
      split at h
      · split at h
        · rename_i ai s' hv
          exact verify_used (m := m) (by rw [hv]; exact h)
        · rename_i s' hv
          rcases ih h with h | h
          · exact verify_used (m := m) (by rw [hv]; exact h)
          · exact .inr h
      · exact ih h

theorem client_used {x : AuthCall} {seen : List String} {k : String}
    (h : k ∈ (verifyClient x.C x.methods x.getId x.req x.header seen).2) :
    k ∈ seen ∨ ∃ iss jti, CarriesJwt x iss jti ∧ k = jtiKey iss jti := by
  apply try_used (ms := x.methods)
  unfold verifyClient at h
  split at h
  · rename_i ht; rw [ht]; exact h
  · rename_i ht
    rw [ht]
    split at h <;> exact h

/-- The last of a series of requests, and what has been used before it. -/
theorem history_last (calls : List AuthCall) : ∀ (seen : List String) (x : AuthCall), ∃ seen',
    (authHistory seen (calls ++ [x])).getLast? = some (verifyClient x.C x.methods x.getId x.req x.header seen').1 ∧
    ∀ k ∈ seen', k ∈ seen ∨ ∃ y ∈ calls, ∃ iss jti, CarriesJwt y iss jti ∧ k = jtiKey iss jti := by
  induction calls with
  | nil => intro seen x; exact ⟨seen, rfl, fun k h => .inl h⟩
  | cons y ys ih =>
    intro seen x
    obtain ⟨seen', h1, h2⟩ := ih (verifyClient y.C y.methods y.getId y.req y.header seen).2 x
    refine ⟨seen', ?_, fun k hk => ?_⟩
    · simp only [List.cons_append, authHistory]
      rw [List.getLast?_cons, h1]
      rfl
    · rcases h2 k hk with h | ⟨z, hz, h⟩
      · rcases client_used h with h | h
        · exact .inl h
        · exact .inr ⟨y, List.mem_cons_self, h⟩
      · exact .inr ⟨z, List.mem_cons_of_mem _ hz, h⟩

theorem jtiKey_inj {a b j k : String} (ha : ':' ∉ a.toList) (hb : ':' ∉ b.toList) (h : jtiKey a j = jtiKey b k) : a = b ∧ j = k := by
  unfold jtiKey at h
  have h := congrArg String.toList h
  simp only [String.toList_append, List.append_assoc] at h
  have e : (":" : String).toList = [':'] := by decide
  rw [e, List.singleton_append, List.singleton_append] at h
  have key : ∀ (l m r s : Str), ':' ∉ l → ':' ∉ m → l ++ ':' :: r = m ++ ':' :: s → l = m ∧ r = s := by
    intro l
    induction l with
    | nil =>
      intro m r s _ hm h
      cases m with
      | nil => simpa using h
      | cons c m =>
        simp only [List.nil_append, List.cons_append, List.cons.injEq] at h
        exact absurd (by rw [h.1]; exact List.mem_cons_self) hm
    | cons c l ih =>
      intro m r s hl hm h
      cases m with
      | nil =>
        simp only [List.nil_append, List.cons_append, List.cons.injEq] at h
        exact absurd (by rw [← h.1]; exact List.mem_cons_self) hl
      | cons d m =>
        simp only [List.cons_append, List.cons.injEq] at h
        obtain ⟨e1, e2⟩ := ih m r s (fun x => hl (List.mem_cons_of_mem _ x)) (fun x => hm (List.mem_cons_of_mem _ x)) h.2
        exact ⟨by rw [h.1, e1], e2⟩
  obtain ⟨e1, e2⟩ := key _ _ _ _ ha hb h
  exact ⟨String.toList_inj.1 e1, String.toList_inj.1 e2⟩

/-- C50, the other direction.  After every series of requests: the credentials of a client are accepted at an endpoint that has their
method, as long as no earlier request carried a JWT of this client with the same identifier, whatever identifiers other clients have
used and whatever other identifiers this client has used.  (Issuers are taken to have no colon: the record of what was used joins
issuer and identifier by one.) -/
theorem C50_unused_accepted (before : List AuthCall) (x : AuthCall) (client n : String) (hg : x.getId = none)
    (hmem : ∀ m : CAuthn, m.tag = n → some m ∈ x.methods) (hne : client ≠ "") (ho : OnlyFor x.req x.header n)
    (hsh : ShownBy x.C x.req x.header client n) (hf : InForce x.C.cdb x.C.now client) (hc : ':' ∉ client.toList)
    (hcs : ∀ y ∈ before, ∀ iss jti, CarriesJwt y iss jti → ':' ∉ iss.toList)
    (hun : ∀ j, CarriesJwt x client j → ∀ y ∈ before, ¬ CarriesJwt y client j) :
    ∃ ai, (authHistory [] (before ++ [x])).getLast? = some (.ok (some ai)) ∧ ai.clientId = some client := by
  obtain ⟨seen, h1, h2⟩ := history_last before [] x
  obtain ⟨ai, s', h3, h4⟩ := passes_own (seen := seen) hmem hne ho hsh hf (by
    intro t A j ht hA hj hm
    rcases h2 _ hm with h | ⟨y, hy, iss, jti, hcar, he⟩
    · cases h
    · obtain ⟨e1, e2⟩ := jtiKey_inj hc (hcs y hy iss jti hcar) he
      subst e1 e2
      -- the assertion is this client's
      have hiss : A.iss = some client := by
        have hinv := shownBy_inv hsh
        cases ho with
        | basic _ _ _ a _ => rw [a] at ht; cases ht
        | post _ _ a _ => rw [a] at ht; cases ht
        | assertion _ hn =>
          rcases hn with e | e
          · obtain ⟨t', A', k1, k2⟩ := hinv.2.2.2 e
            rw [ht] at k1; cases k1
            have he := k2.1
            rw [hA] at he; cases he
            exact k2.2.1
          · obtain ⟨t', A', k1, k2⟩ := hinv.2.2.1 e
            rw [ht] at k1; cases k1
            have he := k2.1
            rw [hA] at he; cases he
            exact k2.2.1
      exact hun j ⟨t, A, .inl ht, hA, hiss, hj⟩ y hy hcar)
  refine ⟨ai, ?_, h4⟩
  rw [h1, hg, h3]

namespace Ex

/-- The hypotheses are met: after an assertion of c1, one of another client is accepted. -/
example : ∃ ai, (authHistory [] ([⟨actx, [some .secretJwt], none, { clientAssertion := some "jwt1" }, none⟩] ++
      [⟨actx, [some .privateKeyJwt], none, { clientAssertion := some "jwt3" }, none⟩])).getLast? = some (.ok (some ai)) ∧
    ai.clientId = some "a" := by
  refine C50_unused_accepted _ _ "a" "private_key_jwt" rfl ?_ (by decide)
    (.assertion _ (.inl rfl) rfl rfl rfl rfl)
    (.privateKeyJwt "jwt3" { iss := some "a", aud := some ["https://op/token"], jti := some "b:c" } rfl ?_)
    ⟨{}, by decide +kernel, .inl rfl⟩ (by decide) ?_ ?_
  · intro m hm
    cases m <;> first | exact List.mem_singleton.2 rfl | exact absurd hm (by decide)
  · exact ⟨by decide +kernel, rfl, ⟨_, _, rfl, List.mem_singleton.2 rfl, by decide⟩, fun _ => rfl, fun h => by cases h⟩
  · intro y hy iss jti hc
    rw [List.mem_singleton] at hy
    subst hy
    obtain ⟨t, A, h1 | h1, h2, h3, -⟩ := hc
    · cases h1
      cases h2
      cases h3
      decide
    · cases h1
  · intro j _ y hy hc
    rw [List.mem_singleton] at hy
    subst hy
    obtain ⟨t, A, h1 | h1, h2, h3, -⟩ := hc
    · cases h1
      cases h2
      exact absurd h3 (show some "c1" ≠ some "a" by decide)
    · cases h1

end Ex

end OidcOp
