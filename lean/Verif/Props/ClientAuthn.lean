/-
C49, C50, C51: client authentication.
-/
import Verif.Spec.ClientAuthn
import Verif.Lemmas.Split
import Verif.Lemmas.ExEnv

namespace OidcOp
open Spec

theorem afterPrefix_spec {p : String} {header : Option String} {t : Str} (h : afterPrefix p header = some t) :
    header = some (String.ofList (p.toList ++ t)) := by
  unfold afterPrefix at h
  cases header with
  | none => cases h
  | some x =>
    simp only at h
    split at h
    · rename_i hp
      cases h
      rw [List.isPrefixOf_iff_prefix] at hp
      obtain ⟨r, hr⟩ := hp
      congr 1
      rw [← hr, show p.length = p.toList.length from rfl, List.drop_left, hr]
      simp
    · cases h

theorem secretMatches_iff {cdb : Dict CEntry} {i s : String} : secretMatches cdb i s = true ↔ HasSecret cdb i s := by
  unfold secretMatches HasSecret
  cases cdb.get? i with
  | none => simp
  | some e => cases e <;> simp

theorem basicAuthn_spec {C : AuthnCtx} {tok : Str} {i s : String} (h : basicAuthn C tok = some (i, s)) :
    ∃ i' s', C.decode tok = some (i' ++ ':' :: s') ∧ ':' ∉ i' ∧ ':' ∉ s' ∧ C.unquote i' = i ∧ C.unquote s' = s := by
  unfold basicAuthn at h
  split at h
  · cases h
  · rename_i text ht
    split at h
    · rename_i a b hab
      simp only [Option.some.injEq, Prod.mk.injEq] at h
      have h1 := pyJoin_pySplit1 ':' text
      have h2 := pySplit1_free ':' text
      rw [hab] at h1 h2
      exact ⟨a, b, by rw [ht, ← h1]; simp [pyJoin], h2 a (by simp), h2 b (by simp), h.1, h.2⟩
    · cases h

theorem jtiCheck_spec {method : String} {A : Assertion} {seen seen' : List String} {ai : AuthInfo}
    (h : jtiCheck method A seen = (some ai, seen')) :
    ∃ iss, A.iss = some iss ∧ ai = { clientId := some iss, method := method, assertion := some A } ∧
      (∀ jti, A.jti = some jti → jti ≠ "" → jtiKey iss jti ∉ seen ∧ jtiKey iss jti ∈ seen') := by
  unfold jtiCheck at h
  split at h
  · cases h
  · rename_i iss hi
    split at h
    · rename_i hj
      simp only [Prod.mk.injEq, Option.some.injEq] at h
      refine ⟨iss, hi, h.1.symm, fun jti e1 e2 => ?_⟩
      rw [e1] at hj
      simp [truthyStr, e2] at hj
    · rename_i jti hj
      split at h
      · cases h
      · rename_i hn
        simp only [Prod.mk.injEq, Option.some.injEq] at h
        refine ⟨iss, hi, h.1.symm, fun jti' e1 e2 => ?_⟩
        rw [e1] at hj
        simp only [truthyStr, e2, if_false, Option.some.injEq] at hj
        subst hj
        exact ⟨hn, by rw [← h.2]; simp⟩

theorem jtiCheck_seen {method : String} {A : Assertion} {seen : List String} {k : String} (h : k ∈ seen) :
    k ∈ (jtiCheck method A seen).2 := by
  unfold jtiCheck
  split
  · exact h
  · split
    · exact h
    · split
      · exact h
      · exact List.mem_cons_of_mem _ h

theorem jwsVerify_spec {C : AuthnCtx} {method : String} {pk : Bool} {text : Option String} {seen seen' : List String}
    {ai : AuthInfo} (h : jwsVerify C method pk text seen = (some ai, seen')) :
    ∃ t A, text = some t ∧ C.unpack t = some A ∧ keyCheck C pk A = true ∧ audCheck C A = true ∧
      jtiCheck method A seen = (some ai, seen') := by
  unfold jwsVerify at h
  split at h
  · cases h
  · rename_i A hA
    split at h
    · rename_i hc
      simp only [Bool.and_eq_true] at hc
      cases text with
      | none => cases hA
      | some t => exact ⟨t, A, rfl, hA, hc.1, hc.2, h⟩
    · cases h

theorem good_assertion {C : AuthnCtx} {pk : Bool} {t : String} {A : Assertion} {iss : String} (h1 : C.unpack t = some A)
    (h2 : keyCheck C pk A = true) (h3 : audCheck C A = true) (h4 : A.iss = some iss) : GoodAssertion C pk t A iss := by
  refine ⟨h1, h4, ?_, ?_, ?_⟩
  · unfold audCheck at h3
    cases ha : A.aud with
    | none => rw [ha] at h3; cases h3
    | some l =>
      rw [ha] at h3
      simp only [List.any_eq_true] at h3
      obtain ⟨a, m1, m2⟩ := h3
      exact ⟨l, a, rfl, m1, by simpa using m2⟩
  · intro hp
    unfold keyCheck at h2
    subst hp
    cases hh : A.hs with
    | false => rfl
    | true => simp [hh] at h2
  · intro hp
    subst hp
    unfold keyCheck at h2
    cases hh : A.hs with
    | false => simp [hh] at h2
    | true =>
      simp only [hh, if_true, h4, Option.bind_some, Bool.false_eq_true, if_false] at h2
      split at h2
      · rename_i c hc
        refine ⟨rfl, ⟨c, hc⟩, ?_⟩
        rintro s ⟨c', hc', hs⟩ hne
        rw [hc] at hc'
        cases hc'
        rw [hs] at h2
        simpa [truthyStr, hne] using h2
      · cases h2

/-- What a method that succeeds has found. -/
inductive Found (C : AuthnCtx) (req : AuthnReq) (header : Option String) : CAuthn → AuthInfo → Prop
  | basic {c s} : BasicCredentials C header c s → HasSecret C.cdb c s →
      Found C req header .basic { clientId := some c, method := "client_secret_basic" }
  | post {c s} : PostCredentials req c s → HasSecret C.cdb c s →
      Found C req header .post { clientId := some c, method := "client_secret_post" }
  | bearerHeader {t} : BearerToken header t → Found C req header .bearerHeader { token := some t, method := "bearer_header" }
  | bearerBody {t} : req.accessToken = some t →
      Found C req header .bearerBody { token := some t, clientId := truthyStr req.clientId, method := "bearer_body" }
  | secretJwt {t A c} : req.clientAssertion = some t → GoodAssertion C false t A c →
      Found C req header .secretJwt { clientId := some c, method := "client_secret_jwt", assertion := some A }
  | privateKeyJwt {t A c} : req.clientAssertion = some t → GoodAssertion C true t A c →
      Found C req header .privateKeyJwt { clientId := some c, method := "private_key_jwt", assertion := some A }
  | requestParam {t A c} : req.request = some t → C.unpack t = some A → A.iss = some c →
      Found C req header .requestParam { clientId := some c, method := "request_param", assertion := some A }

theorem verify_found {C : AuthnCtx} {req : AuthnReq} {header : Option String} {seen seen' : List String} {m : CAuthn}
    {ai : AuthInfo} (h : m.verify C req header seen = (some ai, seen')) : Found C req header m ai := by
  cases m with
  | basic =>
    simp only [CAuthn.verify] at h
    split at h
    · cases h
    · rename_i i s hb
      simp only [Prod.mk.injEq] at h
      split at h
      · rename_i hm
        obtain ⟨h1, _⟩ := h
        cases h1
        cases ha : afterPrefix "Basic " header with
        | none => rw [ha] at hb; cases hb
        | some tok =>
          rw [ha] at hb
          obtain ⟨i', s', b1, b2, b3, b4, b5⟩ := basicAuthn_spec hb
          exact .basic ⟨tok, i', s', afterPrefix_spec ha, b1, b2, b3, b4, b5⟩ (secretMatches_iff.1 hm)
      · cases h.1
  | post =>
    simp only [CAuthn.verify] at h
    split at h
    · rename_i i s h1 h2
      simp only [Prod.mk.injEq] at h
      split at h
      · rename_i hm
        obtain ⟨h3, _⟩ := h
        cases h3
        exact .post ⟨h1, h2⟩ (secretMatches_iff.1 hm)
      · cases h.1
    · cases h
  | bearerHeader =>
    simp only [CAuthn.verify] at h
    split at h
    · cases h
    · rename_i t ht
      cases h
      refine .bearerHeader ?_
      show header = _
      rw [afterPrefix_spec ht, String.ofList_append]
      rfl
  | bearerBody =>
    simp only [CAuthn.verify] at h
    split at h
    · cases h
    · rename_i t ht
      cases h
      exact .bearerBody ht
  | secretJwt =>
    obtain ⟨t, A, h1, h2, h3, h4, h5⟩ := jwsVerify_spec h
    obtain ⟨iss, h6, rfl, _⟩ := jtiCheck_spec h5
    exact .secretJwt h1 (good_assertion h2 h3 h4 h6)
  | privateKeyJwt =>
    obtain ⟨t, A, h1, h2, h3, h4, h5⟩ := jwsVerify_spec h
    obtain ⟨iss, h6, rfl, _⟩ := jtiCheck_spec h5
    exact .privateKeyJwt h1 (good_assertion h2 h3 h4 h6)
  | requestParam =>
    simp only [CAuthn.verify] at h
    split at h
    · cases h
    · rename_i A hA
      obtain ⟨iss, h6, rfl, _⟩ := jtiCheck_spec h
      cases hr : req.request with
      | none => rw [hr] at hA; cases hA
      | some t => rw [hr] at hA; exact .requestParam hr hA h6
  | dpop => cases h

theorem tryMethods_spec {C : AuthnCtx} {req : AuthnReq} {header : Option String} {ms : List (Option CAuthn)}
    {seen seen' : List String} {ai : AuthInfo} (h : tryMethods C req header ms seen = (some ai, seen')) :
    ∃ m, some m ∈ ms ∧ Found C req header m ai := by
  induction ms generalizing seen with
  | nil => cases h
  | cons o ms ih =>
    cases o with
    | none => obtain ⟨m, h1, h2⟩ := ih h; exact ⟨m, List.mem_cons_of_mem _ h1, h2⟩
    | some m =>
      simp only [tryMethods] at h
      split at h
      · split at h
        · rename_i ai' s' hv
          simp only [Prod.mk.injEq, Option.some.injEq] at h
          obtain ⟨rfl, rfl⟩ := h
          exact ⟨m, List.mem_cons_self .., verify_found hv⟩
        · obtain ⟨m', h1, h2⟩ := ih h; exact ⟨m', List.mem_cons_of_mem _ h1, h2⟩
      · obtain ⟨m', h1, h2⟩ := ih h; exact ⟨m', List.mem_cons_of_mem _ h1, h2⟩

theorem finish_spec {C : AuthnCtx} {getId : Option (String → AuthnReq → Except Exc String)} {req : AuthnReq}
    {ai r : AuthInfo} (h : finishClient C getId req ai = .ok r) :
    (∃ c, ai.clientId = some c ∧ c ≠ "" ∧ InForce C.cdb C.now c ∧ r = ai) ∨
    ((ai.clientId = none ∨ ai.clientId = some "") ∧
      ((getId = none ∧ r = ai) ∨
       ∃ f t c, getId = some f ∧ ai.token = some t ∧ t ≠ "" ∧ f t req = .ok c ∧ r = { ai with clientId := some c })) := by
  unfold finishClient at h
  split at h
  · rename_i c hc
    left
    have hcc : ai.clientId = some c ∧ c ≠ "" := by
      unfold truthyStr at hc
      split at hc
      · split at hc
        · cases hc
        · rename_i v hv hn; cases hc; exact ⟨hv, hn⟩
      · cases hc
    split at h
    · cases h
    · rename_i hk
      cases h
      refine ⟨c, hcc.1, hcc.2, ?_, rfl⟩
      unfold checkClient at hk
      split at hk
      · cases hk
      · split at hk <;> cases hk
      · rename_i info hi
        split at hk
        · rename_i hv
          refine ⟨info, hi, ?_⟩
          unfold validClientInfo at hv
          simp only [Bool.not_eq_true', Bool.and_eq_false_iff, bne_eq_false_iff_eq, decide_eq_false_iff_not] at hv
          rcases hv with hv | hv
          · exact .inl hv
          · exact .inr (by omega)
        · cases hk
  · rename_i hc
    right
    have hcc : ai.clientId = none ∨ ai.clientId = some "" := by
      unfold truthyStr at hc
      split at hc
      · split at hc
        · rename_i v hv hn; right; rw [hv, hn]
        · cases hc
      · rename_i hv; exact .inl hv
    refine ⟨hcc, ?_⟩
    unfold clientOfToken at h
    split at h
    · cases h; exact .inl ⟨rfl, rfl⟩
    · rename_i f
      split at h
      · cases h
      · rename_i t ht
        have htt : ai.token = some t ∧ t ≠ "" := by
          unfold truthyStr at ht
          split at ht
          · split at ht
            · cases ht
            · rename_i v hv hn; cases ht; exact ⟨hv, hn⟩
          · cases ht
        split at h
        · rename_i c hf
          cases h
          exact .inr ⟨f, t, c, rfl, htt.1, htt.2, hf, rfl⟩
        · split at h <;> cases h

/-- The two ways to an answer. -/
theorem verifyClient_spec {C : AuthnCtx} {ms : List (Option CAuthn)} {getId : Option (String → AuthnReq → Except Exc String)}
    {req : AuthnReq} {header : Option String} {seen seen' : List String} {r : AuthInfo}
    (h : verifyClient C ms getId req header seen = (.ok (some r), seen')) :
    ∃ ai, ((∃ m, some m ∈ ms ∧ Found C req header m ai) ∨
        (none ∈ ms ∧ ai = { clientId := req.clientId, method := "none" })) ∧
      finishClient C getId req ai = .ok r := by
  have hmap : ∀ {x : Except Exc AuthInfo}, x.map some = .ok (some r) → x = .ok r := by
    intro x hx
    cases x with
    | error e => cases hx
    | ok y => simp only [Except.map, Except.ok.injEq, Option.some.injEq] at hx; rw [hx]
  unfold verifyClient at h
  split at h
  · rename_i ai s' ht
    simp only [Prod.mk.injEq] at h
    exact ⟨ai, .inl (tryMethods_spec ht), hmap h.1⟩
  · split at h
    · rename_i hn
      simp only [Prod.mk.injEq] at h
      exact ⟨_, .inr ⟨hn, rfl⟩, hmap h.1⟩
    · cases h

theorem no_empty_secret {cdb : Dict CEntry} (h : cdb.get? "" = none) {c s : String} (hs : HasSecret cdb c s) : c ≠ "" := by
  rintro rfl
  obtain ⟨i, hi, _⟩ := hs
  rw [h] at hi; cases hi

/-- C49 (partial), soundness of the secrets: for every request, client database and list of methods, a client that is returned
as authenticated with a secret was named together with its own secret, in the header or in the body, it is registered and its
secret has not expired. -/
theorem C49_secret_partial (C : AuthnCtx) (ms : List (Option CAuthn))
    (getId : Option (String → AuthnReq → Except Exc String)) (req : AuthnReq) (header : Option String)
    (seen seen' : List String) (r : AuthInfo) (hempty : C.cdb.get? "" = none)
    (h : verifyClient C ms getId req header seen = (.ok (some r), seen')) :
    (r.method = "client_secret_basic" → ∃ c s, r.clientId = some c ∧ BasicCredentials C header c s ∧ HasSecret C.cdb c s ∧
      InForce C.cdb C.now c) ∧
    (r.method = "client_secret_post" → ∃ c s, r.clientId = some c ∧ PostCredentials req c s ∧ HasSecret C.cdb c s ∧
      InForce C.cdb C.now c) := by
  obtain ⟨ai, hf, hfin⟩ := verifyClient_spec h
  have hmeth : r.method = ai.method := by
    rcases finish_spec hfin with ⟨_, _, _, _, rfl⟩ | ⟨_, ⟨_, rfl⟩ | ⟨_, _, _, _, _, _, _, rfl⟩⟩ <;> rfl
  have key : ∀ c, ai.clientId = some c → c ≠ "" → r.clientId = some c ∧ InForce C.cdb C.now c := by
    intro c hc hne
    rcases finish_spec hfin with ⟨c', h1, _, h3, rfl⟩ | ⟨h1, _⟩
    · rw [h1] at hc; cases hc; exact ⟨h1, h3⟩
    · rw [hc] at h1
      rcases h1 with h1 | h1
      · cases h1
      · cases h1; exact absurd rfl hne
  rw [hmeth]
  rcases hf with ⟨m, _, hm⟩ | ⟨_, rfl⟩
  · cases hm with
    | basic h1 h2 =>
      refine ⟨fun _ => ?_, fun h => by simp at h⟩
      obtain ⟨k1, k2⟩ := key _ rfl (no_empty_secret hempty h2)
      exact ⟨_, _, k1, h1, h2, k2⟩
    | post h1 h2 =>
      refine ⟨fun h => by simp at h, fun _ => ?_⟩
      obtain ⟨k1, k2⟩ := key _ rfl (no_empty_secret hempty h2)
      exact ⟨_, _, k1, h1, h2, k2⟩
    | bearerHeader | bearerBody | secretJwt | privateKeyJwt | requestParam =>
      exact ⟨fun h => by simp at h, fun h => by simp at h⟩
  · exact ⟨fun h => by simp at h, fun h => by simp at h⟩

/-- C49 (partial), no wrong secrets: if the endpoint allows the two methods with secrets and no other, then whatever client is
returned has presented its own secret, and is in force.  (Missing: the full claim is for every endpoint that does not allow
unauthenticated access; it is false, see the refutation.) -/
theorem C49_only_secrets_partial (C : AuthnCtx) (ms : List (Option CAuthn))
    (getId : Option (String → AuthnReq → Except Exc String)) (req : AuthnReq) (header : Option String)
    (seen seen' : List String) (r : AuthInfo) (hempty : C.cdb.get? "" = none)
    (hms : ∀ m ∈ ms, m = some .basic ∨ m = some .post)
    (h : verifyClient C ms getId req header seen = (.ok (some r), seen')) :
    ∃ c s, r.clientId = some c ∧ (BasicCredentials C header c s ∨ PostCredentials req c s) ∧ HasSecret C.cdb c s ∧
      InForce C.cdb C.now c := by
  have hp := C49_secret_partial C ms getId req header seen seen' r hempty h
  obtain ⟨ai, hf, hfin⟩ := verifyClient_spec h
  have hmeth : r.method = ai.method := by
    rcases finish_spec hfin with ⟨_, _, _, _, rfl⟩ | ⟨_, ⟨_, rfl⟩ | ⟨_, _, _, _, _, _, _, rfl⟩⟩ <;> rfl
  rcases hf with ⟨m, hmem, hm⟩ | ⟨hn, _⟩
  · rcases hms _ hmem with e | e
    · cases e
      cases hm with
      | basic h1 h2 =>
        obtain ⟨c, s, k1, k2, k3, k4⟩ := hp.1 (by rw [hmeth])
        exact ⟨c, s, k1, .inl k2, k3, k4⟩
    · cases e
      cases hm with
      | post h1 h2 =>
        obtain ⟨c, s, k1, k2, k3, k4⟩ := hp.2 (by rw [hmeth])
        exact ⟨c, s, k1, .inr k2, k3, k4⟩
  · rcases hms _ hn with e | e <;> cases e

/-- C49 (partial), a right secret is enough: an endpoint that allows the two methods with secrets returns the client whose id and
secret are in the body, if there is no other authorization. -/
theorem C49_right_secret_partial (C : AuthnCtx) (getId : Option (String → AuthnReq → Except Exc String)) (req : AuthnReq)
    (seen : List String) (c s : String) (hreq : PostCredentials req c s) (hs : HasSecret C.cdb c s)
    (hv : InForce C.cdb C.now c) (hne : c ≠ "") :
    verifyClient C [some .basic, some .post] getId req none seen =
      (.ok (some { clientId := some c, method := "client_secret_post" }), seen) := by
  have hm := secretMatches_iff.2 hs
  obtain ⟨info, hi, hx⟩ := hv
  have hk : checkClient C c = .ok () := by
    unfold checkClient
    rw [hi]
    simp only
    have : validClientInfo C.now info = true := by
      unfold validClientInfo
      simp only [Bool.not_eq_true', Bool.and_eq_false_iff, bne_eq_false_iff_eq, decide_eq_false_iff_not]
      rcases hx with hx | hx
      · exact .inl hx
      · exact .inr (by omega)
    rw [this]; rfl
  have hf : finishClient C getId req { clientId := some c, method := "client_secret_post" } =
      .ok { clientId := some c, method := "client_secret_post" } := by
    simp [finishClient, truthyStr, hne, hk]
  simp [verifyClient, tryMethods, CAuthn.usable, afterPrefix, CAuthn.verify, hreq.1, hreq.2, hm, CAuthn.tag, hf, Except.map]

/-- C49 (partial), all methods: how the client of every answer was identified. -/
theorem C49_every_method_partial (C : AuthnCtx) (ms : List (Option CAuthn))
    (getId : Option (String → AuthnReq → Except Exc String)) (req : AuthnReq) (header : Option String)
    (seen seen' : List String) (r : AuthInfo) (c : String) (hc : r.clientId = some c) (hne : c ≠ "")
    (h : verifyClient C ms getId req header seen = (.ok (some r), seen')) :
    (InForce C.cdb C.now c ∧
      ((some .basic ∈ ms ∧ ∃ s, BasicCredentials C header c s ∧ HasSecret C.cdb c s) ∨
       (some .post ∈ ms ∧ ∃ s, PostCredentials req c s ∧ HasSecret C.cdb c s) ∨
       (some .secretJwt ∈ ms ∧ ∃ t A, req.clientAssertion = some t ∧ GoodAssertion C false t A c) ∨
       (some .privateKeyJwt ∈ ms ∧ ∃ t A, req.clientAssertion = some t ∧ GoodAssertion C true t A c) ∨
       (some .requestParam ∈ ms ∧ ∃ t A, req.request = some t ∧ C.unpack t = some A ∧ A.iss = some c) ∨
       (some .bearerBody ∈ ms ∧ req.clientId = some c ∧ req.accessToken.isSome = true) ∨
       (none ∈ ms ∧ req.clientId = some c))) ∨
    (∃ f t, getId = some f ∧ f t req = .ok c ∧ t ≠ "" ∧
      ((some .bearerHeader ∈ ms ∧ BearerToken header t) ∨ (some .bearerBody ∈ ms ∧ req.accessToken = some t))) := by
  obtain ⟨ai, hf, hfin⟩ := verifyClient_spec h
  rcases finish_spec hfin with ⟨c', h1, h2, h3, rfl⟩ | ⟨h1, ⟨_, rfl⟩ | ⟨f, t, c', e1, e2, e3, e4, rfl⟩⟩
  · rw [hc] at h1; cases h1
    left
    refine ⟨h3, ?_⟩
    rcases hf with ⟨m, hm, hx⟩ | ⟨hn, rfl⟩
    · cases hx with
      | basic k1 k2 => cases hc; exact .inl ⟨hm, _, k1, k2⟩
      | post k1 k2 => cases hc; exact .inr (.inl ⟨hm, _, k1, k2⟩)
      | bearerHeader k => cases hc
      | bearerBody k =>
        refine .inr (.inr (.inr (.inr (.inr (.inl ⟨hm, ?_, by rw [k]; rfl⟩)))))
        unfold truthyStr at hc
        split at hc
        · split at hc
          · cases hc
          · rename_i v hv _; cases hc; exact hv
        · cases hc
      | secretJwt k1 k2 => cases hc; exact .inr (.inr (.inl ⟨hm, _, _, k1, k2⟩))
      | privateKeyJwt k1 k2 => cases hc; exact .inr (.inr (.inr (.inl ⟨hm, _, _, k1, k2⟩)))
      | requestParam k1 k2 k3 => cases hc; exact .inr (.inr (.inr (.inr (.inl ⟨hm, _, _, k1, k2, k3⟩))))
    · exact .inr (.inr (.inr (.inr (.inr (.inr ⟨hn, hc⟩)))))
  · rw [hc] at h1
    rcases h1 with h1 | h1
    · cases h1
    · cases h1; exact absurd rfl hne
  · cases hc
    right
    refine ⟨f, t, e1, e4, e3, ?_⟩
    rcases hf with ⟨m, hm, hx⟩ | ⟨hn, rfl⟩
    · cases hx with
      | bearerHeader k => cases e2; exact .inl ⟨hm, k⟩
      | bearerBody k => cases e2; exact .inr ⟨hm, k⟩
      | basic k1 k2 => cases e2
      | post k1 k2 => cases e2
      | secretJwt k1 k2 => cases e2
      | privateKeyJwt k1 k2 => cases e2
      | requestParam k1 k2 k3 => cases e2
    · cases e2

/-! ## C50 -/

theorem verify_seen {C : AuthnCtx} {req : AuthnReq} {header : Option String} {seen : List String} {m : CAuthn} {k : String}
    (h : k ∈ seen) : k ∈ (m.verify C req header seen).2 := by
  have hj : ∀ method pk text, k ∈ (jwsVerify C method pk text seen).2 := by
    intro method pk text
    unfold jwsVerify
    split
    · exact h
    · split
      · exact jtiCheck_seen h
      · exact h
  cases m with
  | basic => simp only [CAuthn.verify]; split <;> exact h
  | post => simp only [CAuthn.verify]; split <;> exact h
  | bearerHeader => simp only [CAuthn.verify]; split <;> exact h
  | bearerBody => simp only [CAuthn.verify]; split <;> exact h
  | secretJwt => exact hj ..
  | privateKeyJwt => exact hj ..
  | requestParam =>
    simp only [CAuthn.verify]
    split
    · exact h
    · exact jtiCheck_seen h
  | dpop => exact h

theorem verify_once {C : AuthnCtx} {req : AuthnReq} {header : Option String} {seen seen' : List String} {m : CAuthn}
    {ai : AuthInfo} (h : m.verify C req header seen = (some ai, seen')) {A : Assertion} (hA : ai.assertion = some A) :
    ∃ iss, A.iss = some iss ∧
      (∀ jti, A.jti = some jti → jti ≠ "" → jtiKey iss jti ∉ seen ∧ jtiKey iss jti ∈ seen') := by
  have hj : ∀ {method A'}, jtiCheck method A' seen = (some ai, seen') → ∃ iss, A.iss = some iss ∧
      (∀ jti, A.jti = some jti → jti ≠ "" → jtiKey iss jti ∉ seen ∧ jtiKey iss jti ∈ seen') := by
    intro method A' hc
    obtain ⟨iss, h1, rfl, h3⟩ := jtiCheck_spec hc
    cases hA
    exact ⟨iss, h1, h3⟩
  cases m with
  | basic =>
    simp only [CAuthn.verify] at h
    split at h
    · cases h
    · simp only [Prod.mk.injEq] at h
      split at h
      · obtain ⟨h1, _⟩ := h; cases h1; cases hA
      · cases h.1
  | post =>
    simp only [CAuthn.verify] at h
    split at h
    · simp only [Prod.mk.injEq] at h
      split at h
      · obtain ⟨h1, _⟩ := h; cases h1; cases hA
      · cases h.1
    · cases h
  | bearerHeader => simp only [CAuthn.verify] at h; split at h <;> cases h; cases hA
  | bearerBody => simp only [CAuthn.verify] at h; split at h <;> cases h; cases hA
  | secretJwt => obtain ⟨_, _, _, _, _, _, h5⟩ := jwsVerify_spec h; exact hj h5
  | privateKeyJwt => obtain ⟨_, _, _, _, _, _, h5⟩ := jwsVerify_spec h; exact hj h5
  | requestParam =>
    simp only [CAuthn.verify] at h
    split at h
    · cases h
    · exact hj h
  | dpop => cases h

theorem try_seen {C : AuthnCtx} {req : AuthnReq} {header : Option String} {ms : List (Option CAuthn)} {seen : List String}
    {k : String} (h : k ∈ seen) : k ∈ (tryMethods C req header ms seen).2 := by
  induction ms generalizing seen with
  | nil => exact h
  | cons o ms ih =>
    cases o with
    | none => exact ih h
    | some m =>
      simp only [tryMethods]
      split
      · have := verify_seen (C := C) (req := req) (header := header) (m := m) h
        split
        · rename_i ai s' hv; rw [hv] at this; exact this
        · rename_i s' hv; rw [hv] at this; exact ih this
      · exact ih h

theorem try_once {C : AuthnCtx} {req : AuthnReq} {header : Option String} {ms : List (Option CAuthn)}
    {seen seen' : List String} {ai : AuthInfo} (h : tryMethods C req header ms seen = (some ai, seen')) {A : Assertion}
    (hA : ai.assertion = some A) :
    ∃ iss, A.iss = some iss ∧
      (∀ jti, A.jti = some jti → jti ≠ "" → jtiKey iss jti ∉ seen ∧ jtiKey iss jti ∈ seen') := by
  induction ms generalizing seen with
  | nil => cases h
  | cons o ms ih =>
    cases o with
    | none => exact ih h
    | some m =>
      simp only [tryMethods] at h
      split at h
      · split at h
        · rename_i ai' s' hv
          simp only [Prod.mk.injEq, Option.some.injEq] at h
          obtain ⟨rfl, rfl⟩ := h
          exact verify_once hv hA
        · rename_i s' hv
          obtain ⟨iss, h1, h2⟩ := ih h
          refine ⟨iss, h1, fun jti e1 e2 => ⟨fun hm => (h2 jti e1 e2).1 ?_, (h2 jti e1 e2).2⟩⟩
          have := verify_seen (C := C) (req := req) (header := header) (m := m) hm
          rw [hv] at this
          exact this
      · exact ih h

theorem client_seen {C : AuthnCtx} {ms : List (Option CAuthn)} {getId : Option (String → AuthnReq → Except Exc String)}
    {req : AuthnReq} {header : Option String} {seen : List String} {k : String} (h : k ∈ seen) :
    k ∈ (verifyClient C ms getId req header seen).2 := by
  have := try_seen (C := C) (req := req) (header := header) (ms := ms) h
  unfold verifyClient
  split
  · rename_i ht; rw [ht] at this; exact this
  · rename_i ht
    rw [ht] at this
    split <;> exact this

theorem client_once {C : AuthnCtx} {ms : List (Option CAuthn)} {getId : Option (String → AuthnReq → Except Exc String)}
    {req : AuthnReq} {header : Option String} {seen : List String} {r : AuthInfo}
    (h : (verifyClient C ms getId req header seen).1 = .ok (some r)) {A : Assertion} (hA : r.assertion = some A) :
    ∃ iss, A.iss = some iss ∧ (∀ jti, A.jti = some jti → jti ≠ "" →
      jtiKey iss jti ∉ seen ∧ jtiKey iss jti ∈ (verifyClient C ms getId req header seen).2) := by
  have hmap : ∀ {x : Except Exc AuthInfo}, x.map some = .ok (some r) → x = .ok r := by
    intro x hx
    cases x with
    | error e => cases hx
    | ok y => simp only [Except.map, Except.ok.injEq, Option.some.injEq] at hx; rw [hx]
  have hfin : ∀ {ai}, finishClient C getId req ai = .ok r → ai.assertion = some A := by
    intro ai hf
    rcases finish_spec hf with ⟨_, _, _, _, rfl⟩ | ⟨_, ⟨_, rfl⟩ | ⟨_, _, _, _, _, _, _, rfl⟩⟩ <;> exact hA
  unfold verifyClient at h ⊢
  split at h
  · rename_i ai s' ht
    obtain ⟨iss, h1, h2⟩ := try_once ht (hfin (hmap h))
    exact ⟨iss, h1, h2⟩
  · split at h
    · have := hfin (hmap h); cases this
    · cases h

theorem history_fresh (calls : List AuthCall) : ∀ (seen : List String) (j : Nat) (r : AuthInfo) (A : Assertion),
    (authHistory seen calls)[j]? = some (.ok (some r)) → r.assertion = some A →
    ∃ iss, A.iss = some iss ∧ ∀ jti, A.jti = some jti → jti ≠ "" → jtiKey iss jti ∉ seen := by
  induction calls with
  | nil => intro seen j r A h; simp [authHistory] at h
  | cons x xs ih =>
    intro seen j r A h hA
    simp only [authHistory] at h
    cases j with
    | zero =>
      simp only [List.getElem?_cons_zero, Option.some.injEq] at h
      obtain ⟨iss, h1, h2⟩ := client_once h hA
      exact ⟨iss, h1, fun jti e1 e2 => (h2 jti e1 e2).1⟩
    | succ j =>
      simp only [List.getElem?_cons_succ] at h
      obtain ⟨iss, h1, h2⟩ := ih _ j r A h hA
      exact ⟨iss, h1, fun jti e1 e2 hm => h2 jti e1 e2 (client_seen hm)⟩

/-- C50. In every series of requests, to whatever endpoints and with whatever client databases and methods: of two requests that
were both answered with a verified JWT of the same issuer with the same identifier, only one is there. -/
theorem C50_assertion_once (seen : List String) (calls : List AuthCall) (i j : Nat) (hij : i < j) (r r' : AuthInfo)
    (A A' : Assertion) (h : (authHistory seen calls)[i]? = some (.ok (some r))) (hA : r.assertion = some A)
    (h' : (authHistory seen calls)[j]? = some (.ok (some r'))) (hA' : r'.assertion = some A') (jti : String)
    (hj : A.jti = some jti) (hne : jti ≠ "") (hj' : A'.jti = some jti) : A.iss ≠ A'.iss := by
  induction calls generalizing seen i j with
  | nil => simp [authHistory] at h
  | cons x xs ih =>
    simp only [authHistory] at h h'
    cases j with
    | zero => omega
    | succ j =>
      simp only [List.getElem?_cons_succ] at h'
      cases i with
      | zero =>
        simp only [List.getElem?_cons_zero, Option.some.injEq] at h
        obtain ⟨iss, h1, h2⟩ := client_once h hA
        obtain ⟨iss', h1', h2'⟩ := history_fresh xs _ j r' A' h' hA'
        intro he
        rw [h1, h1'] at he
        cases he
        exact h2' jti hj' hne (h2 jti hj hne).2
      | succ i =>
        simp only [List.getElem?_cons_succ] at h
        exact ih _ i j (by omega) h h'

/-- C50. An assertion is accepted only if it verifies, names an allowed target of this endpoint as an audience, and is signed
with the right kind of key: not a symmetric one for private_key_jwt, and for client_secret_jwt the secret of the client. -/
theorem C50_assertion_checked (C : AuthnCtx) (ms : List (Option CAuthn))
    (getId : Option (String → AuthnReq → Except Exc String)) (req : AuthnReq) (header : Option String)
    (seen seen' : List String) (r : AuthInfo) (h : verifyClient C ms getId req header seen = (.ok (some r), seen')) :
    (r.method = "private_key_jwt" → ∃ t A c, req.clientAssertion = some t ∧ r.assertion = some A ∧ GoodAssertion C true t A c ∧
      (c ≠ "" → r.clientId = some c ∧ InForce C.cdb C.now c)) ∧
    (r.method = "client_secret_jwt" → ∃ t A c, req.clientAssertion = some t ∧ r.assertion = some A ∧ GoodAssertion C false t A c ∧
      (c ≠ "" → r.clientId = some c ∧ InForce C.cdb C.now c)) := by
  obtain ⟨ai, hf, hfin⟩ := verifyClient_spec h
  have hmeth : r.method = ai.method ∧ r.assertion = ai.assertion := by
    rcases finish_spec hfin with ⟨_, _, _, _, rfl⟩ | ⟨_, ⟨_, rfl⟩ | ⟨_, _, _, _, _, _, _, rfl⟩⟩ <;> exact ⟨rfl, rfl⟩
  have key : ∀ c, ai.clientId = some c → c ≠ "" → r.clientId = some c ∧ InForce C.cdb C.now c := by
    intro c hc hne
    rcases finish_spec hfin with ⟨c', h1, _, h3, rfl⟩ | ⟨h1, _⟩
    · rw [h1] at hc; cases hc; exact ⟨h1, h3⟩
    · rw [hc] at h1
      rcases h1 with h1 | h1
      · cases h1
      · cases h1; exact absurd rfl hne
  rw [hmeth.1, hmeth.2]
  rcases hf with ⟨m, _, hm⟩ | ⟨_, rfl⟩
  · cases hm with
    | secretJwt h1 h2 =>
      exact ⟨fun h => by simp at h, fun _ => ⟨_, _, _, h1, rfl, h2, key _ rfl⟩⟩
    | privateKeyJwt h1 h2 =>
      exact ⟨fun _ => ⟨_, _, _, h1, rfl, h2, key _ rfl⟩, fun h => by simp at h⟩
    | basic | post | bearerHeader | bearerBody | requestParam =>
      exact ⟨fun h => by simp at h, fun h => by simp at h⟩
  · exact ⟨fun h => by simp at h, fun h => by simp at h⟩

/-! ## C51 -/

/-- C51 (partial). At a read endpoint that allows bearer tokens in the header and nothing else, as in the documentation: a record
is returned exactly if the header has a registration access token of the client that is asked for.  (Missing: other method
lists; see the refutations.) -/
theorem C51_read_partial (C : AuthnCtx) (tokens : Dict String) (req : AuthnReq) (header : Option String) (seen : List String)
    (c : String) (hempty : C.cdb.get? "" = none) :
    (readRegistration C [some .bearerHeader] tokens req header seen).1 = .ok c ↔
      ∃ t, BearerToken header t ∧ t ≠ "" ∧ tokens.get? t = some c ∧ req.clientId = some c ∧
        ∃ info, C.cdb.get? c = some (.info info) := by
  constructor
  · intro h
    unfold readRegistration at h
    split at h
    · cases h
    · rename_i ai seen' hc
      cases ai with
      | none =>
        unfold clientAuthentication at hc
        split at hc
        · simp at hc
        · rename_i hx
          exact absurd hc (hx _)
      | some ai =>
        have hv : verifyClient C [some .bearerHeader] (some (readClientOfToken tokens)) req header seen =
            (.ok (some ai), seen') := by
          unfold clientAuthentication at hc
          split at hc
          · simp at hc
          · exact hc
        split at h
        · cases h
        · rename_i c' hp
          split at h
          · rename_i info hi
            cases h
            have hne : c ≠ "" := by rintro rfl; rw [hempty] at hi; cases hi
            obtain ⟨a0, hf, hfin⟩ := verifyClient_spec hv
            rcases hf with ⟨m, hm, hx⟩ | ⟨hn, _⟩
            · simp only [List.mem_singleton, Option.some.injEq] at hm
              subst hm
              cases hx with
              | bearerHeader hb =>
                rename_i t
                rcases finish_spec hfin with ⟨_, e, _⟩ | ⟨_, ⟨e, _⟩ | ⟨f, t', c', e1, e2, e3, e4, rfl⟩⟩
                · cases e
                · cases e
                · cases e1
                  cases e2
                  have : c = c' := by
                    simp [parsedClient] at hp; exact hp.symm
                  subst this
                  unfold readClientOfToken at e4
                  split at e4
                  · cases e4; exact absurd rfl hne
                  · rename_i c0 hc0
                    split at e4
                    · cases e4
                    · rename_i c1 hc1
                      simp only [Except.ok.injEq] at e4
                      split at e4
                      · rename_i heq
                        subst heq e4
                        exact ⟨t, hb, e3, hc1, hc0, info, hi⟩
                      · exact absurd e4.symm hne
            · simp at hn
          · cases h
          · cases h
  · rintro ⟨t, hb, ht, htok, hc, info, hi⟩
    have ha : afterPrefix "Bearer " header = some t.toList := by
      have e : ("Bearer " ++ t).toList = "Bearer ".toList ++ t.toList := String.toList_append
      unfold afterPrefix
      rw [show header = some ("Bearer " ++ t) from hb]
      simp only
      rw [e, if_pos (by rw [List.isPrefixOf_iff_prefix]; exact List.prefix_append _ _)]
      rw [show "Bearer ".length = "Bearer ".toList.length from rfl, List.drop_left]
    simp [readRegistration, clientAuthentication, verifyClient, tryMethods, CAuthn.usable, ha, CAuthn.verify, CAuthn.tag,
      finishClient, truthyStr, clientOfToken, ht, readClientOfToken, hc, htok, Except.map, parsedClient, hi]

end OidcOp
