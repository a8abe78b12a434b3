/-
The laws of an `Env` follow from the assumptions on the parts.
-/
import Verif.Spec.Parts
import Verif.Props.TokenHandler
import Verif.Props.Encoding

namespace OidcOp
open Spec

/-- What is inside the text of a token. -/
inductive Inside (p : Parts) (jti : Nat → String) (n : Nat) (c : TokenClass) (s : String) (t : Str) : Prop where
  | enc (C : Cipher) (m cls : String) (lt : Int) (exp : Str) (hget : p.handlers.get? m = some (.dflt C cls lt))
      (ht : t = cryptEncrypt C n (lvPack [p.rnd n, c.name.toList, s.toList, exp])) (hexp : ¬ EndsInSpace exp)
      (hc : c.name ∈ tokenClasses)
  | sig (alg : String) (x : Dict Json) (ht : t = p.jwt.sign n alg x) (hcls : x.get? "token_class" = if c = .idToken then none else some (.str c.name))
      (htt : x.get? "ttype" = none) (hsid : x.get? "sid" = some (.str s)) (hj : x.get? "jti" = some (.str (jti n)))

theorem class_ne_empty {c : String} (h : c ∈ tokenClasses) : c ≠ "" := by
  rintro rfl; revert h; decide

theorem token_inside {p : Parts} {jti : Nat → String} (hp : SoundParts p jti) {n : Nat} {c : TokenClass} (hf : p.failure n c = none)
    (s : String) : Inside p jti n c s (p.token n c s) := by
  have hother : ∀ x, c ≠ .other x := by rintro x rfl; simp [Parts.failure] at hf
  have hhas : p.handlers.has c.name = true := by
    unfold Parts.failure at hf
    split at hf
    · cases hf
    · cases hb : p.handlers.has c.name with
      | true => rfl
      | false => rw [hb] at hf; simp at hf
  cases hg : p.handlers.get? c.name with
  | none => rw [Dict.has, hg] at hhas; cases hhas
  | some h =>
    have hconf := hp.configured _ _ hg
    have hpay := hp.payload n c s
    cases h with
    | dflt C cls lt =>
      simp only at hconf
      obtain ⟨rfl, hk⟩ := hconf
      refine .enc C c.name c.name lt (if lt ≥ 0 then intStr (p.clock n + lt) else "-1".toList) hg ?_ (expStr_not_space _ _) hk
      unfold Parts.token
      rw [hg]
      simp only [Handler.call, Option.getD_some, defaultCall, classArg_none hpay.cls, Option.isNone_none, bne_iff_ne, ne_eq,
        class_ne_empty hk, not_false_eq_true, Bool.and_eq_true, and_self, if_true]
    | jwt cls alg lt =>
      simp only at hconf
      obtain ⟨rfl, hk⟩ := hconf
      have hne := class_ne_empty hk
      have hid : c ≠ .idToken := by rintro rfl; revert hk; decide
      refine .sig alg (jwtPayload p.issuer c.name lt (p.expiresIn n c s) (p.clock n) s.toList (p.payload n c s)) ?_ ?_ ?_ ?_ ?_
      · unfold Parts.token
        rw [hg]
        rfl
      all_goals
        unfold jwtPayload
        simp only [classArg_none hpay.cls, bne_iff_ne, ne_eq, hne, not_false_eq_true, if_true]
      · rw [packed_get _ _ _ _ _ (by decide) (by decide) (by decide), Dict.get?_set_self, if_neg hid]
      · rw [packed_get _ _ _ _ _ (by decide) (by decide) (by decide), Dict.get?_set_ne _ _ (by decide),
          Dict.get?_set_ne _ _ (by decide), Dict.get?_erase_ne _ (by decide), hpay.ttype]
      · rw [packed_get _ _ _ _ _ (by decide) (by decide) (by decide), Dict.get?_set_ne _ _ (by decide), Dict.get?_set_self,
          String.ofList_toList]
      · rw [packed_get _ _ _ _ _ (by decide) (by decide) (by decide), Dict.get?_set_ne _ _ (by decide),
          Dict.get?_set_ne _ _ (by decide), Dict.get?_erase_ne _ (by decide), hpay.jti]
    | idt a =>
      simp only at hconf
      have hid : c = .idToken := by
        cases c <;> simp [TokenClass.name] at hconf
        · rfl
        · exact absurd rfl (hother _)
      subst hid
      obtain ⟨h1, h2⟩ := hp.idPayload n s
      refine .sig (p.idAlg n s) (p.idPayload n s) ?_ (by simpa using h1.cls) h1.ttype h2 h1.jti
      unfold Parts.token
      rw [hg]
      rfl

theorem name_inj {c c' : TokenClass} (hc : c.name ∈ tokenClasses) (hc' : c'.name ∈ tokenClasses)
    (h1 : ∀ x, c ≠ .other x) (h2 : ∀ x, c' ≠ .other x) (h : c.name = c'.name) : c = c' := by
  cases c <;> cases c' <;> simp_all [TokenClass.name]

/-- The values that an encrypted token was packed from. -/
theorem vals_of_enc {C C' : Cipher} {k k' : Nat} {a b : List Str} (ha : a ≠ []) (hb : b ≠ [])
    (hsame : (∀ k x, C'.dec (C.enc k x) = some x) ∨ (∀ k x, C'.dec (C.enc k x) = none))
    (h : cryptEncrypt C k (lvPack a) = cryptEncrypt C' k' (lvPack b)) : trimLast a = trimLast b := by
  have hs : ∀ k x, C'.dec (C.enc k x) = some x := by
    rcases hsame with h1 | h1
    · exact h1
    · exfalso
      have h2 : C'.dec (cryptEncrypt C k (lvPack a)) = none := h1 _ _
      rw [h] at h2
      unfold cryptEncrypt at h2
      rw [C'.dec_enc] at h2
      cases h2
  cases hd : cryptDecrypt C' (cryptEncrypt C k (lvPack a)) with
  | none =>
    unfold cryptDecrypt cryptEncrypt at hd
    simp [hs] at hd
  | some plain =>
    have h1 := cryptDecrypt_encrypt C C' hs k a ha plain hd
    rw [h] at hd
    have h2 := cryptDecrypt_encrypt C' C' C'.dec_enc k' b hb plain hd
    rw [h1] at h2
    exact Except.ok.inj h2

theorem failure_other {p : Parts} {n : Nat} {c : TokenClass} (h : p.failure n c = none) : ∀ x, c ≠ .other x := by
  rintro x rfl; simp [Parts.failure] at h

theorem token_inj {p : Parts} {jti : Nat → String} (hp : SoundParts p jti) {n n' : Nat} {c c' : TokenClass} {s s' : String}
    (hf : p.failure n c = none) (hf' : p.failure n' c' = none) (h : p.token n c s = p.token n' c' s') :
    n = n' ∧ c = c' ∧ s = s' := by
  have o := failure_other hf
  have o' := failure_other hf'
  have i := token_inside hp hf s
  have i' := token_inside hp hf' s'
  rw [← h] at i'
  cases i with
  | enc C m cls lt exp hget ht hexp hc =>
    cases i' with
    | enc C' m' cls' lt' exp' hget' ht' hexp' hc' =>
      have hv := vals_of_enc (by simp) (by simp) (hp.separated.keys _ _ _ _ _ _ _ _ hget hget') (ht.symm.trans ht')
      simp only [trimLast, List.cons.injEq, String.toList_inj] at hv
      exact ⟨hp.rnd hv.1, name_inj hc hc' o o' hv.2.1, hv.2.2.1⟩
    | sig alg x ht' =>
      have h1 := (hp.separated.encNotJwt _ _ _ _ hget n
        (lvPack [p.rnd n, c.name.toList, s.toList, exp] ++ List.replicate (if utf8Len (lvPack [p.rnd n, c.name.toList, s.toList, exp]) % 16 ≠ 0 then 16 - utf8Len (lvPack [p.rnd n, c.name.toList, s.toList, exp]) % 16 else 0) ' ')).1
      have h2 : C.enc n _ = p.token n c s := ht.symm
      rw [h2, ht', p.jwt.peek_sign] at h1
      cases h1
  | sig alg x ht hcls htt hsid hj =>
    cases i' with
    | enc C' m' cls' lt' exp' hget' ht' hexp' hc' =>
      have h1 : p.jwt.peek (p.token n c s) = none := by
        rw [ht']
        exact (hp.separated.encNotJwt _ _ _ _ hget' _ _).1
      rw [ht, p.jwt.peek_sign] at h1
      cases h1
    | sig alg' x' ht' hcls' htt' hsid' hj' =>
      have h1 : p.jwt.peek (p.token n c s) = some x := by rw [ht, p.jwt.peek_sign]
      have h2 : p.jwt.peek (p.token n c s) = some x' := by rw [ht', p.jwt.peek_sign]
      rw [h1] at h2
      cases h2
      rw [hj] at hj'
      rw [hsid] at hsid'
      rw [hcls] at hcls'
      simp only [Option.some.injEq, Json.str.injEq] at hj' hsid'
      refine ⟨hp.fresh hj', ?_, hsid'⟩
      by_cases e : c = .idToken
      · by_cases e' : c' = .idToken
        · rw [e, e']
        · rw [if_pos e, if_neg e'] at hcls'; cases hcls'
      · by_cases e' : c' = .idToken
        · rw [if_neg e, if_pos e'] at hcls'; cases hcls'
        · rw [if_neg e, if_neg e'] at hcls'
          simp only [Option.some.injEq, Json.str.injEq] at hcls'
          cases c <;> cases c' <;> simp_all [TokenClass.name]

theorem token_wire {p : Parts} {jti : Nat → String} (hp : SoundParts p jti) {n : Nat} {c : TokenClass} (hf : p.failure n c = none)
    (s : String) : WireText (p.token n c s) := by
  cases token_inside hp hf s with
  | enc C m cls lt exp hget ht => rw [ht]; exact hp.encText _ _ _ _ hget _ _
  | sig alg x ht => rw [ht]; exact hp.sigText _ _ _

theorem info_sid {p : Parts} {jti : Nat → String} (hp : SoundParts p jti) {n : Nat} {c : TokenClass} (hf : p.failure n c = none)
    (s : String) (now : Int) {m : String} {h : Handler} (hget : p.handlers.get? m = some h) {r : TokInfo}
    (hr : h.info p.jwt now (p.token n c s) = .ok r) : r.sid = some s.toList := by
  have i := token_inside hp hf s
  generalize p.token n c s = t at *
  cases i with
  | enc C m0 cls lt exp hg ht hexp hc =>
    cases h with
    | dflt C' cls' lt' =>
      rw [show (Handler.dflt C' cls' lt').info p.jwt now t = defaultInfo C' cls' t from rfl] at hr
      unfold defaultInfo at hr
      rcases hp.separated.keys _ _ _ _ _ _ _ _ hg hget with hk | hk
      · cases hd : cryptDecrypt C' t with
        | none => rw [hd] at hr; cases hr
        | some plain =>
          rw [hd] at hr
          have h1 := cryptDecrypt_encrypt C C' hk n [p.rnd n, c.name.toList, s.toList, exp] (by simp) plain (by rw [← ht]; exact hd)
          simp only [h1, trimLast, List.getElem?_cons_succ, List.getElem?_cons_zero] at hr
          split at hr
          · cases hr; rfl
          · cases hr
      · have hd : cryptDecrypt C' t = none := by
          unfold cryptDecrypt
          rw [ht]
          unfold cryptEncrypt
          rw [hk]; rfl
        rw [hd] at hr; cases hr
    | jwt cls' alg' lt' =>
      obtain ⟨e, h1, _⟩ := (hp.separated.encNotJwt _ _ _ _ hg n _).2 alg'
      have h2 : p.jwt.unpack alg' t = .error e := by rw [ht]; exact h1
      rw [show (Handler.jwt cls' alg' lt').info p.jwt now t = jwtInfo p.jwt cls' alg' now t from rfl, jwtInfo, h2] at hr
      cases hr
    | idt a =>
      have h2 : p.jwt.peek t = none := by rw [ht]; exact (hp.separated.encNotJwt _ _ _ _ hg n _).1
      rw [show (Handler.idt a).info p.jwt now t = idtInfo p.jwt a now t from rfl, idtInfo, h2] at hr
      cases hr
  | sig alg x ht hcls htt hsid hj =>
    have hun : ∀ alg', p.jwt.unpack alg' t = .ok x ∨ ∃ e, p.jwt.unpack alg' t = .error e := by
      intro alg'
      rw [ht]
      rcases hp.separated.algs n alg alg' x with h1 | ⟨e, h1, _⟩
      · exact .inl h1
      · exact .inr ⟨e, h1⟩
    cases h with
    | dflt C' cls' lt' =>
      rw [show (Handler.dflt C' cls' lt').info p.jwt now t = defaultInfo C' cls' t from rfl,
        defaultInfo_refused (by rw [ht]; exact hp.separated.jwtNotEnc _ _ _ _ hget _ _ _)] at hr
      cases hr
    | jwt cls' alg' lt' =>
      rw [show (Handler.jwt cls' alg' lt').info p.jwt now t = jwtInfo p.jwt cls' alg' now t from rfl, jwtInfo] at hr
      rcases hun alg' with h1 | ⟨e, h1⟩
      · rw [h1] at hr
        simp only [hsid] at hr
        repeat' split at hr
        all_goals first
          | (cases hr; done)
          | (cases hr; rfl)
      · rw [h1] at hr; cases hr
    | idt a =>
      rw [show (Handler.idt a).info p.jwt now t = idtInfo p.jwt a now t from rfl, idtInfo] at hr
      split at hr
      · cases hr
      · split at hr
        · cases hr
        · split at hr
          · cases hr
          · split at hr
            · cases hr
            · rename_i alg' _
              rcases hun alg' with h1 | ⟨e, h1⟩
              · rw [h1] at hr
                simp only [hsid, payloadSid] at hr
                repeat' split at hr
                all_goals first
                  | (cases hr; done)
                  | (cases hr; rfl)
              · rw [h1] at hr; cases hr

theorem tokenSid_seal {p : Parts} {jti : Nat → String} (hp : SoundParts p jti) {n : Nat} {c : TokenClass} (hf : p.failure n c = none)
    (s : String) (now : Int) : ∀ (order : List String) (r : TokInfo),
    handlerInfo p.jwt now p.handlers (p.token n c s) order = .ok r → r.sid = some s.toList
  | [], r, h => by simp [handlerInfo] at h
  | m :: rest, r, h => by
    rw [handlerInfo] at h
    split at h
    · exact tokenSid_seal hp hf s now rest r h
    · rename_i hd hget
      split at h
      · rename_i r' hi
        cases h
        exact info_sid hp hf s now hget hi
      · split at h
        · exact tokenSid_seal hp hf s now rest r h
        · cases h

/-- The provider that is put together from the parts. -/
def Parts.env (p : Parts) (jti : Nat → String) (hp : SoundParts p jti) : Env where
  cfg := p.cfg
  authz := p.authz
  mkVal n c s := String.ofList (p.token n c s)
  fail := p.failure
  info := p.tokenSid
  encSid := p.encSid
  decrypt := p.decSid
  uuid := p.uuid
  subOf u req := authzSub p.hash p.subs "" u req
  claims := p.claimsOf
  filter c l := filterScopes p.scopes (some c) l
  deliverable := p.deliverable
  mkVal_inj := by
    intro n c s n' c' s' hf hf' h
    exact token_inj hp hf hf' (by simpa using congrArg String.toList h)
  mkVal_ne := by
    intro n c s hf h
    have := congrArg String.toList h
    rw [String.toList_ofList] at this
    exact (token_wire hp hf s).1 (by simpa using this)
  mkVal_plus := by
    intro n c s hf
    unfold spaceToPlus
    rw [String.toList_ofList]
    congr 1
    have : ∀ x ∈ p.token n c s, (if x = ' ' then '+' else x) = x := by
      intro x hx
      rw [if_neg]
      rintro rfl
      exact (token_wire hp hf s).2.1 hx
    rw [List.map_congr_left this, List.map_id']
  info_seal := by
    intro n c s t s' hf h
    unfold Parts.tokenSid at h
    rw [String.toList_ofList] at h
    split at h
    · rename_i r hr
      cases h
      rw [tokenSid_seal hp hf s t _ _ hr]
      simp
    · cases h
  decrypt_enc := by
    intro n u c g hu hc hg
    unfold Parts.decSid Parts.encSid
    rw [String.toList_ofList]
    simp only [List.map_cons, List.map_nil]
    rw [C03_session_id_roundtrip_triple p.crypt n (p.sidRnd n) _ _ _ hu.2 hc.2 hg.1.2
      (fun h => hg.1.1 (by rw [← String.toList_inj, h]; rfl)) hg.2]
    simp
  encSid_clean := by
    intro n u c g _ _ _
    unfold Parts.encSid
    rw [String.toList_ofList]
    exact (hp.sidText _ _).2.2
  uuid_clean := hp.uuid
  uuid_inj := hp.uuidFresh

end OidcOp
