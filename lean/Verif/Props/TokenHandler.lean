/-
C29: token strings and token handlers.
-/
import Verif.Spec.TokenHandler
import Verif.Lemmas.Encoding

namespace OidcOp
open Spec

theorem classArg_none {p : Dict Json} (h : p.get? "token_class" = none) : classArg p = none := by
  unfold classArg; rw [h]

/-- No trailing white space is lost: the last packed value is the text of a number. -/
theorem intStr_not_space (n : Int) : ¬ EndsInSpace (intStr n) := by
  rintro ⟨pre, c, h, hs⟩
  have hd : c.isDigit = true := by
    unfold intStr at h
    split at h
    · rcases List.eq_nil_or_concat (natStr n.natAbs) with h2 | ⟨l, d, h2⟩
      · exact absurd h2 (natStr_ne_nil _)
      · rw [h2] at h
        have : d = c := by
          have := congrArg List.getLast? h
          rw [List.concat_eq_append, ← List.cons_append, List.getLast?_append, List.getLast?_append] at this
          simpa using this
        subst this
        exact natStr_isDigit (n := n.natAbs) (by rw [h2]; simp)
    · exact natStr_isDigit (n := n.natAbs) (by rw [h]; simp)
  rw [isDigit_not_space hd] at hs
  cases hs

theorem cryptDecrypt_encrypt (C C' : Cipher) (h : ∀ k p, C'.dec (C.enc k p) = some p) (k : Nat) (vals : List Str)
    (hne : vals ≠ []) (plain : Str) (hd : cryptDecrypt C' (cryptEncrypt C k (lvPack vals)) = some plain) :
    lvUnpack plain = .ok (trimLast vals) := by
  unfold cryptDecrypt cryptEncrypt at hd
  simp only [h, Option.map_some, Option.some.injEq] at hd
  rw [← hd]
  exact lvUnpack_lvPack_pad _ hne _

theorem expStr_not_space (lifetime now : Int) :
    ¬ EndsInSpace (if lifetime ≥ 0 then intStr (now + lifetime) else "-1".toList) := by
  split
  · exact intStr_not_space _
  · exact intStr_not_space (-1)

/-- A default handler with the key that made the token reads back the values. -/
theorem defaultInfo_call (C C' : Cipher) (h : ∀ k p, C'.dec (C.enc k p) = some p) (cls cls' : String) (hc : cls ≠ "")
    (lt now : Int) (nonce : Nat) (rnd sid : Str) (payload : Dict Json) (hp : payload.get? "token_class" = none) :
    defaultInfo C' cls' (defaultCall C cls lt now nonce rnd sid payload) =
      if cls = cls' ∨ cls = altTokenName cls' then .ok { sid := some sid, cls := some cls' } else .error .wrongTokenClass := by
  unfold defaultInfo defaultCall
  simp only [classArg_none hp, Option.isNone_none, bne_iff_ne, ne_eq, hc, not_false_eq_true, Bool.and_eq_true,
    and_self, if_true]
  cases hd : cryptDecrypt C' (cryptEncrypt C nonce (lvPack [rnd, cls.toList, sid,
      if lt ≥ 0 then intStr (now + lt) else "-1".toList])) with
  | none =>
    unfold cryptDecrypt cryptEncrypt at hd
    simp [h] at hd
  | some plain =>
    have h1 := cryptDecrypt_encrypt C C' h nonce _ (by simp) plain hd
    simp only [h1, trimLast, (rstrip_eq_self_iff _).2 (expStr_not_space lt now)]
    simp only [List.getElem?_cons_succ, List.getElem?_cons_zero, String.toList_inj]

theorem defaultInfo_refused {C : Cipher} {cls : String} {token : Str} (h : C.dec token = none) :
    defaultInfo C cls token = .error .unknownToken := by
  unfold defaultInfo cryptDecrypt
  rw [h]
  rfl

theorem packed_get (issuer : String) (now lt : Int) (p : Dict Json) (k : String) (h1 : k ≠ "iss") (h2 : k ≠ "iat")
    (h3 : k ≠ "exp") : (packed issuer now lt p).get? k = p.get? k := by
  unfold packed
  simp only []
  split
  · rw [Dict.get?_set_ne _ _ (Ne.symm h2), Dict.get?_set_ne _ _ (Ne.symm h1)]
  · rw [Dict.get?_set_ne _ _ (Ne.symm h3), Dict.get?_set_ne _ _ (Ne.symm h2), Dict.get?_set_ne _ _ (Ne.symm h1)]

theorem altTokenName_eq_class {c m : String} (hc : c ∈ tokenClasses) (hm : m ∈ tokenClasses) : c ≠ altTokenName m := by
  simp only [tokenClasses, List.mem_cons, List.not_mem_nil, or_false] at hc hm
  rcases hc with rfl | rfl | rfl <;> rcases hm with rfl | rfl | rfl <;> decide

/-- The content of a JWT that was made for a class. -/
theorem jwtCall_payload (issuer cls : String) (hcls : cls ≠ "") (rules : Option Int) (lt now : Int) (sid : Str) (payload : Dict Json)
    (h1 : payload.get? "token_class" = none) (h2 : payload.get? "ttype" = none) (L : JwtLib) (alg : String) (nonce : Nat) :
    ∃ p, jwtCall L issuer cls alg lt rules now nonce sid payload = L.sign nonce alg p ∧
      p.get? "ttype" = none ∧ p.get? "token_class" = some (.str cls) ∧ p.get? "sid" = some (.str (String.ofList sid)) ∧
      p.get? "aud" = payload.get? "aud" ∧
      (rules.getD lt ≠ 0 → p.get? "exp" = some (.num (now + rules.getD lt))) := by
  refine ⟨_, rfl, ?_, ?_, ?_, ?_, ?_⟩ <;> unfold jwtPayload <;>
    simp only [classArg_none h1, bne_iff_ne, ne_eq, hcls, not_false_eq_true, if_true]
  · rw [packed_get _ _ _ _ _ (by decide) (by decide) (by decide), Dict.get?_set_ne _ _ (by decide),
      Dict.get?_set_ne _ _ (by decide), Dict.get?_erase_ne _ (by decide), h2]
  · rw [packed_get _ _ _ _ _ (by decide) (by decide) (by decide), Dict.get?_set_self]
  · rw [packed_get _ _ _ _ _ (by decide) (by decide) (by decide), Dict.get?_set_ne _ _ (by decide), Dict.get?_set_self]
  · rw [packed_get _ _ _ _ _ (by decide) (by decide) (by decide), Dict.get?_set_ne _ _ (by decide),
      Dict.get?_set_ne _ _ (by decide), Dict.get?_erase_ne _ (by decide)]
  · intro h
    unfold packed
    simp only [h, if_false, Dict.get?_set_self]

/-- What a JWT handler makes of a JWT that was made for a class. -/
theorem jwtInfo_of {L : JwtLib} {m alg : String} {now : Int} {token : Str} {p : Dict Json} {cls : String}
    (hu : L.unpack alg token = .ok p) (ht : p.get? "ttype" = none) (hc : p.get? "token_class" = some (.str cls))
    (hcm : cls ∈ tokenClasses) (hmm : m ∈ tokenClasses) (hne : cls ≠ m) : jwtInfo L m alg now token = .error .wrongTokenClass := by
  unfold jwtInfo
  rw [hu]
  have h3 := altTokenName_eq_class hcm hmm
  simp [ht, hc, hne, h3]

theorem jwtInfo_own {L : JwtLib} {alg : String} {now : Int} {token : Str} {p : Dict Json} {cls : String} {sid : Str} {exp : Int}
    (hu : L.unpack alg token = .ok p) (ht : p.get? "ttype" = none) (hc : p.get? "token_class" = some (.str cls))
    (hs : p.get? "sid" = some (.str (String.ofList sid))) (he : p.get? "exp" = some (.num exp)) :
    jwtInfo L cls alg now token = if isExpired now exp then .error .toOld else .ok { sid := some sid, cls := some cls } := by
  unfold jwtInfo
  rw [hu]
  simp [ht, hc, hs, he, payloadSid]

theorem jwtInfo_refused {L : JwtLib} {m alg : String} {now : Int} {token : Str}
    (h : ∃ e, L.unpack alg token = .error e ∧ skipped e = true) :
    ∃ e, jwtInfo L m alg now token = .error e ∧ skipped e = true := by
  obtain ⟨e, h1, h2⟩ := h
  exact ⟨e, by unfold jwtInfo; rw [h1], h2⟩

/-- A handler of another class passes a minted token over. -/
theorem other_handler_skips {L : JwtLib} {handlers : Dict Handler} (hconf : AsConfigured handlers) (hsep : Separated L handlers)
    {cls : String} {h : Handler} {issuer : String} {rules : Option Int} {madeAt now : Int} {sid token : Str}
    (hm : MintedAs L handlers cls h issuer rules madeAt sid token) {m : String} {h' : Handler}
    (hget : handlers.get? m = some h') (hne : m ≠ cls) (hid : ∀ a, h' ≠ .idt a) :
    ∃ e, h'.info L now token = .error e ∧ skipped e = true := by
  obtain ⟨nonce, rnd, payload, hp1, hp2, hcall⟩ := hm.made
  have hk := hm.known
  have hconf1 := hconf _ _ hm.handler
  have hconf2 := hconf _ _ hget
  have hcls : cls ≠ "" := by
    simp only [tokenClasses, List.mem_cons, List.not_mem_nil, or_false] at hk
    rcases hk with rfl | rfl | rfl <;> decide
  cases h with
  | idt a => cases hcall
  | dflt C c lt =>
    obtain ⟨rfl, -⟩ := hconf1
    have htok : token = defaultCall C c lt madeAt nonce rnd sid payload := by
      simpa [Handler.call] using hcall.symm
    cases h' with
    | idt a => exact absurd rfl (hid a)
    | dflt C' c' lt' =>
      obtain ⟨rfl, hm'⟩ := hconf2
      show ∃ e, defaultInfo C' c' token = .error e ∧ _
      rcases hsep.keys _ _ _ _ _ _ _ _ hm.handler hget with hk2 | hk2
      · refine ⟨.wrongTokenClass, ?_, by decide⟩
        rw [htok, defaultInfo_call C C' hk2 c c' hcls _ _ _ _ _ _ hp1, if_neg]
        rintro (h1 | h1)
        · exact hne h1.symm
        · exact altTokenName_eq_class hk hm' h1
      · refine ⟨.unknownToken, defaultInfo_refused ?_, by decide⟩
        rw [htok]; exact hk2 _ _
    | jwt c' alg' lt' =>
      show ∃ e, jwtInfo L c' alg' now token = .error e ∧ _
      apply jwtInfo_refused
      rw [htok]
      exact (hsep.encNotJwt _ _ _ _ hm.handler _ _).2 alg'
  | jwt c alg lt =>
    obtain ⟨rfl, -⟩ := hconf1
    have htok : token = jwtCall L issuer c alg lt rules madeAt nonce sid payload := by
      simpa [Handler.call] using hcall.symm
    obtain ⟨p, h1, h2, h3, h4, h5, h6⟩ := jwtCall_payload issuer c hcls rules lt madeAt sid payload hp1 hp2 L alg nonce
    rw [h1] at htok
    cases h' with
    | idt a => exact absurd rfl (hid a)
    | dflt C' c' lt' =>
      refine ⟨.unknownToken, defaultInfo_refused ?_, by decide⟩
      rw [htok]; exact hsep.jwtNotEnc _ _ _ _ hget _ _ _
    | jwt c' alg' lt' =>
      obtain ⟨rfl, hm'⟩ := hconf2
      show ∃ e, jwtInfo L c' alg' now token = .error e ∧ _
      rcases hsep.algs nonce alg alg' p with h7 | h7
      · exact ⟨.wrongTokenClass, jwtInfo_of (by rw [htok]; exact h7) h2 h3 hk hm' (Ne.symm hne), by decide⟩
      · apply jwtInfo_refused
        rw [htok]; exact h7

/-- The handler that made a token reads it back. -/
theorem own_handler_reads {L : JwtLib} {handlers : Dict Handler} (hconf : AsConfigured handlers)
    {cls : String} {h : Handler} {issuer : String} {rules : Option Int} {madeAt now : Int} {sid token : Str}
    (hm : MintedAs L handlers cls h issuer rules madeAt sid token) (hf : Fresh rules madeAt now h) :
    h.info L now token = .ok { sid := some sid, cls := some cls } := by
  obtain ⟨nonce, rnd, payload, hp1, hp2, hcall⟩ := hm.made
  have hk := hm.known
  have hconf1 := hconf _ _ hm.handler
  have hcls : cls ≠ "" := by
    simp only [tokenClasses, List.mem_cons, List.not_mem_nil, or_false] at hk
    rcases hk with rfl | rfl | rfl <;> decide
  cases h with
  | idt a => cases hcall
  | dflt C c lt =>
    obtain ⟨rfl, -⟩ := hconf1
    have htok : token = defaultCall C c lt madeAt nonce rnd sid payload := by
      simpa [Handler.call] using hcall.symm
    show defaultInfo C c token = _
    rw [htok, defaultInfo_call C C C.dec_enc c c hcls _ _ _ _ _ _ hp1, if_pos (.inl rfl)]
  | jwt c alg lt =>
    obtain ⟨rfl, -⟩ := hconf1
    have htok : token = jwtCall L issuer c alg lt rules madeAt nonce sid payload := by
      simpa [Handler.call] using hcall.symm
    obtain ⟨p, h1, h2, h3, h4, h5, h6⟩ := jwtCall_payload issuer c hcls rules lt madeAt sid payload hp1 hp2 L alg nonce
    rw [h1] at htok
    show jwtInfo L c alg now token = _
    rw [jwtInfo_own (by rw [htok]; exact L.unpack_sign _ _ _) h2 h3 h4 (h6 hf.1), if_neg]
    unfold isExpired
    have := hf.2
    split
    · simp
    · simp only [decide_eq_true_eq]
      omega

theorem handlerInfo_skip {L : JwtLib} {now : Int} {handlers : Dict Handler} {token : Str} (pre rest : List String)
    (h : ∀ m ∈ pre, ∀ h', handlers.get? m = some h' → ∃ e, h'.info L now token = .error e ∧ skipped e = true) :
    handlerInfo L now handlers token (pre ++ rest) = handlerInfo L now handlers token rest := by
  induction pre with
  | nil => rfl
  | cons m r ih =>
    have ih' := ih (fun m' hm' => h m' (List.mem_cons_of_mem _ hm'))
    rw [List.cons_append, handlerInfo]
    cases hg : handlers.get? m with
    | none => exact ih'
    | some h' =>
      obtain ⟨e, h1, h2⟩ := h m List.mem_cons_self h' hg
      simp only [h1, h2, if_true]
      exact ih'

/-- C29, the part that holds.  A code, access token or refresh token is recognised with its session id and its class, in
every order of the handlers in which the ID token handler does not come before the token's own, and also if handlers share
keys.  Missing from C29: orders with the ID token handler earlier, and payloads with a "token_class" or "ttype" entry. -/
theorem C29_minted_is_recognised_partial (L : JwtLib) (handlers : Dict Handler) (hconf : AsConfigured handlers)
    (hsep : Separated L handlers) (cls : String) (h : Handler) (issuer : String) (rules : Option Int) (madeAt now : Int)
    (sid token : Str) (hm : MintedAs L handlers cls h issuer rules madeAt sid token) (hf : Fresh rules madeAt now h)
    (before after : List String) (hid : "id_token" ∉ before) :
    handlerInfo L now handlers token (before ++ cls :: after) = .ok { sid := some sid, cls := some cls } := by
  have own : ∀ r, handlerInfo L now handlers token (cls :: r) = .ok { sid := some sid, cls := some cls } := by
    intro r
    rw [handlerInfo, hm.handler]
    simp only [own_handler_reads hconf hm hf]
  induction before with
  | nil => exact own after
  | cons m r ih =>
    by_cases hmc : m = cls
    · subst hmc; exact own _
    · rw [List.cons_append, handlerInfo]
      have ih' := ih (fun h => hid (List.mem_cons_of_mem _ h))
      cases hg : handlers.get? m with
      | none => exact ih'
      | some h' =>
        have hni : ∀ a, h' ≠ .idt a := by
          rintro a rfl
          have := hconf _ _ hg
          simp only at this
          subst this
          exact hid List.mem_cons_self
        obtain ⟨e, h1, h2⟩ := other_handler_skips (now := now) hconf hsep hm hg hmc hni
        simp only [h1, h2, if_true]
        exact ih'

/-- C29.  In no order of the handlers, and at no time, is a code, access token or refresh token taken for one of another
class. -/
theorem C29_never_another_class (L : JwtLib) (handlers : Dict Handler) (hconf : AsConfigured handlers)
    (hsep : Separated L handlers) (cls : String) (h : Handler) (issuer : String) (rules : Option Int) (madeAt now : Int)
    (sid token : Str) (hm : MintedAs L handlers cls h issuer rules madeAt sid token) (order : List String) (r : TokInfo)
    (hr : handlerInfo L now handlers token order = .ok r) (c : String) (hc : r.cls = some c) : c = cls := by
  induction order with
  | nil => cases hr
  | cons m rest ih =>
    rw [handlerInfo] at hr
    split at hr
    · exact ih hr
    · rename_i h' hg
      split at hr
      · rename_i r' hi
        cases hr
        have hcm := hconf _ _ hg
        by_cases hmc : m = cls
        · subst hmc
          cases h' with
          | idt a =>
            exfalso
            have := hm.known
            simp only at hcm
            rw [hcm] at this
            revert this; decide
          | dflt C c' lt =>
            obtain ⟨rfl, -⟩ := hcm
            simp only [Handler.info, defaultInfo] at hi
            repeat' split at hi
            all_goals first
              | (cases hi; done)
              | (cases hi; simpa using hc.symm)
          | jwt c' alg lt =>
            obtain ⟨rfl, -⟩ := hcm
            simp only [Handler.info, jwtInfo] at hi
            repeat' split at hi
            all_goals first
              | (cases hi; done)
              | (cases hi; simpa using hc.symm)
        · cases h' with
          | idt a =>
            exfalso
            simp only [Handler.info, idtInfo] at hi
            repeat' split at hi
            all_goals first
              | (cases hi; done)
              | (cases hi; cases hc)
          | dflt C c' lt =>
            obtain ⟨e, h1, h2⟩ := other_handler_skips (now := now) hconf hsep hm hg hmc (by simp)
            rw [h1] at hi; cases hi
          | jwt c' alg lt =>
            obtain ⟨e, h1, h2⟩ := other_handler_skips (now := now) hconf hsep hm hg hmc (by simp)
            rw [h1] at hi; cases hi
      · split at hr
        · exact ih hr
        · cases hr

/-- C29.  A string in which no handler finds authentic content is refused with UnknownToken, in every order.
Missing from C29: strings that look like a JWT with an odd "aud", see `C29_forged_raises_refuted`. -/
theorem C29_forged_is_unknown_partial (L : JwtLib) (now : Int) (handlers : Dict Handler) (token : Str) (order : List String)
    (h : ∀ n ∈ order, ∀ h', handlers.get? n = some h' → Rejects L token h') :
    handlerInfo L now handlers token order = .error .unknownToken := by
  have : ∀ m ∈ order, ∀ h', handlers.get? m = some h' → ∃ e, h'.info L now token = .error e ∧ skipped e = true := by
    intro m hm h' hg
    have hr := h m hm h' hg
    cases h' with
    | dflt C c lt => exact ⟨_, defaultInfo_refused hr, by decide⟩
    | jwt c alg lt => exact jwtInfo_refused hr
    | idt a =>
      simp only [Handler.info, idtInfo]
      rcases hr with hr | hr
      · rw [hr]; exact ⟨_, rfl, by decide⟩
      · cases hpk : L.peek token with
        | none => exact ⟨_, rfl, by decide⟩
        | some p =>
          simp only []
          cases ha : p.get? "aud" with
          | none => exact ⟨_, rfl, by decide⟩
          | some au =>
            simp only []
            have hok : ∃ c, audClient au = .ok c := by
              rcases hr.1 p au hpk ha with ⟨s, rfl, hs⟩ | ⟨c, r, rfl⟩
              · unfold audClient
                cases hl : s.toList with
                | nil => exact absurd (by rw [← String.toList_inj, hl]; rfl) hs
                | cons c r => exact ⟨String.ofList [c], by simp only [hl]⟩
              · exact ⟨c, rfl⟩
            obtain ⟨c, hc⟩ := hok
            rw [hc]
            simp only []
            cases a.get? c with
            | none => exact ⟨_, rfl, by decide⟩
            | some alg =>
              obtain ⟨e, h1, h2⟩ := hr.2 alg
              exact ⟨e, by simp only [h1], h2⟩
  have h2 := handlerInfo_skip order [] this
  rw [List.append_nil] at h2
  exact h2

theorem classNames_iff (cls name : String) : name ∈ classNames cls ↔ name = cls ∨ name = altTokenName cls := by
  unfold altTokenName classNames
  split
  · simp
  · simp
  · simp
  · simp
  · rename_i h1 h2 h3 h4
    rw [if_neg h1, if_neg h2, if_neg h3, if_neg h4]
    simp

theorem isExpired_false {now e : Int} (h : ¬ isExpired now e = true) : e < 0 ∨ now ≤ e := by
  unfold isExpired at h
  split at h
  · exact .inl (by assumption)
  · exact .inr (by simpa using h)

/-- What a JWT handler reads. -/
theorem jwtInfo_reads {L : JwtLib} {cls alg : String} {lt now : Int} {token : Str} {r : TokInfo}
    (h : jwtInfo L cls alg now token = .ok r) : Reads L now token r (.jwt cls alg lt) := by
  unfold jwtInfo at h
  cases hp : L.unpack alg token with
  | error e => rw [hp] at h; cases h
  | ok p =>
    rw [hp] at h
    simp only [] at h
    have rest : ∀ name, name ∈ classNames cls →
        (p.get? "ttype" = some (.str name) ∨
          ((p.get? "ttype" = none ∨ p.get? "ttype" = some .null) ∧ p.get? "token_class" = some (.str name))) →
        (match p.get? "exp" with
          | none => .error .keyError
          | some (.num exp) =>
            if isExpired now exp then .error .toOld
            else
              match p.get? "sid" with
              | none => .error .keyError
              | some s => .ok { sid := payloadSid s, cls := some cls }
          | some _ => .error .typeError : Except Exc TokInfo) = .ok r → Reads L now token r (.jwt cls alg lt) := by
      intro name hn hm h
      split at h
      · cases h
      · rename_i e he
        by_cases hx : isExpired now e = true
        · rw [if_pos hx] at h; cases h
        · rw [if_neg hx] at h
          split at h
          · cases h
          · rename_i s hs
            cases h
            exact ⟨p, s, name, e, hp, hn, hm, he, isExpired_false hx, hs, fun x hx => by subst hx; rfl, rfl⟩
      · cases h
    have both : ∀ c : Option Json, (c = some (.str cls) ∨ c = some (.str (altTokenName cls))) →
        ∃ name, name ∈ classNames cls ∧ c = some (.str name) := by
      rintro c (hc | hc)
      · exact ⟨cls, (classNames_iff _ _).2 (.inl rfl), hc⟩
      · exact ⟨_, (classNames_iff _ _).2 (.inr rfl), hc⟩
    have wrong : ∀ {P : Prop}, (if (p.get? "token_class").isNone then .error .keyError else .error .wrongTokenClass : Except Exc TokInfo)
        = .ok r → P := by
      intro P h
      split at h <;> cases h
    cases ht : p.get? "ttype" with
    | none =>
      simp only [ht] at h
      split at h
      · rename_i hc
        obtain ⟨name, hn, hm⟩ := both _ hc
        exact rest name hn (.inr ⟨.inl ht, hm⟩) h
      · exact wrong h
    | some v =>
      cases v with
      | null =>
        simp only [ht] at h
        split at h
        · rename_i hc
          obtain ⟨name, hn, hm⟩ := both _ hc
          exact rest name hn (.inr ⟨.inr ht, hm⟩) h
        · exact wrong h
      | str x =>
        simp only [ht] at h
        split at h
        · rename_i hc
          obtain ⟨name, hn, hm⟩ := both _ hc
          exact rest name hn (.inl (ht.trans hm)) h
        · exact wrong h
      | num _ | bool _ | arr _ | obj _ =>
        simp only [ht] at h
        split at h
        · rename_i hc
          rcases hc with hc | hc <;> cases hc
        · exact wrong h

/-- C29.  Whatever is accepted carries authentic content of the handler that accepts it, and the answer is read from
that. -/
theorem C29_accepted_is_authentic (L : JwtLib) (now : Int) (handlers : Dict Handler) (token : Str) (order : List String)
    (r : TokInfo) (h : handlerInfo L now handlers token order = .ok r) :
    ∃ n ∈ order, ∃ h', handlers.get? n = some h' ∧ Reads L now token r h' := by
  induction order with
  | nil => cases h
  | cons m rest ih =>
    rw [handlerInfo] at h
    split at h
    · obtain ⟨n, h1, h2⟩ := ih h
      exact ⟨n, List.mem_cons_of_mem _ h1, h2⟩
    · rename_i h' hg
      split at h
      · rename_i r' hi
        cases h
        refine ⟨m, List.mem_cons_self, h', hg, ?_⟩
        cases h' with
        | dflt C c lt =>
          simp only [Handler.info, defaultInfo] at hi
          split at hi
          · cases hi
          · rename_i plain hd
            unfold cryptDecrypt at hd
            rw [Option.map_eq_some_iff] at hd
            obtain ⟨x, hx, rfl⟩ := hd
            split at hi
            · cases hi
            · rename_i vals hv
              split at hi
              · cases hi
              · rename_i c' hc'
                split at hi
                · rename_i hor
                  cases hi
                  rcases hor with rfl | rfl
                  · exact ⟨x, vals, c, hx, hv, (classNames_iff _ _).2 (.inl rfl), hc', rfl⟩
                  · exact ⟨x, vals, _, hx, hv, (classNames_iff _ _).2 (.inr rfl), hc', rfl⟩
                · cases hi
        | jwt c alg lt =>
          exact jwtInfo_reads hi
        | idt a =>
          simp only [Handler.info, idtInfo] at hi
          repeat' split at hi
          all_goals first
            | (cases hi; done)
            | (cases hi; exact ⟨_, _, by assumption, rfl⟩)
      · split at h
        · obtain ⟨n, h1, h2⟩ := ih h
          exact ⟨n, List.mem_cons_of_mem _ h1, h2⟩
        · cases h

end OidcOp
