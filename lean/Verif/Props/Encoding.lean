/-
C01-C04: packing, session keys and session ids.
-/
import Verif.Lemmas.Encoding
namespace OidcOp
open Spec

/-! ## C01 -/

/-- C01. Unpacking what was packed gives back the values exactly when the last value does not end in
white space. -/
theorem C01_lv_roundtrip_iff (vals : List Str) :
    lvUnpack (lvPack vals) = .ok vals ↔
      ∀ pre last, vals = pre ++ [last] → ¬ EndsInSpace last := by
  rw [lvUnpack_lvPack]
  rcases List.eq_nil_or_concat vals with rfl | ⟨pre, last, rfl⟩
  · simp [trimLast]
  · rw [List.concat_eq_append, trimLast_concat]
    constructor
    · intro h pre' last' he
      obtain ⟨rfl, e⟩ := List.append_inj' he rfl
      simp at e; subst e
      simp at h
      exact (rstrip_eq_self_iff last).1 h
    · intro h
      rw [(rstrip_eq_self_iff last).2 (h pre last rfl)]

/-- C01. In the other case only the trailing white space of the last value is lost. -/
theorem C01_lv_roundtrip_trim (pre : List Str) (last t : Str) (h : IsRTrimOf t last) :
    lvUnpack (lvPack (pre ++ [last])) = .ok (pre ++ [t]) := by
  rw [lvUnpack_lvPack, trimLast_concat, isRTrimOf_unique h]

/-- C01. `lv_unpack` returns a list or raises ValueError on every string. -/
theorem C01_lv_unpack_total (txt : Str) :
    (∃ l, lvUnpack txt = .ok l) ∨ lvUnpack txt = .error .valueError :=
  lvUnpackLoop_total _

/-- C01. No two lists of values have the same packed form. -/
theorem C01_lv_pack_injective {a b : List Str} (h : lvPack a = lvPack b) : a = b := by
  have h1 := lvUnpackLoop_lvPack a
  rw [h, lvUnpackLoop_lvPack b] at h1
  simpa using h1.symm

/-- The hypotheses are met by values with colons, digits and inner white space. -/
example : lvUnpack (lvPack ["3:a".toList, " ".toList, "".toList, "1 2:".toList]) =
    .ok ["3:a".toList, " ".toList, "".toList, "1 2:".toList] := by
  rw [C01_lv_roundtrip_iff]
  intro pre last he
  rintro ⟨p, c, hc, hs⟩
  have : last = "1 2:".toList := by
    have := congrArg List.getLast? he; simpa using this.symm
  rw [this] at hc
  have : c = ':' := by have := congrArg List.getLast? hc; simpa using this.symm
  subst this; simp [pyIsSpace] at hs

example : IsRTrimOf "a".toList "a \n".toList :=
  ⟨by rintro ⟨p, c, hc, hs⟩
      have : c = 'a' := by have := congrArg List.getLast? hc; simpa using this.symm
      subst this; simp [pyIsSpace] at hs,
   " \n".toList, rfl, by decide⟩

/-! ## C02 -/

/-- C02. Splitting a session key gives back the identifiers exactly when they are separable. -/
theorem C02_session_key_roundtrip_iff (ids : List Str) (hne : ids ≠ []) :
    unpackSessionKey (sessionKey ids) = ids ↔ Separable ids := by
  constructor
  · intro h; have := unpack_separable (sessionKey ids); rwa [h] at this
  · exact split_join_of_separable ids hne

/-- C02. Joining the parts of any key gives back the key. -/
theorem C02_session_key_of_unpack (key : Str) : sessionKey (unpackSessionKey key) = key :=
  session_key_unpack key

theorem separable_of_no_semicolon {ids : List Str} (h : ∀ x ∈ ids, ';' ∉ x) : Separable ids := by
  refine ⟨fun x hx => ?_, fun x hx => ?_⟩
  · rintro ⟨a, b, rfl⟩; exact h _ hx (by simp)
  · rintro ⟨a, rfl⟩; exact h _ (List.dropLast_subset _ hx) (by simp)

example : Separable ["diana".toList, "client;1".toList, "G1;".toList] := by
  refine ⟨?_, ?_⟩
  · intro x hx
    simp at hx
    rcases hx with rfl | rfl | rfl <;>
      (intro ⟨a, b, h⟩
       have hm : divider.isInfixOf_internal _ = true :=
         List.isInfixOf_internal_iff_isInfix.2 ⟨a, b, by simpa [divider] using h.symm⟩
       revert hm; decide)
  · intro x hx
    simp at hx
    rcases hx with rfl | rfl <;>
      (rintro ⟨a, h⟩
       have := congrArg List.getLast? h
       simp at this)

/-! ## C03 -/

/-- C03. Decrypting an encrypted session id gives back the path, for all ids free of `;` whose last one
does not end in white space, all random prefixes and all encryption randomness. -/
theorem C03_session_id_roundtrip (C : Cipher) (nonce : Nat) (rnd : Str) (ids : List Str)
    (hne : ids ≠ []) (hsep : Separable ids) (hws : ¬ EndsInSpace (sessionKey ids)) :
    decryptSessionId C (encryptedSessionId C nonce rnd ids) = .ok ids := by
  unfold decryptSessionId cryptDecrypt encryptedSessionId cryptEncrypt
  simp only [C.dec_enc, Option.map_some]
  rw [lvUnpack_lvPack_pad _ (by simp)]
  simp only [trimLast]
  rw [(rstrip_eq_self_iff _).2 hws, split_join_of_separable ids hne hsep]

theorem not_endsInSpace_key (u c g : Str) (hg : g ≠ []) (h : ¬ EndsInSpace g) :
    ¬ EndsInSpace (sessionKey [u, c, g]) := by
  rintro ⟨pre, d, he, hd⟩
  rcases List.eq_nil_or_concat g with rfl | ⟨g', e, rfl⟩
  · exact hg rfl
  · simp only [sessionKey, pyJoin, List.concat_eq_append] at he
    have he' : (u ++ divider ++ (c ++ divider ++ g')) ++ [e] = pre ++ [d] := by simpa using he
    obtain ⟨-, e2⟩ := List.append_inj' he' rfl
    simp at e2; subst e2
    exact h ⟨g', e, by simp, hd⟩

/-- C03, in terms of the three identifiers. -/
theorem C03_session_id_roundtrip_triple (C : Cipher) (nonce : Nat) (rnd u c g : Str)
    (hu : ';' ∉ u) (hc : ';' ∉ c) (hg : ';' ∉ g) (hne : g ≠ []) (hws : ¬ EndsInSpace g) :
    decryptSessionId C (encryptedSessionId C nonce rnd [u, c, g]) = .ok [u, c, g] :=
  C03_session_id_roundtrip C nonce rnd _ (by simp)
    (separable_of_no_semicolon (by simp [hu, hc, hg])) (not_endsInSpace_key u c g hne hws)

/-- C03. What does not decrypt raises ValueError. -/
theorem C03_garbage_refused (C : Cipher) (s : Str) (h : C.dec s = none) :
    decryptSessionId C s = .error .valueError := by
  simp [decryptSessionId, cryptDecrypt, h]

/-- C03. An id ending in white space does not survive the round trip. -/
theorem C03_trailing_space_lost (C : Cipher) (nonce : Nat) (rnd : Str) :
    decryptSessionId C (encryptedSessionId C nonce rnd ["u".toList, "c".toList, "g ".toList]) =
      .ok ["u".toList, "c".toList, "g".toList] := by
  unfold decryptSessionId cryptDecrypt encryptedSessionId cryptEncrypt
  simp only [C.dec_enc, Option.map_some]
  rw [lvUnpack_lvPack_pad _ (by simp)]
  simp only [trimLast]
  exact congrArg Except.ok (by decide)

/-- A cipher: prefix the text. -/
def toyCipher : Cipher where
  enc _ p := 'E' :: p
  dec s := match s with | 'E' :: p => some p | _ => none
  dec_enc _ _ := rfl

example : decryptSessionId toyCipher (encryptedSessionId toyCipher 0 "rnd".toList
    ["diana".toList, "client_1".toList, "b2c9".toList]) =
    .ok ["diana".toList, "client_1".toList, "b2c9".toList] :=
  C03_session_id_roundtrip_triple _ _ _ _ _ _ (by decide) (by decide) (by decide) (by decide)
    (by rintro ⟨p, c, hc, hs⟩
        have : c = '9' := by have := congrArg List.getLast? hc; simpa using this.symm
        subst this; simp [pyIsSpace] at hs)

example : toyCipher.dec "garbage".toList = none := by decide

/-! ## C04 -/

/-- C04, refuted in general: a user id may be the storage key of another user's client session, and
a user id ending in `;` clashes as well. -/
theorem C04_distinct_paths_distinct_keys_refuted :
    (∃ p q : List Str, p ≠ q ∧ p.length = 1 ∧ q.length = 2 ∧ sessionKey p = sessionKey q) ∧
    (∃ p q : List Str, p ≠ q ∧ p.length = 2 ∧ q.length = 2 ∧ sessionKey p = sessionKey q ∧
      (∀ x ∈ p ++ q, ¬ ContainsDivider x)) := by
  refine ⟨⟨["diana;;client_1".toList], ["diana".toList, "client_1".toList], by decide, rfl, rfl,
    by decide⟩, ⟨["a;".toList, "b".toList], ["a".toList, ";b".toList], by decide, rfl, rfl,
    by decide, ?_⟩⟩
  intro x hx
  simp at hx
  rcases hx with rfl | rfl | rfl | rfl <;>
    (rintro ⟨a, b, h⟩
     have hm : divider.isInfixOf_internal _ = true :=
       List.isInfixOf_internal_iff_isInfix.2 ⟨a, b, by simpa [divider] using h.symm⟩
     revert hm; decide)

/-- C04, partial: paths of separable identifiers (in particular of identifiers without `;`) of any
lengths never share a key. -/
theorem C04_distinct_paths_distinct_keys_partial {p q : List Str} (hp : Separable p)
    (hq : Separable q) (hpn : p ≠ []) (hqn : q ≠ []) (h : sessionKey p = sessionKey q) : p = q := by
  rw [← split_join_of_separable p hpn hp, ← split_join_of_separable q hqn hq, h]

example : Separable ["diana".toList] ∧ Separable ["diana".toList, "client_1".toList] :=
  ⟨separable_of_no_semicolon (by decide), separable_of_no_semicolon (by decide)⟩

end OidcOp
