/-
C79: the answer to a registration tells what was registered.
-/
import Verif.Props.RegistrationExamples

namespace OidcOp
open Spec

/-- A member of the record that is shown in answers. -/
theorem responseArgs_get? {C : RegConf} {ci : Cinfo} {args : Dict Json} (h : responseArgs C ci = .ok args) {k : String}
    (hk : k ∈ C.respParams) :
    (ci.get? k = none ∧ args.get? k = none) ∨ ∃ v j, ci.get? k = some v ∧ args.get? k = some j ∧
      combVal C.lib.toUriLib v = .ok j := by
  unfold responseArgs at h
  have hf : Dict.get? (ci.filter (fun p => C.respParams.contains p.1)) k = ci.get? k := by
    rw [filter_get? ci (fun k => C.respParams.contains k), if_pos (by simpa using hk)]
  rcases combAll_get? h k with ⟨h1, h2⟩ | ⟨v, j, h1, h2, h3⟩
  · exact .inl ⟨hf ▸ h1, h2⟩
  · exact .inr ⟨v, j, hf ▸ h1, h2, h3⟩

/-- C79.  The redirect URIs in the answer to a web client's registration are those of the request, one by one and in their
order: each has the base and the query parameters of the one in the request, provided writing out the query of a URI of the
request and parsing it again gives the same parameters. -/
theorem C79_redirect_uris (C : RegConf) (setSecret : Bool) (d : RegDraw) (req req1 args : Dict Json) (s s' : RegState)
    (hp : "redirect_uris" ∈ C.respParams) (hv : C.lib.verify req = .ok req1) (hw : IsWeb req1)
    (h : register C true setSecret d req s = some (.ok args, s')) (us : List String)
    (hu : req1.get? "redirect_uris" = some (.arr (us.map .str)))
    (hj : ∀ u ∈ us, ∀ b q, C.lib.split u = (b, q) →
      (q = [] → C.lib.split b = (b, [])) ∧ (q ≠ [] → C.lib.split (b ++ "?" ++ C.lib.urlencode q) = (b, q))) :
    ∃ vs : List String, args.get? "redirect_uris" = some (.arr (vs.map .str)) ∧ vs.length = us.length ∧
      ∀ (i : Nat) (u v : String), us[i]? = some u → vs[i]? = some v → C.lib.split v = C.lib.split u := by
  rcases register_cases h with ⟨⟨e, he⟩, -⟩ | ⟨req1', req2, cid, hv', -, hid, h⟩
  · cases he
  · rw [hv] at hv'
    cases hv'
    obtain ⟨-, hf, rfl⟩ := chooseId_new hid
    rcases h with ⟨⟨e, he⟩, -⟩ | ⟨args', ci, he, hci, ha, -, -, hcdb⟩
    · cases he
    · cases he
      have hu' : (req1.erase "client_id").get? "redirect_uris" = some (.arr (us.map .str)) := by
        rw [Dict.get?_erase_ne _ (by decide)]; exact hu
      rcases makeRecord_redirects hci (List.Nodup.sublist (erase_keys_sublist _ _) (C.lib.verify_nodup hv)) with
        ⟨h6, -⟩ | ⟨us', rs, h6, h7, h8⟩
      · rw [hu'] at h6; cases h6
      · rw [hu'] at h6
        simp only [Option.some.injEq, Json.arr.injEq] at h6
        have hus : us = us' := by
          have := congrArg strList h6
          rw [(strList_iff _ us).2 rfl, (strList_iff _ us').2 rfl] at this
          exact Option.some.inj this
        subst hus
        have hw' : IsWeb (req1.erase "client_id") := by
          unfold IsWeb
          rw [Dict.get?_erase_ne _ (by decide)]; exact hw
        obtain ⟨-, rfl⟩ := (C55_web _ _ hw' _ _).1 h7
        rcases responseArgs_get? ha hp with ⟨h9, -⟩ | ⟨v, j, h9, h10, h11⟩
        · rw [h8] at h9; cases h9
        · rw [h8] at h9
          cases h9
          simp only [combVal, Except.ok.injEq] at h11
          subst h11
          refine ⟨us.map (fun u => joinQuery C.lib.toUriLib (C.lib.split u).1 (C.lib.split u).2), ?_, by simp, ?_⟩
          · rw [h10]
            simp only [List.map_map]
            rfl
          · intro i u v h1 h2
            rw [List.getElem?_map, h1] at h2
            cases h2
            have hj := hj u (List.mem_of_getElem? h1) _ _ rfl
            show C.lib.split (joinQuery C.lib.toUriLib (C.lib.split u).1 (C.lib.split u).2) = C.lib.split u
            unfold joinQuery
            by_cases he : (C.lib.split u).2 = []
            · rw [if_pos (List.isEmpty_iff.2 he), hj.1 he, ← he]
            · rw [if_neg (fun e => he (List.isEmpty_iff.1 e))]
              exact hj.2 he

/-- C79.  A member of the request that registration does not look into is in the answer as it was in the request. -/
theorem C79_copied (C : RegConf) (setSecret : Bool) (d : RegDraw) (req req1 args : Dict Json)
    (s s' : RegState) (hv : C.lib.verify req = .ok req1)
    (h : register C true setSecret d req s = some (.ok args, s')) (k : String) (v : Json) (hk : req1.get? k = some v)
    (hp : k ∈ C.respParams)
    (hn : k ∉ ["client_id", "post_logout_redirect_uri", "redirect_uris", "request_uris", "si_redirects", "sector_id",
      "policy_uri", "logo_uri", "tos_uri", "id_token_signed_response_alg", "userinfo_signed_response_alg"]) :
    args.get? k = some v := by
  rcases register_cases h with ⟨⟨e, he⟩, -⟩ | ⟨req1', req2, cid, hv', -, hid, h⟩
  · cases he
  · rw [hv] at hv'
    cases hv'
    obtain ⟨-, hf, rfl⟩ := chooseId_new hid
    rcases h with ⟨⟨e, he⟩, -⟩ | ⟨args', ci, he, hci, ha, -, -, hcdb⟩
    · cases he
    · cases he
      simp only [List.mem_cons, List.not_mem_nil, or_false, not_or] at hn
      have hc : ci.get? k = some (.json v) := by
        rw [makeRecord_copied' hci (List.Nodup.sublist (erase_keys_sublist _ _) (C.lib.verify_nodup hv))
          (by simp [checkedNames, hn]) ⟨hn.2.2.2.2.2.2.2.2.2.1, hn.2.2.2.2.2.2.2.2.2.2⟩,
          Dict.get?_erase_ne _ (Ne.symm hn.1), hk]
      rcases responseArgs_get? ha hp with ⟨h9, -⟩ | ⟨v', j, h9, h10, h11⟩
      · rw [hc] at h9; cases h9
      · rw [hc] at h9
        cases h9
        cases h11
        exact h10

/-- C79.  A client that brings no secret of its own is told the secret that was drawn for it and when it ends, and these are
what the provider keeps for it. -/
theorem C79_secret (C : RegConf) (d : RegDraw) (req req1 args : Dict Json) (s s' : RegState)
    (hv : C.lib.verify req = .ok req1) (h : register C true true d req s = some (.ok args, s'))
    (hp : "client_secret" ∈ C.respParams) (hp' : "client_secret_expires_at" ∈ C.respParams)
    (hk : req1.get? "client_secret" = none) (hk' : req1.get? "client_secret_expires_at" = none) :
    ∃ cid ci, s.cdb.get? cid = none ∧ s'.cdb.get? cid = some ci ∧
      args.get? "client_secret" = some (.str d.secret) ∧ ci.get? "client_secret" = some (.json (.str d.secret)) ∧
      (C.secretExpires = true → d.now + C.secretExpiresIn ≠ 0 →
        args.get? "client_secret_expires_at" = some (.num (d.now + C.secretExpiresIn)) ∧
        ci.get? "client_secret_expires_at" = some (.json (.num (d.now + C.secretExpiresIn)))) ∧
      (C.secretExpires = false → args.get? "client_secret_expires_at" = none) := by
  rcases register_cases h with ⟨⟨e, he⟩, -⟩ | ⟨req1', req2, cid, hv', -, hid, h⟩
  · cases he
  · rw [hv] at hv'
    cases hv'
    obtain ⟨-, hf, rfl⟩ := chooseId_new hid
    rcases h with ⟨⟨e, he⟩, -⟩ | ⟨args', ci, he, hci, ha, -, -, hcdb⟩
    · cases he
    · cases he
      have hnd := List.Nodup.sublist (erase_keys_sublist req1 "client_id") (C.lib.verify_nodup hv)
      have e1 := makeRecord_kept hci hnd (k := "client_secret") (by rw [Dict.get?_erase_ne _ (by decide)]; exact hk)
        (.inr ⟨by decide, by decide⟩)
      have e2 := makeRecord_kept hci hnd (k := "client_secret_expires_at")
        (by rw [Dict.get?_erase_ne _ (by decide)]; exact hk') (.inr ⟨by decide, by decide⟩)
      have i1 : (initialRecord C true true d cid).get? "client_secret" = some (.json (.str d.secret)) := by
        unfold initialRecord
        cases C.readPath <;> rfl
      have i2 : (initialRecord C true true d cid).get? "client_secret_expires_at" =
          if (if C.secretExpires then d.now + C.secretExpiresIn else 0) ≠ 0 then
            some (.json (.num (if C.secretExpires then d.now + C.secretExpiresIn else 0))) else none := by
        unfold initialRecord
        generalize (if C.secretExpires then d.now + C.secretExpiresIn else 0) = eat
        by_cases he : eat ≠ 0
        · simp only [if_pos he]; cases C.readPath <;> rfl
        · simp only [if_neg he]; cases C.readPath <;> rfl
      refine ⟨cid, ci, (Dict.get?_eq_none_iff _ _).2 hf, by rw [hcdb]; simp, ?_, e1.trans i1, ?_, ?_⟩
      · rcases responseArgs_get? ha hp with ⟨h9, -⟩ | ⟨v', j, h9, h10, h11⟩
        · rw [e1, i1] at h9; cases h9
        · rw [e1, i1] at h9; cases h9; cases h11; exact h10
      · intro hs hne
        rw [if_pos hs, if_pos hne] at i2
        refine ⟨?_, e2.trans i2⟩
        rcases responseArgs_get? ha hp' with ⟨h9, -⟩ | ⟨v', j, h9, h10, h11⟩
        · rw [e2, i2] at h9; cases h9
        · rw [e2, i2] at h9; cases h9; cases h11; exact h10
      · intro hs
        rw [hs] at i2
        simp only [Bool.false_eq_true, if_false, ne_eq, not_true_eq_false] at i2
        rcases responseArgs_get? ha hp' with ⟨-, h9⟩ | ⟨v', j, h9, h10, h11⟩
        · exact h9
        · rw [e2, i2] at h9; cases h9

namespace Ex

/-- The registration of the examples: two redirect URIs, one with a query. -/
example : ∃ vs : List String, regArgs.get? "redirect_uris" = some (.arr (vs.map .str)) ∧ vs.length = 2 ∧
    ∀ (i : Nat) (u v : String), ["https://rp/cb?x=1", "https://rp/other"][i]? = some u → vs[i]? = some v → regLib.split v = regLib.split u :=
  C79_redirect_uris regConf true regDraw regReq regReq regArgs reg0 reg1 (by decide) (by decide +kernel) (.inl (by decide +kernel))
    reg1_eq ["https://rp/cb?x=1", "https://rp/other"] (by decide +kernel) (by
      have h : ∀ u ∈ ["https://rp/cb?x=1", "https://rp/other"],
          ((regLib.split u).2 = [] → regLib.split (regLib.split u).1 = ((regLib.split u).1, [])) ∧
          ((regLib.split u).2 ≠ [] → regLib.split ((regLib.split u).1 ++ "?" ++ regLib.urlencode (regLib.split u).2) =
            regLib.split u) := by decide +kernel
      intro u hu b q e
      have h := h u hu
      have e : regLib.split u = (b, q) := e
      rw [e] at h
      exact h)

example : regArgs.get? "client_name" = some (.str "my") :=
  C79_copied regConf true regDraw regReq regReq regArgs reg0 reg1 (by decide +kernel) reg1_eq "client_name" _ (by decide +kernel)
    (by decide) (by decide)

/-- The same provider, telling when a secret ends. -/
def regConf2 : RegConf := { regConf with respParams := "client_secret_expires_at" :: regConf.respParams }

def reg3 : Dict Json × RegState :=
  match register regConf2 true true regDraw regReq reg0 with
  | some (.ok a, s) => (a, s)
  | _ => default

example : reg3.1.get? "client_secret_expires_at" = some (.num 2593000) := by
  obtain ⟨cid, ci, -, -, -, -, h, -⟩ := C79_secret regConf2 regDraw regReq regReq reg3.1 reg0 reg3.2 (by decide +kernel)
    (by decide +kernel) (by decide) (by decide) (by decide +kernel) (by decide +kernel)
  exact (h rfl (by decide)).1

end Ex

end OidcOp
