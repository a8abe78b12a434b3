/-
C90: the credentials that registration gives out authenticate the client until they expire.
-/
import Verif.Spec.RegisteredAuth
import Verif.Props.RegistrationAnswer
import Verif.Props.ClientAuthn

namespace OidcOp
open Spec

theorem authnDb_get? (s : RegState) (c : String) :
    (authnDb s).get? c = (s.cdb.get? c).map (fun ci => .info (authnClientOf ci)) := by
  unfold authnDb
  induction s.cdb with
  | nil => rfl
  | cons x t ih =>
    obtain ⟨a, v⟩ := x
    rw [List.map_cons, Dict.get?_cons, Dict.get?_cons]
    by_cases e : a = c
    · rw [if_pos e, if_pos e]; rfl
    · rw [if_neg e, if_neg e, ih]

theorem basicAuthn_of {C : AuthnCtx} {header : Option String} {id secret : String}
    (h : BasicCredentials C header id secret) :
    ∃ tok, afterPrefix "Basic " header = some tok ∧ basicAuthn C tok = some (id, secret) := by
  obtain ⟨tok, i, s, rfl, h2, h3, h4, rfl, rfl⟩ := h
  refine ⟨tok, ?_, ?_⟩
  · unfold afterPrefix
    simp only [String.toList_ofList]
    rw [if_pos (by simp)]
    rfl
  · unfold basicAuthn
    rw [h2]
    have := pySplit1_join ':' [i, s] (by simp) (by simp [h3, h4])
    simp only [pyJoin, List.append_assoc, List.cons_append, List.nil_append] at this
    simp only [this]

theorem inForce_check {C : AuthnCtx} {c : String} (h : InForce C.cdb C.now c) : checkClient C c = .ok () := by
  obtain ⟨info, hi, hx⟩ := h
  unfold checkClient
  rw [hi]
  have : validClientInfo C.now info = true := by
    unfold validClientInfo
    simp only [Bool.not_eq_true', Bool.and_eq_false_iff, bne_eq_false_iff_eq, decide_eq_false_iff_not]
    rcases hx with hx | hx
    · exact .inl hx
    · exact .inr (by omega)
  simp only [this, if_true]

/-- C49.  The right id and secret of a client whose secret is in force are accepted in the header, whatever else the request
has. -/
theorem C49_right_basic (C : AuthnCtx) (ms : List (Option CAuthn)) (getId : Option (String → AuthnReq → Except Exc String))
    (req : AuthnReq) (header : Option String) (seen : List String) (c s : String) (hb : BasicCredentials C header c s)
    (hs : HasSecret C.cdb c s) (hv : InForce C.cdb C.now c) (hne : c ≠ "") :
    verifyClient C (some .basic :: ms) getId req header seen =
      (.ok (some { clientId := some c, method := "client_secret_basic" }), seen) := by
  obtain ⟨tok, h1, h2⟩ := basicAuthn_of hb
  have hm := secretMatches_iff.2 hs
  have hk := inForce_check hv
  simp [verifyClient, tryMethods, CAuthn.usable, CAuthn.verify, h1, h2, hm, CAuthn.tag, finishClient, truthyStr, hne, hk,
    Except.map]

/-- What the answer to a registration says is what is kept. -/
theorem issued_kept {C : RegConf} {d : RegDraw} {req args : Dict Json} {s s' : RegState}
    (h : register C true true d req s = some (.ok args, s'))
    (hp : "client_id" ∈ C.respParams) (hp1 : "client_secret" ∈ C.respParams) (hp2 : "client_secret_expires_at" ∈ C.respParams)
    {id secret : String} (hi : Issued args id secret) :
    ∃ ci, s.cdb.get? id = none ∧ s'.cdb.get? id = some ci ∧ (authnClientOf ci).secret = some secret ∧
      (∀ t, args.get? "client_secret_expires_at" = some (.num t) → (authnClientOf ci).expiresAt = t) ∧
      ((∀ t, args.get? "client_secret_expires_at" ≠ some (.num t)) → (authnClientOf ci).expiresAt = 0) := by
  obtain ⟨cid, hc1, hc2, ci0, hc3, -⟩ := C52_fresh_id C true d req args s s' hp h
  rw [hi.1] at hc1
  cases hc1
  rcases register_cases h with ⟨⟨e, he⟩, -⟩ | ⟨req1, req2, cid, hv, -, hid, h⟩
  · cases he
  · obtain ⟨-, hf, rfl⟩ := chooseId_new hid
    rcases h with ⟨⟨e, he⟩, -⟩ | ⟨args', ci, he, hci, ha, -, -, hcdb⟩
    · cases he
    · cases he
      have hcid : cid = id := by
        by_cases e : cid = id
        · exact e
        · rw [hcdb, Dict.get?_set_ne _ _ e, Dict.get?_set_ne _ _ e, hc2] at hc3
          cases hc3
      subst hcid
      have hnd := List.Nodup.sublist (erase_keys_sublist req1 "client_id") (C.lib.verify_nodup hv)
      have isJson : ∀ k, k = "client_secret" ∨ k = "client_secret_expires_at" → ∀ v, ci.get? k = some v → ∃ j, v = .json j := by
        intro k hk v hv
        rw [makeRecord_copied' hci hnd (by rcases hk with rfl | rfl <;> decide)
          (by rcases hk with rfl | rfl <;> decide)] at hv
        split at hv
        · cases hv; exact ⟨_, rfl⟩
        · have hin : ∀ p ∈ initialRecord C true true d cid, ∃ j, p.2 = .json j := by
            intro p hp
            unfold initialRecord at hp
            simp only [List.mem_append] at hp
            rcases hp with ((hp | hp) | hp) | hp
            · simp at hp; rcases hp with rfl | rfl <;> exact ⟨_, rfl⟩
            · cases hr : C.readPath with
              | none => rw [hr] at hp; simp at hp
              | some q => rw [hr] at hp; simp at hp; rcases hp with rfl | rfl <;> exact ⟨_, rfl⟩
            · simp at hp; subst hp; exact ⟨_, rfl⟩
            · simp only [if_true, List.mem_cons] at hp
              rcases hp with rfl | hp
              · exact ⟨_, rfl⟩
              · generalize (if C.secretExpires = true then d.now + C.secretExpiresIn else 0) = eat at hp
                by_cases he : eat ≠ 0
                · rw [if_pos he] at hp
                  simp only [List.mem_singleton] at hp; subst hp; exact ⟨_, rfl⟩
                · rw [if_neg he] at hp
                  simp only [List.not_mem_nil] at hp
          exact hin _ (Dict.get?_mem hv)
      have same : ∀ k, k = "client_secret" ∨ k = "client_secret_expires_at" → k ∈ C.respParams → ∀ j,
          args.get? k = some j ↔ ci.get? k = some (.json j) := by
        intro k hk hkp j
        rcases responseArgs_get? ha hkp with ⟨k1, k2⟩ | ⟨v, j', k1, k2, k3⟩
        · rw [k1, k2]; simp
        · obtain ⟨j2, rfl⟩ := isJson k hk v k1
          cases k3
          rw [k1, k2]; simp
      refine ⟨ci, hc2, by rw [hcdb]; simp, ?_, ?_, ?_⟩
      · unfold authnClientOf
        simp only [(same _ (.inl rfl) hp1 _).1 hi.2]
      · intro t ht
        unfold authnClientOf
        simp only [(same _ (.inr rfl) hp2 _).1 ht]
      · intro hn
        unfold authnClientOf
        simp only []
        split
        · rename_i n hq
          exact absurd ((same _ (.inr rfl) hp2 _).2 hq) (hn n)
        · rfl

/-- C90.  Through any later registrations: the id and the secret from the answer to a registration authenticate the client, in
the header or in the body, as long as the secret is good by this answer. -/
theorem C90_works (C : RegConf) (d : RegDraw) (req args : Dict Json) (s s' : RegState)
    (hp : "client_id" ∈ C.respParams) (hp1 : "client_secret" ∈ C.respParams) (hp2 : "client_secret_expires_at" ∈ C.respParams)
    (h : register C true true d req s = some (.ok args, s')) (id secret : String) (hi : Issued args id secret) (hne : id ≠ "")
    (calls : List RegCall) (X : AuthnCtx) (hX : X.cdb = authnDb (regHistory C s' calls)) (hg : GoodAt args X.now)
    (getId : Option (String → AuthnReq → Except Exc String)) (q : AuthnReq) (header : Option String)
    (hc : PresentsSecret X q header id secret) (seen : List String) :
    ∃ r, verifyClient X [some .basic, some .post] getId q header seen = (.ok (some r), seen) ∧ r.clientId = some id := by
  obtain ⟨ci, -, h2, h3, h4, h5⟩ := issued_kept h hp hp1 hp2 hi
  have hk : X.cdb.get? id = some (.info (authnClientOf ci)) := by
    rw [hX, authnDb_get?, (C52_history C s' calls id ci h2).1]; rfl
  have hs : HasSecret X.cdb id secret := ⟨_, hk, h3⟩
  have hf : InForce X.cdb X.now id := by
    refine ⟨_, hk, ?_⟩
    by_cases ht : ∃ t, args.get? "client_secret_expires_at" = some (.num t)
    · obtain ⟨t, ht⟩ := ht
      rw [h4 t ht]
      exact hg t ht
    · exact .inl (h5 (fun t e => ht ⟨t, e⟩))
  rcases hc with hc | ⟨rfl, hc⟩
  · exact ⟨_, C49_right_basic X _ getId q header seen id secret hc hs hf hne, rfl⟩
  · exact ⟨_, C49_right_secret_partial X getId q seen id secret hc hs hf hne, rfl⟩

/-- C90.  When the time in the answer is over, nothing a request brings authenticates the client any more, with whatever
methods; bearer tokens that lead to the client are the only exception. -/
theorem C90_expires (C : RegConf) (d : RegDraw) (req args : Dict Json) (s s' : RegState)
    (hp : "client_id" ∈ C.respParams) (hp1 : "client_secret" ∈ C.respParams) (hp2 : "client_secret_expires_at" ∈ C.respParams)
    (h : register C true true d req s = some (.ok args, s')) (id secret : String) (hi : Issued args id secret) (hne : id ≠ "")
    (calls : List RegCall) (X : AuthnCtx) (hX : X.cdb = authnDb (regHistory C s' calls)) (hg : ¬ GoodAt args X.now)
    (ms : List (Option CAuthn)) (q : AuthnReq) (header : Option String) (seen : List String) (r : AuthInfo)
    (hr : (verifyClient X ms none q header seen).1 = .ok (some r)) : r.clientId ≠ some id := by
  intro hid
  obtain ⟨ci, -, h2, h3, h4, -⟩ := issued_kept h hp hp1 hp2 hi
  have hk : X.cdb.get? id = some (.info (authnClientOf ci)) := by
    rw [hX, authnDb_get?, (C52_history C s' calls id ci h2).1]; rfl
  rcases C49_every_method_partial X ms none q header seen _ r id hid hne (Prod.ext hr rfl) with ⟨⟨c, k1, k2⟩, -⟩ | ⟨f, t, e, -⟩
  · rw [hk] at k1
    cases k1
    refine hg (fun t ht => ?_)
    rw [h4 t ht] at k2
    exact k2
  · cases e

/-- C90.  With the methods that use the secret itself, only the secret from the answer authenticates the client. -/
theorem C90_only_this_secret (C : RegConf) (d : RegDraw) (req args : Dict Json) (s s' : RegState)
    (hp : "client_id" ∈ C.respParams) (hp1 : "client_secret" ∈ C.respParams) (hp2 : "client_secret_expires_at" ∈ C.respParams)
    (h : register C true true d req s = some (.ok args, s')) (id secret : String) (hi : Issued args id secret) (hne : id ≠ "")
    (calls : List RegCall) (X : AuthnCtx) (hX : X.cdb = authnDb (regHistory C s' calls)) (q : AuthnReq)
    (header : Option String) (seen : List String) (r : AuthInfo)
    (hr : (verifyClient X [some .basic, some .post] none q header seen).1 = .ok (some r)) (hid : r.clientId = some id) :
    (BasicCredentials X header id secret ∨ PostCredentials q id secret) ∧ GoodAt args X.now := by
  obtain ⟨ci, -, h2, h3, h4, -⟩ := issued_kept h hp hp1 hp2 hi
  have hk : X.cdb.get? id = some (.info (authnClientOf ci)) := by
    rw [hX, authnDb_get?, (C52_history C s' calls id ci h2).1]; rfl
  have hu : ∀ x, HasSecret X.cdb id x → x = secret := by
    rintro x ⟨c, k1, k2⟩
    rw [hk] at k1
    cases k1
    rw [h3] at k2
    exact (Option.some.inj k2).symm
  rcases C49_every_method_partial X _ none q header seen _ r id hid hne (Prod.ext hr rfl) with ⟨⟨c, k1, k2⟩, k⟩ | ⟨f, t, e, -⟩
  · refine ⟨?_, ?_⟩
    · rcases k with ⟨-, x, a, b⟩ | ⟨-, x, a, b⟩ | ⟨k, -⟩ | ⟨k, -⟩ | ⟨k, -⟩ | ⟨k, -⟩ | ⟨k, -⟩
      · exact .inl (hu x b ▸ a)
      · exact .inr (hu x b ▸ a)
      all_goals simp at k
    · intro t ht
      rw [hk] at k1
      cases k1
      rw [h4 t ht] at k2
      exact k2
  · cases e

/-- C90 (partial), the configured lifetime.  The secret of a client whose registration request brings neither a secret nor an
expiry time is the one that was drawn, and is accepted no longer than secrets are configured to live.  (Missing: other
requests, see `C90_lifetime_refuted`.) -/
theorem C90_lifetime_partial (C : RegConf) (d : RegDraw) (req req1 args : Dict Json) (s s' : RegState)
    (hp : "client_id" ∈ C.respParams) (hp1 : "client_secret" ∈ C.respParams) (hp2 : "client_secret_expires_at" ∈ C.respParams)
    (hv : C.lib.verify req = .ok req1) (hk1 : req1.get? "client_secret" = none)
    (hk2 : req1.get? "client_secret_expires_at" = none) (hx : C.secretExpires = true) (h0 : 0 < d.now + C.secretExpiresIn)
    (h : register C true true d req s = some (.ok args, s')) (id secret : String) (hi : Issued args id secret) (hne : id ≠ "")
    (calls : List RegCall) (X : AuthnCtx) (hX : X.cdb = authnDb (regHistory C s' calls)) (q : AuthnReq)
    (header : Option String) (seen : List String) (r : AuthInfo)
    (hr : (verifyClient X [some .basic, some .post] none q header seen).1 = .ok (some r)) (hid : r.clientId = some id) :
    (BasicCredentials X header id d.secret ∨ PostCredentials q id d.secret) ∧ X.now ≤ d.now + C.secretExpiresIn := by
  obtain ⟨k1, k2⟩ := C90_only_this_secret C d req args s s' hp hp1 hp2 h id secret hi hne calls X hX q header seen r hr hid
  obtain ⟨cid, ci, -, -, k3, -, k4, -⟩ := C79_secret C d req req1 args s s' hv h hp1 hp2 hk1 hk2
  have hs : secret = d.secret := by
    have := hi.2
    rw [k3] at this
    cases this; rfl
  rw [← hs]
  refine ⟨k1, ?_⟩
  rcases k2 _ (k4 hx (by omega)).1 with k | k
  · omega
  · exact k

end OidcOp

namespace OidcOp.Ex
open OidcOp Spec

theorem reg3_eq : register regConf2 true true regDraw regReq reg0 = some (.ok reg3.1, reg3.2) := by decide +kernel

/-- Authentication after the registration of the examples and a later one, at a time. -/
def regAuth (now : Int) : AuthnCtx :=
  { cdb := authnDb (regHistory regConf2 reg3.2 [⟨regDraw2, regReq⟩]), now := now, targets := [], decode := some,
    unquote := String.ofList, unpack := fun _ => none }

/-- C90: the credentials are good up to 2593000 and not after it; others are never good. -/
example : Issued reg3.1 "rp1" "s3cret" ∧
    ((verifyClient (regAuth 2593000) [some .basic, some .post] none {} (some "Basic rp1:s3cret") []).1.toOption.map
      (fun r => r.bind (·.clientId))) = some (some "rp1") ∧
    (verifyClient (regAuth 2593001) [some .basic, some .post] none {} (some "Basic rp1:s3cret") []).1 =
      .error (.other "InvalidClient") ∧
    (verifyClient (regAuth 2000) [some .basic, some .post] none {} (some "Basic rp1:s2") []).1 = .ok none := by
  refine ⟨⟨by decide +kernel, by decide +kernel⟩, by decide +kernel, by decide +kernel, by decide +kernel⟩

example : GoodAt reg3.1 2593000 ∧ ¬ GoodAt reg3.1 2593001 := by
  have : reg3.1.get? "client_secret_expires_at" = some (.num 2593000) := by decide +kernel
  refine ⟨fun t ht => ?_, fun h => ?_⟩
  · rw [this] at ht; cases ht; exact .inr (by decide)
  · rcases h _ this with h | h <;> exact absurd h (by decide)

/-- A request that brings a secret and its expiry time. -/
def regOwn : Dict Json := regReq ++ [("client_secret", .str "mine"), ("client_secret_expires_at", .num 99999999)]

def reg4 : Dict Json × RegState :=
  match register regConf2 true true regDraw regOwn reg0 with
  | some (.ok a, s) => (a, s)
  | _ => default

/-- C90 is false of the code as far as the provider's configuration goes: a client that says so in its registration request
has the secret of its choice and keeps it as long as it wants, whatever lifetime is configured for secrets.  Members of the request that
are not ignored are copied over those that were drawn (oidc/registration.py:179-181). -/
theorem C90_lifetime_refuted :
    ¬ (∀ (C : RegConf) (d : RegDraw) (req args : Dict Json) (s s' : RegState) (id secret : String) (X : AuthnCtx) (q : AuthnReq)
      (header : Option String) (r : AuthInfo), C.secretExpires = true →
      register C true true d req s = some (.ok args, s') → Issued args id secret →
      X.cdb = authnDb s' → (verifyClient X [some .basic, some .post] none q header []).1 = .ok (some r) →
      r.clientId = some id → secret = d.secret ∧ X.now ≤ d.now + C.secretExpiresIn) := by
  intro h
  have := (h regConf2 regDraw regOwn reg4.1 reg0 reg4.2 "rp1" "mine"
    { regAuth 9999999 with cdb := authnDb reg4.2 } {} (some "Basic rp1:mine")
    { clientId := some "rp1", method := "client_secret_basic" } rfl (by decide +kernel)
    ⟨by decide +kernel, by decide +kernel⟩ rfl (by decide +kernel) rfl).1
  exact absurd this (by decide)

end OidcOp.Ex
