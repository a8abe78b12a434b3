/-
C83: request objects passed by reference are fetched from registered places and have to be signed by the client with an
algorithm it may use.
C84: what a request object says cannot be changed by the request that refers to it.
-/
import Verif.Lemmas.RequestObject
import Verif.Props.ProviderExamples

namespace OidcOp
open Spec

/-- C83: a reference to a request object passes exactly if objects are taken from that place, and the object there is signed
with a key of the client, or openly unsigned, with an algorithm the client may use.  PARTIAL: encrypted objects pass only if
the algorithm of the signature may be used to encrypt, and the names of algorithms must not be parts of one another. -/
theorem C83_object_partial (p : Prov) (F : ObjectLib) (client uri : String) (req : AuthzReq) (s : PState)
    (href : RefersTo p req uri) (hpl : PlainAlgs F client) :
    (∃ r, (doRequestUri (p.withObjects F) client req s).1 = .ok r) ↔
      FetchesFrom p client uri ∧ ∃ o, GoodObject F client uri o ∧ (o.jwe = true → OddlyEncrypted F client o) := by
  obtain ⟨_, ⟨h1, h2⟩ | ⟨h1, e, h2⟩⟩ := doRequestUri_refers (F := F) (client := client) s href
  · rw [h2]
    constructor
    · rintro ⟨r, hr⟩
      obtain ⟨o, k1, k2, _⟩ := (fetchObject_iff hpl req r).1 hr
      exact ⟨h1, o, k1, k2⟩
    · rintro ⟨_, o, k1, k2⟩
      exact ⟨_, (fetchObject_iff hpl req _).2 ⟨o, k1, k2, rfl⟩⟩
  · rw [h2]
    constructor
    · rintro ⟨r, hr⟩; cases hr
    · rintro ⟨h, _⟩; exact absurd h h1

/-- C83: so whatever authorization request with a reference is accepted, there was such an object. -/
theorem C83_accepted_partial (p : Prov) (F : ObjectLib) (client uri : String) (req r : AuthzReq) (s s' : PState)
    (href : RefersTo p req uri) (hpl : PlainAlgs F client)
    (h : parseAuthz (p.withObjects F) client req s = (.ok (.req r), s')) :
    FetchesFrom p client uri ∧ ∃ o, GoodObject F client uri o := by
  unfold parseAuthz at h
  split at h
  · rename_i r1 s1 h1
    obtain ⟨k1, o, k2, _⟩ := parseRound_object hpl (show RefersTo p { req with clientId := some client } uri from href) h1
    exact ⟨k1, o, k2⟩
  · rename_i hx he
    simp only [Prod.mk.injEq] at h
    obtain ⟨rfl, rfl⟩ := h
    exact absurd rfl (hx _)

/-- C84: an accepted request has everything the request object says, whatever the request that refers to it says, and only
what is not in the object comes from there.  PARTIAL: for objects that do not refer to a further object. -/
theorem C84_protected_partial (p : Prov) (F : ObjectLib) (client uri : String) (req r : AuthzReq) (s s' : PState)
    (href : RefersTo p req uri) (hpl : PlainAlgs F client)
    (h : parseAuthz (p.withObjects F) client req s = (.ok (.req r), s')) :
    ∃ o, GoodObject F client uri o ∧
      (o.says.requestUri = none → Carries o.says r ∧ Completes o.says req r ∧ (o.says.clientId = none → r.clientId = some client)) := by
  unfold parseAuthz at h
  split at h
  · rename_i r1 s1 h1
    obtain ⟨k1, o, k2, _, k3⟩ := parseRound_object hpl (show RefersTo p { req with clientId := some client } uri from href) h1
    refine ⟨o, k2, fun hno => ?_⟩
    have c1 : Carries o.says r1 := k3.carries (overwrite_carries _ _)
    have d1 : Completes o.says { req with clientId := some client } r1 := k3.completes (overwrite_completes _ _)
    have d1' : Completes o.says req r1 := ⟨d1.1, d1.2, d1.3, d1.4, d1.5, d1.6, d1.7, d1.8, d1.9, d1.10, d1.11, d1.12, d1.13, d1.14, d1.15⟩
    have e1 : r1.requestUri = some uri := by
      obtain ⟨_, _, x, y, rfl⟩ := k3
      exact (or_none hno).trans href.1
    have f1 : o.says.clientId = none → r1.clientId = some client := by
      intro hc
      obtain ⟨_, _, x, y, rfl⟩ := k3
      exact or_none hc
    split at h
    · rename_i r2 s2 h2
      simp only [Prod.mk.injEq] at h
      have hs := parsePkce_settled h.1
      have main : Carries o.says r2 ∧ Completes o.says req r2 ∧ (o.says.clientId = none → r2.clientId = some client) := by
        unfold parseAgain at h2
        split at h2
        · obtain ⟨_, o', k2', _, k3'⟩ := parseRound_object hpl (show RefersTo p r1 uri from ⟨e1, href.2⟩) h2
          cases good_unique k2 k2'
          refine ⟨k3'.carries (overwrite_carries _ _), completes_trans d1' (k3'.completes (overwrite_completes _ _)), fun hc => ?_⟩
          obtain ⟨_, _, x, y, rfl⟩ := k3'
          exact (or_none hc).trans (f1 hc)
        · cases h2
          exact ⟨c1, d1', f1⟩
      refine ⟨hs.carries main.1, hs.completes main.2.1, fun hc => ?_⟩
      have hm := main.2.2 hc
      obtain ⟨_, _, x, y, rfl⟩ := hs
      exact hm
    · rename_i hx he
      simp only [Prod.mk.injEq] at h
      obtain ⟨rfl, rfl⟩ := h
      exact absurd rfl (hx _)
  · rename_i hx he
    simp only [Prod.mk.injEq] at h
    obtain ⟨rfl, rfl⟩ := h
    exact absurd rfl (hx _)

namespace Ex

/-- Five places with objects: one that asks for c1's own redirect URI and a nonce, one that is not signed, one that is
signed with "ES256", an encrypted one, and one that names another client. -/
def objects : List (String × ReqObject) :=
  let plain : AuthzReq := { nonce := some "n" }
  let own : AuthzReq := { scope := some ["openid"], responseType := ["code"], redirectUri := some "https://rp/cb", nonce := some "n" }
  let other : AuthzReq := { clientId := some "c2", redirectUri := some "https://rp2/cb" }
  [("https://rp/obj", { says := own, jws := some { alg := some "RS256" } }),
   ("https://rp/none", { says := plain, jws := some { alg := some "none" } }),
   ("https://rp/es", { says := plain, jws := some { alg := some "ES256" } }),
   ("https://rp/enc", { says := plain, jws := some { alg := some "RS256" }, jwe := true }),
   ("https://rp/other", { says := other, jws := some { alg := some "RS256" } })]

def objLib (reg : Option Algs) : ObjectLib where
  get uri := match objects.lookup uri with | some _ => .ok (200, uri) | none => .ok (404, "")
  fromJwt _ text := match objects.lookup text with | some o => .ok o | none => .error .valueError
  verified _ text := match objects.lookup text with
    | some o => (match o.jws with | some h => decide (h.alg ≠ some "none") | none => true)
    | none => false
  registered _ use := match use with
    | .sign => reg
    | .encAlg => some (.one "RSA-OAEP")
    | .encEnc => some (.one "A128GCM")
  supported use := match use with
    | .sign => some (.many ["RS256", "ES256"])
    | _ => some (.many [])
  fromJwt_verified := by
    intro c t o h h1 h2 h3
    cases hl : objects.lookup t with
    | none => rw [hl] at h1; cases h1
    | some o' =>
      rw [hl] at h1
      cases h1
      simp only [h2]
      exact decide_eq_true h3

/-- `c1` has registered where its objects are, `c2` has not. -/
def provObj : Prov :=
  { prov with
    clients := [("c1", { redirectUris := some [.pair "https://rp/cb" []], responseTypes := ["code"],
                         requestUris := some ["https://rp/obj", "https://rp/none", "https://rp/es", "https://rp/enc", "https://rp/other"] }),
                ("c2", { redirectUris := some [.pair "https://rp2/cb" []], responseTypes := ["code"] })] }

def refReq (uri : String) : AuthzReq := { clientId := some "c1", responseType := ["code"], requestUri := some uri, nonce := some "x" }

/-- The provider with its request objects. -/
abbrev pobj (reg : Option Algs) : Prov := provObj.withObjects (objLib reg)

/-- The nonce in the object is used, not the one in the request. -/
example : (match (parseAuthz (pobj (some (.one "RS256"))) "c1" (refReq "https://rp/obj") {}).1 with
      | .ok (.req r) => (r.nonce, r.clientId, r.redirectUri)
      | _ => (none, none, none)) = (some "n", some "c1", some "https://rp/cb") := by decide +kernel

theorem plain_objLib : PlainAlgs (objLib (some (.one "RS256"))) "c1" := by
  intro text o h h1 h2 a ha use s hs hp
  have hmem : ∀ t o, objects.lookup t = some o → ∃ h, o.jws = some h ∧
      (h.alg = some "RS256" ∨ h.alg = some "none" ∨ h.alg = some "ES256") ∧ h.enc = none := by
    intro t o hl
    have hm : (t, o) ∈ objects := by
      have : ∀ (l : List (String × ReqObject)), l.lookup t = some o → (t, o) ∈ l := by
        intro l
        induction l with
        | nil => intro h; cases h
        | cons x l ih =>
          intro h
          rw [List.lookup_cons] at h
          split at h
          · rename_i e
            cases h
            rw [eq_of_beq e]; exact List.mem_cons_self ..
          · exact List.mem_cons_of_mem _ (ih h)
      exact this _ hl
    have hall : ∀ x ∈ objects, ∃ h, x.2.jws = some h ∧
        (h.alg = some "RS256" ∨ h.alg = some "none" ∨ h.alg = some "ES256") ∧ h.enc = none := by
      intro x hx
      simp only [objects, List.mem_cons, List.not_mem_nil, or_false] at hx
      rcases hx with rfl | rfl | rfl | rfl | rfl <;> exact ⟨_, rfl, by simp, rfl⟩
    exact hall _ hm
  have ho : objects.lookup text = some o := by
    simp only [objLib] at h1
    cases hl : objects.lookup text with
    | none => rw [hl] at h1; cases h1
    | some o' => rw [hl] at h1; cases h1; rfl
  obtain ⟨h', e1, e2, e3⟩ := hmem _ _ ho
  rw [h2] at e1
  cases e1
  have ha' : a = "RS256" ∨ a = "none" ∨ a = "ES256" := by
    rcases ha with ha | ha | ha
    · rcases e2 with e | e | e <;> rw [e] at ha <;> cases ha <;> simp
    · rw [e3] at ha; cases ha
    · exact .inl ha
  have hs' : s = "RS256" ∨ s = "RSA-OAEP" ∨ s = "A128GCM" := by
    cases use <;> simp only [objLib, Option.some.injEq, Algs.one.injEq, reduceCtorEq, or_false] at hs <;> subst hs <;> simp
  rw [← strIn_iff] at hp
  revert hp
  rcases ha' with rfl | rfl | rfl <;> rcases hs' with rfl | rfl | rfl <;> decide

def passed (x : Except Exc AuthzReq) : Bool := match x with | .ok _ => true | .error _ => false

theorem passed_ok {x : Except Exc AuthzReq} (h : passed x = true) : ∃ r, x = .ok r := by
  cases x with
  | ok r => exact ⟨r, rfl⟩
  | error e => cases h

/-- The hypotheses of C83 and C84 are met, and the right hand side of C83 is, by the first object and by no other one. -/
example : RefersTo provObj (refReq "https://rp/obj") "https://rp/obj" ∧ PlainAlgs (objLib (some (.one "RS256"))) "c1" ∧
    (["https://rp/obj", "https://rp/none", "https://rp/es", "https://rp/enc", "https://rp/nowhere"].map
      (fun u => passed (doRequestUri (pobj (some (.one "RS256"))) "c1" (refReq u) {}).1)) =
      [true, false, false, false, false] :=
  ⟨⟨rfl, by decide, .inr (by rw [← urnPrefix_iff]; decide +kernel)⟩, plain_objLib, by decide +kernel⟩

/-- C83 is false of the code where a client has not registered any places: whatever it refers to is fetched. -/
theorem C83_place_refuted :
    ¬ (∀ (p : Prov) (F : ObjectLib) (client uri : String) (req : AuthzReq) (s : PState), RefersTo p req uri →
      (∃ r, (doRequestUri (p.withObjects F) client req s).1 = .ok r) →
        ∃ cl l, p.clients.get? client = some cl ∧ cl.requestUris = some l ∧ ∃ b ∈ l, BaseOf uri b) := by
  intro h
  obtain ⟨cl, l, h1, h2, _⟩ := h provObj (objLib none) "c2" "https://rp/obj" (refReq "https://rp/obj") {}
    ⟨rfl, by decide, .inr (by rw [← urnPrefix_iff]; decide +kernel)⟩
    (passed_ok (by decide +kernel))
  have h3 : (match provObj.clients.get? "c2" with | some cl => cl.requestUris | none => none) = none := by decide +kernel
  rw [h1] at h3
  rw [show cl.requestUris = none from h3] at h2
  cases h2

/-- C83 is false of the code where the algorithm is registered as a string: a part of its name will do. -/
theorem C83_algorithm_refuted :
    ¬ (∀ (p : Prov) (F : ObjectLib) (client uri : String) (req : AuthzReq) (s : PState), RefersTo p req uri →
      (∃ r, (doRequestUri (p.withObjects F) client req s).1 = .ok r) → ∃ o, GoodObject F client uri o) := by
  intro h
  obtain ⟨o, t, hd, h1, h2, h3, h4, _⟩ := h provObj (objLib (some (.one "ES256K"))) "c1" "https://rp/es" (refReq "https://rp/es") {}
    ⟨rfl, by decide, .inr (by rw [← urnPrefix_iff]; decide +kernel)⟩
    (passed_ok (by decide +kernel))
  have e1 : (objLib (some (.one "ES256K"))).get "https://rp/es" = .ok (200, "https://rp/es") := by decide +kernel
  rw [e1] at h1
  cases h1
  have e2 : (objLib (some (.one "ES256K"))).fromJwt "c1" "https://rp/es" =
      .ok { says := { nonce := some "n" }, jws := some { alg := some "ES256" } } := by decide +kernel
  rw [e2] at h2
  cases h2
  cases h3
  rcases h4 with ⟨x, hx, ha⟩ | ⟨hx, _⟩
  · cases hx
    exact absurd (show "ES256" = "ES256K" from ha) (by decide)
  · cases hx

/-- C83 is false of the code: an object that is signed and encrypted as the client has registered does not pass. -/
theorem C83_encrypted_refuted :
    ¬ (∀ (p : Prov) (F : ObjectLib) (client uri : String) (req : AuthzReq) (s : PState), RefersTo p req uri →
      FetchesFrom p client uri → (∃ o, GoodObject F client uri o) →
        ∃ r, (doRequestUri (p.withObjects F) client req s).1 = .ok r) := by
  intro h
  obtain ⟨r, hr⟩ := h provObj (objLib (some (.one "RS256"))) "c1" "https://rp/enc" (refReq "https://rp/enc") {}
    ⟨rfl, by decide, .inr (by rw [← urnPrefix_iff]; decide +kernel)⟩
    ⟨rfl, _, rfl, by
      intro l hl _
      cases hl
      exact ⟨"https://rp/enc", by simp, by decide, .inl rfl⟩⟩
    ⟨{ says := { nonce := some "n" }, jws := some { alg := some "RS256" }, jwe := true }, "https://rp/enc", { alg := some "RS256" },
      by decide +kernel, by decide +kernel, rfl, .inl ⟨.one "RS256", rfl, rfl⟩, fun _ => by decide +kernel⟩
  have : (match (doRequestUri (provObj.withObjects (objLib (some (.one "RS256")))) "c1" (refReq "https://rp/enc") {}).1 with
    | .ok _ => true | .error _ => false) = false := by decide +kernel
  rw [hr] at this
  cases this

/-- C84 is false of the code where it is about the client: an object can name another client than the one whose keys it is
verified with, and the request is then that client's. -/
theorem C84_client_refuted :
    ¬ (∀ (p : Prov) (F : ObjectLib) (client uri : String) (req r : AuthzReq) (s s' : PState), RefersTo p req uri →
      parseAuthz (p.withObjects F) client req s = (.ok (.req r), s') → r.clientId = some client) := by
  intro h
  cases hq : parseAuthz (pobj (some (.one "RS256"))) "c1" (refReq "https://rp/other") {} with
  | mk x s' =>
    have hx : (match (parseAuthz (pobj (some (.one "RS256"))) "c1" (refReq "https://rp/other") {}).1 with
      | .ok (.req r) => some r.clientId
      | _ => none) = some (some "c2") := by decide +kernel
    rw [hq] at hx
    match x, hx, hq with
    | .ok (.req r), hx, hq =>
      have h1 := h provObj (objLib (some (.one "RS256"))) "c1" "https://rp/other" (refReq "https://rp/other") r {} s'
        ⟨rfl, by decide, .inr (by rw [← urnPrefix_iff]; decide +kernel)⟩ hq
      have hx' : some r.clientId = some (some "c2") := hx
      rw [h1] at hx'
      exact absurd hx' (by decide)
    | .ok (.err ..), hx, hq => cases hx
    | .error e, hx, hq => cases hx

end Ex
end OidcOp
