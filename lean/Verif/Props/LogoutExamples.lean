/-
Concrete cases for C62, C63, C73 and C74, and the ways in which their full statements fail.
-/
import Verif.Props.Logout
import Verif.Props.TokenHandlerExamples

namespace OidcOp.Ex
open OidcOp Spec

/-- A provider with the client records `clients`. -/
noncomputable def lctx (clients : Dict LogoutReg) : LogoutCtx where
  E := E
  L := simpleUri
  J := jwtLib
  clients := clients
  issuer := "https://op"
  dfltAlg := "RS256"
  signingAlg := "RS256"
  verifyUrl := "verify_logout"
  postPath := "post_logout"
  sidOf t := match inside t.value.toList with
    | [_, s] => String.ofList s
    | _ => ""
  noQuery u := u
  signFails _ := none

theorem lctx_sid (clients : Dict LogoutReg) : SidAttr (lctx clients) := by
  intro n c s t h
  have : t.value.toList = val n c s := by
    rw [h.value]
    show (String.ofList (val n c s)).toList = _
    simp
  show (match inside t.value.toList with
    | [_, s] => String.ofList s
    | _ => "") = s
  rw [this, inside_val]
  simp

def c1Reg : LogoutReg := { clientId := some "c1", backUri := some "https://rp/bc" }
def c2Reg : LogoutReg := { clientId := some "c2", postUris := some [.pair "https://rp2/bye" []] }

/-- The user logs in at c1, gets tokens, and logs in at c2. -/
def both : List WOp := start "c1" ++ [.login "d" "c2" (authzReq "c2") event]

theorem fair_both : ∀ op ∈ both, FairW E Users false op := by
  intro op h
  rcases List.mem_append.1 h with h | h
  · exact fair_start op h
  · rw [List.mem_singleton] at h
    subst h
    exact ⟨.inl rfl, ⟨by decide, by decide⟩, ⟨by decide, by decide⟩⟩

theorem good_c1 : (SKey.gra "d" "c1" (E.uuid 0)).Good Users :=
  ⟨.inl rfl, ⟨by decide, by decide⟩, ⟨by decide, by decide⟩, E.uuid_clean 0⟩

theorem both_grant : found (run E init both).st (.gra "d" "c1" (E.uuid 0)) = some (.grant (grant1 "c1")) := by decide +kernel

/-- The hypotheses of C63 and C74 are met with two clients, of which one is told. -/
example : SidAttr (lctx [("c1", c1Reg), ("c2", c2Reg)]) ∧
    (∀ n u c g, (SKey.gra u c g).Good Users → ¬ Users ((lctx [("c1", c1Reg), ("c2", c2Reg)]).E.encSid n [u, c, g])) ∧
    (∀ op ∈ both, FairW (lctx [("c1", c1Reg), ("c2", c2Reg)]).E Users false op) ∧
    found (run (lctx [("c1", c1Reg), ("c2", c2Reg)]).E init both).st (.gra "d" "c1" (E.uuid 0)) = some (.grant (grant1 "c1")) ∧
    (∃ ui, found (run (lctx [("c1", c1Reg), ("c2", c2Reg)]).E init both).st (.usr "d") = some (.info ui) ∧
      ui.subordinate = ["c1", "c2"]) ∧
    (∀ c' ∈ ["c1", "c2"], ∃ reg, (lctx [("c1", c1Reg), ("c2", c2Reg)]).clients.get? c' = some reg ∧
      CanTell (lctx [("c1", c1Reg), ("c2", c2Reg)]) reg) ∧
    Told (lctx [("c1", c1Reg), ("c2", c2Reg)]) Users (run E init both).st "d" "c1" := by
  refine ⟨lctx_sid _, users_sid, fair_both, both_grant, ?_, ?_, ?_⟩
  · have h2 : (match found (run E init both).st (.usr "d") with
      | some (.info ui) => ui.subordinate
      | _ => []) = ["c1", "c2"] := by decide +kernel
    change ∃ ui, found (run E init both).st (.usr "d") = some (.info ui) ∧ ui.subordinate = ["c1", "c2"]
    cases h : found (run E init both).st (.usr "d") with
    | none => rw [h] at h2; cases h2
    | some o =>
      rw [h] at h2
      cases o with
      | grant g => cases h2
      | info ui => exact ⟨ui, rfl, h2⟩
  · intro c' hc'
    simp only [List.mem_cons, List.not_mem_nil, or_false] at hc'
    rcases hc' with rfl | rfl
    · exact ⟨c1Reg, rfl, fun _ => ⟨by decide, rfl⟩⟩
    · exact ⟨c2Reg, rfl, fun h => absurd rfl h⟩
  · refine ⟨⟨c1Reg, rfl, .inl (by decide)⟩, E.uuid 0, grant1 "c1", good_c1, both_grant, by decide +kernel,
      ((grant1 "c1").issuedToken[3]?).getD default, by decide +kernel, by decide +kernel⟩

/-- C63 is false of the code: c2 has no logout URI, so the user stays logged in there (oidc/session.py:169-201 only
collects the sessions with clients that have one). -/
theorem C63_everywhere_refuted :
    ¬ (∀ (K : LogoutCtx) (U : String → Prop) (adds : Bool),
      (∀ n u c g, (SKey.gra u c g).Good U → ¬ U (K.E.encSid n [u, c, g])) → SidAttr K →
      ∀ (now : Int) (ops : List WOp), (∀ op ∈ ops, FairW K.E U adds op) →
      ∀ (n : Nat) (u c g : String), (SKey.gra u c g).Good U →
      ∀ gr, found (run K.E { now := now } ops).st (.gra u c g) = some (.grant gr) →
      ∀ res w', logoutAll K (K.E.encSid n [u, c, g]) (run K.E { now := now } ops) = (.ok res, w') →
      ∀ c' ci, (SKey.cli u c').Good U → found w'.st (.cli u c') = some (.info ci) → ci.revoked = true) := by
  intro h
  let K := lctx [("c1", c1Reg), ("c2", c2Reg)]
  have h0 := h K Users false users_sid (lctx_sid _) 1000 both fair_both 0 "d" "c1" (E.uuid 0) good_c1 _ both_grant
  have h1 : ∃ res w', logoutAll K (K.E.encSid 0 ["d", "c1", E.uuid 0]) (run K.E { now := 1000 } both) = (.ok res, w') := by
    have : (match (logoutAll K (K.E.encSid 0 ["d", "c1", E.uuid 0]) (run K.E { now := 1000 } both)).1 with
      | .ok _ => true
      | .error _ => false) = true := by decide +kernel
    cases hp : logoutAll K (K.E.encSid 0 ["d", "c1", E.uuid 0]) (run K.E { now := 1000 } both) with
    | mk r w' =>
      rw [hp] at this
      cases r with
      | ok res => exact ⟨res, w', rfl⟩
      | error e => cases this
  obtain ⟨res, w', h1⟩ := h1
  have h2 := h0 res w' h1 "c2"
  have hw : w' = (logoutAll K (K.E.encSid 0 ["d", "c1", E.uuid 0]) (run K.E { now := 1000 } both)).2 := by rw [h1]
  have h3 : (match found (logoutAll K (K.E.encSid 0 ["d", "c1", E.uuid 0]) (run K.E { now := 1000 } both)).2.st (.cli "d" "c2") with
    | some (.info ci) => ci.revoked
    | _ => true) = false := by decide +kernel
  rw [← hw] at h3
  cases hf : found w'.st (.cli "d" "c2") with
  | none => rw [hf] at h3; cases h3
  | some o =>
    cases o with
    | grant g => rw [hf] at h3; cases h3
    | info ci =>
      rw [hf] at h3
      have := h2 ci ⟨.inl rfl, ⟨by decide, by decide⟩, ⟨by decide, by decide⟩⟩ hf
      change ci.revoked = false at h3
      rw [this] at h3
      cases h3

/-- C63: a client of the user that is no longer registered makes the log out everywhere fail, and no session ends. -/
theorem C63_unregistered_client_refuted :
    ¬ (∀ (K : LogoutCtx) (U : String → Prop) (adds : Bool),
      (∀ n u c g, (SKey.gra u c g).Good U → ¬ U (K.E.encSid n [u, c, g])) → SidAttr K →
      ∀ (now : Int) (ops : List WOp), (∀ op ∈ ops, FairW K.E U adds op) →
      ∀ (n : Nat) (u c g : String), (SKey.gra u c g).Good U →
      ∀ gr, found (run K.E { now := now } ops).st (.gra u c g) = some (.grant gr) →
      ∀ c', Told K U (run K.E { now := now } ops).st u c' →
        SessionEnded U (run K.E { now := now } ops).st
          (logoutAll K (K.E.encSid n [u, c, g]) (run K.E { now := now } ops)).2.st u c') := by
  intro h
  let K := lctx [("c1", c1Reg)]
  have h0 := h K Users false users_sid (lctx_sid _) 1000 both fair_both 0 "d" "c1" (E.uuid 0) good_c1 _ both_grant "c1"
    ⟨⟨c1Reg, rfl, .inl (by decide)⟩, E.uuid 0, grant1 "c1", good_c1, both_grant, by decide +kernel,
      ((grant1 "c1").issuedToken[3]?).getD default, by decide +kernel, by decide +kernel⟩
  obtain ⟨⟨ci, _, h1⟩, _⟩ := h0
  have h3 : (match found (logoutAll K (K.E.encSid 0 ["d", "c1", E.uuid 0]) (run K.E { now := 1000 } both)).2.st (.cli "d" "c1") with
    | some (.info ci) => ci.revoked
    | _ => true) = false := by decide +kernel
  rw [h1] at h3
  cases h3

/-- Logging out of c1 alone meets the hypotheses of `C63_logout_one` and `C63_regardless_of_clients`. -/
example : (lctx [("c1", c1Reg)]).clients.get? "c1" = some c1Reg ∧ CanTell (lctx [("c1", c1Reg)]) c1Reg ∧ HasLogoutUri c1Reg :=
  ⟨rfl, fun _ => ⟨by decide, rfl⟩, .inl (by decide)⟩

/-! ### the end session endpoint -/

/-- A request for a session with c1 that names c2 and a URI of c2. -/
def crossReq : EndReq :=
  { clientId := some "c2", postUri := some "https://rp2/bye", hint := some { aud := ["c1"], sub := (grant1 "c1").sub } }

theorem both_session : sessionOf E (run E init both).st (sid "c1" 0) =
    .ok { sid := sid "c1" 0, user := "d", client := "c1", gid := E.uuid 0, ref := 2, grant := grant1 "c1" } := by
  decide +kernel

theorem endSession_of {K : LogoutCtx} {req : EndReq} {sid : String} {s : Sess} {w : World} {uri : String}
    (h1 : (req.postUri.isSome && req.hint.isNone) = false) (h2 : sessionOf K.E w.st sid = .ok s) (h3 : hintCheck s req.hint = .ok ())
    (h4 : postUri K req s.client = .ok uri) (h5 : K.signFails K.signingAlg = none) :
    endSession K req (.value (some sid)) w =
      .ok (K.J.sign w.n K.signingAlg (packFor K w.now K.issuer (endPayload req s.sid uri))) := by
  simp [endSession, h1, cookieSession, h2, h3, h4, h5]

/-- C62 is false of the code: a request with the cookie and the hint of a session with c1 may name c2, and is then redirected to a
URI that is registered for c2 only (`verify_uri` prefers the client_id of the request, oauth2/authorization.py:109). -/
theorem C62_other_client_refuted :
    ¬ (∀ (K : LogoutCtx) (req : EndReq) (sid : String) (w : World) (tok : Str) (s : Sess) (uri : String),
      endSession K req (.value (some sid)) w = .ok tok → sessionOf K.E w.st sid = .ok s → req.postUri = some uri →
      ∃ reg regs r, K.clients.get? s.client = some reg ∧ reg.postUris = some regs ∧ r ∈ regs ∧ Matches K.L uri r) := by
  intro h
  have h1 := endSession_of (K := lctx [("c1", c1Reg), ("c2", c2Reg)]) (req := crossReq) (uri := "https://rp2/bye") rfl both_session
    (by decide +kernel) (by decide +kernel) rfl
  obtain ⟨reg, regs, _, h2, h3, _⟩ := h _ _ _ _ _ _ _ h1 both_session rfl
  have : reg = c1Reg := by
    have e : (lctx [("c1", c1Reg), ("c2", c2Reg)]).clients.get? "c1" = some c1Reg := rfl
    rw [e] at h2
    cases h2
    rfl
  subst this
  cases h3

/-- A request that C62 accepts: the session's own client and a URI of it, with a state. -/
example : ∃ tok, endSession (lctx [("c1", { c1Reg with postUris := some [.pair "https://rp/bye" []] })])
      { postUri := some "https://rp/bye", hint := some { aud := ["c1"], sub := (grant1 "c1").sub }, state := some "x" }
      (.value (some (sid "c1" 0))) (run E init both) = .ok tok :=
  ⟨_, endSession_of rfl both_session (by decide +kernel)
    (uri := "https://rp/bye?" ++ simpleUri.urlencode [("state", ["x"])]) (by decide +kernel) rfl⟩

/-- C73 is false of the code: a JWT access token of the session, signed with the algorithm of the confirmations, is no confirmation
that the end session endpoint ever made, but ends the session - whoever holds an access token can do that, also a
resource server (unpack_signed_jwt, oidc/session.py:212-224, only checks the signature, and JWT access tokens carry
"sid", token/jwt_token.py:70). -/
theorem C73_access_token_refuted :
    ¬ (∀ (K : LogoutCtx) (http : String → Str → Except Exc Nat) (alla : Bool) (tok : Str) (w : World),
      (∀ req cookie w0, endSession K req cookie w0 ≠ .ok tok) → (rpLogout K http alla tok w).2.st = w.st) := by
  intro h
  let K := lctx [("c1", c1Reg), ("c2", c2Reg)]
  let p := jwtPayload "https://op" "access_token" 600 none 1000 (sid "c1" 0).toList []
  let tok := jwtCall jwtLib "https://op" "access_token" "RS256" 600 none 1000 7 (sid "c1" 0).toList []
  have hu : unpackSigned K tok = .ok p := by
    show (match jwtLib.peek tok with
      | none => (Except.error Exc.valueError : Except Exc (Dict Json))
      | some _ => jwtLib.unpack "RS256" tok) = _
    rw [show tok = jwtLib.sign 7 "RS256" p from rfl, jwtLib.peek_sign]
    exact jwtLib.unpack_sign _ _ _
  have h1 : ∀ req cookie w0, endSession K req cookie w0 ≠ .ok tok := by
    intro req cookie w0 he
    obtain ⟨_, q, _, h2, _, _, h3, h4, h5⟩ := C62_confirmation K req cookie w0 tok he
    rw [hu] at h2
    cases h2
    have hp : p.get? "redirect_uri" = none := by decide +kernel
    cases hpu : req.postUri with
    | none => obtain ⟨_, h6, _⟩ := h3 hpu; rw [h6] at hp; cases hp
    | some u =>
      cases hst : req.state with
      | none => rw [h4 u hpu hst] at hp; cases hp
      | some st => rw [(h5 u st hpu hst).1] at hp; cases hp
  have h2 := h K (fun _ _ => .ok 200) false tok (run E init both) h1
  have h3 : rpLogout K (fun _ _ => .ok 200) false tok (run E init both) =
      verifiedLogout K (fun _ _ => .ok 200) false (sid "c1" 0) (run E init both) := by
    have e1 : p.get? "sid" = some (.str (sid "c1" 0)) := by decide +kernel
    have e2 : p.get? "alla" = none := by decide +kernel
    simp only [rpLogout, hu, e1, e2]
  rw [h3] at h2
  have h4 : (match found (verifiedLogout K (fun _ _ => .ok 200) false (sid "c1" 0) (run E init both)).2.st (.cli "d" "c1") with
    | some (.info ci) => ci.revoked
    | _ => false) = true := by decide +kernel
  rw [h2] at h4
  exact absurd h4 (by decide +kernel)

/-- C73: a text that does not verify. -/
example : ∀ p, (lctx []).J.unpack (lctx []).signingAlg (jwtText 'F' "RS256" []) ≠ .ok p := by
  intro p h
  have := (jwtLib_forged "RS256" []).2 "RS256"
  rw [show (lctx []).J.unpack (lctx []).signingAlg (jwtText 'F' "RS256" []) = jwtLib.unpack "RS256" (jwtText 'F' "RS256" []) from rfl,
    this] at h
  cases h

end OidcOp.Ex
