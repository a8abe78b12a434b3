/-
Concrete histories of the whole provider: they meet the hypotheses of the theorems in Props/Provider.lean, and some refute
C35, C36, C39 and C68.
-/
import Verif.Props.Provider

namespace OidcOp.Ex
open OidcOp Spec

def urnStr (n : Nat) : String := String.ofList ("urn:uuid:".toList ++ List.replicate n 'x')

theorem urnStr_inj {n n' : Nat} (h : urnStr n = urnStr n') : n = n' := by
  have h1 := List.append_cancel_left (ofList_inj h)
  have h2 := congrArg List.length h1
  rwa [List.length_replicate, List.length_replicate] at h2

/-- A provider with two clients.  PKCE is required of the first one only. -/
def prov : Prov :=
  { E := E
    L := { scopes := { cdb := [("c1", {}), ("c2", {})] }, broker := [{ acr := "password" }] }
    clients := [("c1", { redirectUris := some [.pair "https://rp/cb" []], responseTypes := ["code"] }),
                ("c2", { redirectUris := some [.pair "https://rp2/cb" []], responseTypes := ["code"] })]
    urn := urnStr
    urn_inj := urnStr_inj }

def urnReq (n : Nat) : AuthzReq := { requestUri := some (urnStr n) }

/-- C34: a pushed request is used, once. -/
example : (parseAuthz prov "c1" (urnReq 0) (provHistory prov 1000 [.push "c1" (authzReq "c1")])).1 =
      .ok (.req (authzReq "c1")) ∧
    (parseAuthz prov "c1" (urnReq 0)
      (provHistory prov 1000 [.push "c1" (authzReq "c1"), .request "c1" (urnReq 0) [] [] none])).1 = .error .valueError := by
  decide +kernel

example : (provHistory prov 1000 [.push "c1" (authzReq "c1"), .push "c1" { authzReq "c1" with state := some "t" },
      .request "c1" (urnReq 1) [] [] none]).resolved.map (·.urn) = [urnStr 1] ∧
    "urn:uuid:".toList.isPrefixOf (urnStr 1).toList = true := by decide +kernel

/-- C35 is false of the code: another client presents the URN, and the request is used. -/
theorem C35_other_client_refuted :
    ¬ (∀ (p : Prov) (now : Int) (ops : List POp), ∀ x ∈ (provHistory p now ops).resolved,
      ∀ y ∈ (provHistory p now ops).pushed, y.urn = x.urn → x.client = y.client) := by
  intro h
  have := h prov 1000 [.push "c1" (authzReq "c1"), .request "c2" (urnReq 0) [] [] none]
    ⟨urnStr 0, "c2", authzReq "c1", 1000⟩ (by decide +kernel) ⟨urnStr 0, "c1", authzReq "c1", 1000⟩ (by decide +kernel) rfl
  exact absurd this (by decide)

/-- C35 is false of the code: the URN works long after the 3600 seconds that are announced. -/
theorem C35_expiry_refuted :
    ¬ (∀ (p : Prov) (now : Int) (ops : List POp), ∀ x ∈ (provHistory p now ops).resolved,
      ∀ y ∈ (provHistory p now ops).pushed, y.urn = x.urn → x.time ≤ y.time + 3600) := by
  intro h
  have := h prov 1000 [.push "c1" (authzReq "c1"), .tick 100000, .request "c1" (urnReq 0) [] [] none]
    ⟨urnStr 0, "c1", authzReq "c1", 101000⟩ (by decide +kernel) ⟨urnStr 0, "c1", authzReq "c1", 1000⟩ (by decide +kernel) rfl
  exact absurd this (by decide)

/-- A client pushes a request with the URN of another client's request: what is stored names the other client. -/
example : (provHistory prov 1000 [.push "c1" (authzReq "c1"), .push "c2" (urnReq 0)]).pushed.map
    (fun y => (y.client, y.req.clientId)) = [("c1", some "c1"), ("c2", some "c1")] := by decide +kernel

/-! ### Names -/

def isD (u : String) : Prop := u = "d"

theorem encSid_notD (n : Nat) (parts : List String) (h : parts ≠ []) : ¬ isD (E.encSid n parts) := by
  intro hd
  have h1 : 'e' ∈ (E.encSid n parts).toList := by
    show 'e' ∈ (String.ofList (enc (parts.map String.toList))).toList
    cases parts with
    | nil => exact absurd rfl h
    | cons a l => simp [enc]
  rw [hd] at h1
  revert h1
  decide

theorem cleanId_of {x : String} (h1 : x ≠ "") (h2 : ';' ∉ x.toList) : CleanId x := ⟨h1, h2⟩

theorem names_of (p : Prov) (hE : p.E = E) (hk : ∀ c, p.clients.has c = true → c = "c1" ∨ c = "c2") : Names p isD := by
  refine ⟨?_, ?_, ?_⟩
  · rintro u rfl
    exact ⟨cleanId_of (by decide) (by decide), .inr ⟨by decide, by decide⟩⟩
  · intro c hc
    rcases hk c hc with rfl | rfl
    · exact ⟨cleanId_of (by decide) (by decide), by unfold isD; decide⟩
    · exact ⟨cleanId_of (by decide) (by decide), by unfold isD; decide⟩
  · intro n u c g _
    rw [hE]
    exact encSid_notD n _ (by simp)

theorem twoClients {a b : ClientReg} {c : String} (h : Dict.has [("c1", a), ("c2", b)] c = true) : c = "c1" ∨ c = "c2" := by
  rw [Dict.has_iff] at h
  simpa [Dict.keys] using h

theorem names_prov : Names prov isD := names_of prov rfl (fun _ h => twoClients h)

/-- A login, a code exchange, and a second request with the cookie. -/
def session : List POp :=
  [.request "c1" (authzReq "c1") [] [] none, .loggedIn 0 "d", .tick 5,
   .token "c1" (codeReq (E.mkVal 1 .authorizationCode (sid "c1" 0))), .redeem 0 none,
   .request "c1" { authzReq "c1" with state := some "t" } [0] [] none]

theorem fair_session : ∀ op ∈ session, FairP prov isD op := by
  intro op hop
  simp only [session, List.mem_cons, List.not_mem_nil, or_false] at hop
  rcases hop with rfl | rfl | rfl | rfl | rfl | rfl <;> first | trivial | rfl

/-- C68: two grants, and four and one tokens. -/
example : ((provHistory prov 1000 session).w.st.heap.filterMap (fun o => match o with
      | .grant g => some (g.sub, g.issuedToken.map (·.cls))
      | _ => none)) =
    [("d", [.authorizationCode, .accessToken, .refreshToken, .idToken]), ("d", [.authorizationCode])] ∧
    (provHistory prov 1000 session).logins.map (fun x => (x.user, x.req, x.time)) = [("d", authzReq "c1", 1000)] ∧
    (provHistory prov 1000 session).cookies.length = 2 := by
  decide +kernel

/-- A provider without detours. -/
def direct : Prov := { prov with hasPar := false }

example : NoDetour direct ∧ Names direct isD ∧ (provHistory direct 1000 session).w.st.heap.length = 4 :=
  ⟨⟨rfl, by intro client uri req r h; cases h⟩, names_of direct rfl (fun _ h => twoClients h), by decide +kernel⟩

/-- PKCE is required of the first client. -/
def provPkce : Prov := { prov with pkce := some (hash, pkce) }

/-- C68 is false of the code: PKCE is required of client c1, and c1 has pushed a request without it.  The request is refused
if c1 presents it, and goes through if client c2 does. -/
theorem C68_presenter_refuted :
    ¬ (∀ (p : Prov) (U : String → Prop), Names p U → ∀ (now : Int) (ops : List POp), (∀ op ∈ ops, FairP p U op) →
      ∀ (r : Nat) (g : Grant), GrantAt (provHistory p now ops).w r g →
      ∃ c req, g.authzReq = some req ∧ req.clientId = some c ∧ Presented p c req) := by
  intro h
  have hf : ∀ op ∈ [POp.push "c1" (authzReq "c1"), .request "c2" (urnReq 0) [] [] none, .loggedIn 0 "d"],
      FairP provPkce isD op := by
    intro op hop
    simp only [List.mem_cons, List.not_mem_nil, or_false] at hop
    rcases hop with rfl | rfl | rfl <;> first | trivial | rfl
  have hg : ∃ g, (provHistory provPkce 1000
      [POp.push "c1" (authzReq "c1"), .request "c2" (urnReq 0) [] [] none, .loggedIn 0 "d"]).w.st.heap[2]? = some (.grant g) ∧
      g.authzReq = some { authzReq "c1" with codeChallengeMethod := some "plain" } := by
    refine ⟨((provHistory provPkce 1000
      [POp.push "c1" (authzReq "c1"), .request "c2" (urnReq 0) [] [] none, .loggedIn 0 "d"]).w.st.grantAt 2).getD {}, ?_, ?_⟩
    · decide +kernel
    · decide +kernel
  obtain ⟨g, hg1, hg2⟩ := hg
  obtain ⟨c, req, h1, h2, h3⟩ := h provPkce isD (names_of provPkce rfl (fun _ h => twoClients h)) 1000 _ hf 2 g hg1
  rw [hg2] at h1
  cases h1
  cases h2
  have := (h3.pkce hash pkce rfl).1 (.inl rfl)
  exact this rfl

example : (parseAuthz provPkce "c1" (urnReq 0) (provHistory provPkce 1000 [.push "c1" (authzReq "c1")])).1 =
    .ok (.err "invalid_request" "Missing required code_challenge") := by decide +kernel

/-! ### C36 -/

/-- The server allows openid and email only. -/
def provScopes (deny : Bool) : Prov :=
  { prov with L := { prov.L with scopes := { cdb := [("c1", {}), ("c2", {})], allowedScopes := some ["openid", "email"],
                                             denyUnknown := deny } } }

/-- C36 is false of the code without deny_unknown_scopes: the access token carries a scope that the client may not use. -/
theorem C36_token_scopes_refuted :
    ¬ (∀ (p : Prov) (U : String → Prop), Names p U → ∀ (now : Int) (ops : List POp), (∀ op ∈ ops, FairP p U op) →
      ∀ (r : Nat) (g : Grant), GrantAt (provHistory p now ops).w r g → ∀ t ∈ g.issuedToken, t.cls = .accessToken →
      ∃ c req, g.authzReq = some req ∧ req.clientId = some c ∧ ∀ x ∈ t.scope, AllowedScope p.L.scopes c x) := by
  intro h
  let ops := session.take 5
  have hf : ∀ op ∈ ops, FairP (provScopes false) isD op := by
    intro op hop
    simp only [ops, session, List.take, List.mem_cons, List.not_mem_nil, or_false] at hop
    rcases hop with rfl | rfl | rfl | rfl | rfl <;> first | trivial | rfl
  let g := ((provHistory (provScopes false) 1000 ops).w.st.grantAt 2).getD {}
  have hg : GrantAt (provHistory (provScopes false) 1000 ops).w 2 g := by decide +kernel
  let t := (g.issuedToken[1]?).getD default
  have ht : t ∈ g.issuedToken := by decide +kernel
  obtain ⟨c, req, _, _, h3⟩ := h (provScopes false) isD (names_of _ rfl (fun _ h => twoClients h)) 1000 ops hf 2 g hg t ht
    (by decide +kernel)
  obtain ⟨cl, hc, hh⟩ := h3 "offline_access" (by decide +kernel)
  have hcl : cl = {} := by
    have hm : (c, cl) ∈ [("c1", ({} : ScopeClient)), ("c2", {})] := Dict.get?_mem hc
    simp at hm
    rcases hm with h | h <;> exact h.2
  subst hcl
  rcases hh with ⟨l, hl, _⟩ | ⟨_, m, hm, _⟩ | ⟨_, _, hs⟩
  · cases hl
  · cases hm
  · rcases hs with ⟨l, hl, _, hm⟩ | ⟨hn, _⟩
    · cases hl
      revert hm
      decide
    · rcases hn with hn | hn <;> cases hn

/-- With deny_unknown_scopes the request is refused, and one with allowed scopes leads to tokens. -/
example : (provHistory (provScopes true) 1000 session).w.st.heap = [] ∧
    (provHistory (provScopes true) 1000 [.request "c1" { authzReq "c1" with scope := some ["openid", "email"] } [] [] none,
      .loggedIn 0 "d"]).w.st.heap.length = 3 := by decide +kernel

/-! ### C39 -/

/-- C39 is false of the code: the cookie is renewed with every response, and max_age is measured from the cookie.  The user
authenticated 200 seconds ago, and a request with max_age=150 goes through. -/
theorem C39_renewed_cookie_refuted :
    ¬ (∀ (p : Prov) (now : Int) (ops : List POp) (req : AuthzReq) (m : AuthnMethod) (is : List Nat) (sid user : String)
      (a : Int), req.maxAge = some a → a ≠ 0 →
      (setupAuth p.E p.L.loads m (provHistory p now ops).w req (pickCookies (provHistory p now ops) is) none).1 =
        .ok (.session sid user) →
      ∀ ev, eventOf p.E (setupAuth p.E p.L.loads m (provHistory p now ops).w req
          (pickCookies (provHistory p now ops) is) none).2 sid = .ok ev →
        (provHistory p now ops).w.now ≤ ev.authnTime + a) := by
  intro h
  have := h prov 1000 [.request "c1" (authzReq "c1") [] [] none, .loggedIn 0 "d", .tick 100,
      .request "c1" { authzReq "c1" with state := some "t" } [0] [] none, .tick 100]
    { authzReq "c1" with maxAge := some 150 } {} [1] (E.encSid 4 ["d", "c1", E.uuid 4]) "d" 150 rfl (by decide)
    (by decide +kernel) (loginEvent { acr := "password" } 1000 "d") (by decide +kernel)
  revert this
  decide +kernel

end OidcOp.Ex
