/-
Subject identifiers: C61.
-/
import Verif.Spec.Subject
import Verif.Props.ProviderExamples

namespace OidcOp
open Spec

theorem append_right_inj' {a b s : String} (h : a ++ s = b ++ s) : a = b := by
  have := congrArg String.toList h
  simp only [String.toList_append] at this
  exact String.toList_inj.1 (List.append_cancel_right this)

theorem append_left_inj' {a b s : String} (h : s ++ a = s ++ b) : a = b := by
  have := congrArg String.toList h
  simp only [String.toList_append] at this
  exact String.toList_inj.1 (List.append_cancel_left this)

theorem authzSub_eq {hash : String → String} {cfg : SubCfg} {salt : String} (h : PublicWith cfg salt)
    (fresh u : String) (req : AuthzReq) : authzSub hash cfg fresh u req = hash (u ++ salt) := by
  unfold authzSub grantSub SubCfg.minter
  rcases h with ⟨h, rfl⟩ | ⟨h, rfl⟩ | h <;> rw [h] <;> rfl

theorem grantSub_pairwise {hash : String → String} {cfg : SubCfg} {salt : String} (h : PairwiseWith cfg salt)
    (fresh u : String) (req : AuthzReq) :
    grantSub hash cfg "pairwise" u req fresh = .ok (hash (u ++ req.sectorIdentifierUri.getD "" ++ salt)) := by
  unfold grantSub SubCfg.minter
  rcases h with ⟨h, rfl⟩ | ⟨h, rfl⟩ | h <;> rw [h] <;> rfl

/-- C61, public subjects, in part.  After every history of requests, logins, token requests and revocations, the subject of
every grant is the hash of the user who logged in for it and the salt: it is the same at all clients, and different users'
grants have different subjects.  What is missing: pairwise subjects, which the endpoint never uses. -/
theorem C61_public_partial (p : Prov) (U : String → Prop) (hn : Names p U) (hash : String → String) (cfg : SubCfg) (fresh salt : String)
    (hp : PublicWith cfg salt) (hE : p.E.subOf = authzSub hash cfg fresh)
    (now : Int) (ops : List POp) (hf : ∀ op ∈ ops, FairP p U op)
    (r : Nat) (g : Grant) (hg : GrantAt (provHistory p now ops).w r g)
    (r' : Nat) (g' : Grant) (hg' : GrantAt (provHistory p now ops).w r' g') :
    ∃ u u', UserOf g u ∧ UserOf g' u' ∧ g.sub = hash (u ++ salt) ∧
      (u = u' → g.sub = g'.sub) ∧ (NoCollision hash (u ++ salt) (u' ++ salt) → g.sub = g'.sub → u = u') := by
  obtain ⟨u, c, req, ev, _, _, _, h1, h2, h3, _⟩ := C68_grant_vetted_partial p U hn now ops hf r g hg
  obtain ⟨u', c', req', ev', _, _, _, h1', h2', h3', _⟩ := C68_grant_vetted_partial p U hn now ops hf r' g' hg'
  rw [hE, authzSub_eq hp] at h3 h3'
  refine ⟨u, u', ⟨ev, h1, h2⟩, ⟨ev', h1', h2'⟩, h3, ?_, ?_⟩
  · rintro rfl; rw [h3, h3']
  · intro hc he
    rw [h3, h3'] at he
    exact append_right_inj' (hc he)

/-- C61, pairwise subjects, in part: for whoever asks the session manager for them.  They differ between sectors for one
user, and between users in one sector.  What is missing: different users in different sectors; and the authorization
endpoint does not ask for them. -/
theorem C61_pairwise_partial (hash : String → String) (cfg : SubCfg) (salt : String) (hp : PairwiseWith cfg salt)
    (u u' fresh : String) (req req' : AuthzReq) :
    ∃ s s', grantSub hash cfg "pairwise" u req fresh = .ok s ∧ grantSub hash cfg "pairwise" u' req' fresh = .ok s' ∧
      (u = u' → req.sectorIdentifierUri.getD "" = req'.sectorIdentifierUri.getD "" → s = s') ∧
      (NoCollision hash (u ++ req.sectorIdentifierUri.getD "" ++ salt) (u' ++ req'.sectorIdentifierUri.getD "" ++ salt) → s = s' →
        (u = u' ↔ req.sectorIdentifierUri.getD "" = req'.sectorIdentifierUri.getD "")) := by
  refine ⟨_, _, grantSub_pairwise hp fresh u req, grantSub_pairwise hp fresh u' req', ?_, ?_⟩
  · intro h1 h2; rw [h1, h2]
  · intro hc he
    have h := append_right_inj' (hc he)
    constructor
    · rintro rfl; exact append_left_inj' h
    · intro hs
      rw [hs] at h
      exact append_right_inj' h

namespace Ex

/-- A "hash" without collisions. -/
def idHash (s : String) : String := "h" ++ s

def subCfg : SubCfg := { salt := "s" }

/-- The provider of the examples, with hashed subjects and clients registered for pairwise ones. -/
def provSub : Prov :=
  { prov with
    E := { E with subOf := authzSub idHash subCfg "" }
    clients := [("c1", { redirectUris := some [.pair "https://rp/cb" []], responseTypes := ["code"],
                         subjectType := some "pairwise", sectorId := some "rp" }),
                ("c2", { redirectUris := some [.pair "https://rp2/cb" []], responseTypes := ["code"],
                         subjectType := some "pairwise", sectorId := some "rp2" })] }

theorem names_provSub : Names provSub isD := by
  refine ⟨(names_prov).users, fun c hc => ?_, (names_prov).sids⟩
  exact names_prov.clients c (by
    rcases twoClients hc with rfl | rfl <;> decide)

/-- The user logs in for each client. -/
def twoLogins : List POp :=
  [.request "c1" (authzReq "c1") [] [] none, .loggedIn 0 "d",
   .request "c2" { authzReq "c2" with redirectUri := some "https://rp2/cb" } [] [] none, .loggedIn 1 "d"]

theorem fair_twoLogins : ∀ op ∈ twoLogins, FairP provSub isD op := by
  intro op hop
  simp only [twoLogins, List.mem_cons, List.not_mem_nil, or_false] at hop
  rcases hop with rfl | rfl | rfl | rfl <;> first | trivial | rfl

/-- The subjects of the grants, by reference. -/
def subjects (s : PState) : List (Nat × String × Option String) :=
  (List.range s.w.st.heap.length).filterMap (fun r => match (s.w.st.heap[r]? : Option Obj) with
    | some (.grant g) => some (r, g.sub, g.authzReq.bind AuthzReq.clientId)
    | _ => none)

example : subjects (provHistory provSub 1000 twoLogins) = [(2, "hds", some "c1"), (4, "hds", some "c2")] := by decide +kernel

theorem publicWith_subCfg : PublicWith subCfg "s" := .inl ⟨by decide, rfl⟩

/-- The hypotheses of C61_public_partial are met. -/
example := C61_public_partial provSub isD names_provSub idHash subCfg "" "s" publicWith_subCfg rfl 1000 twoLogins fair_twoLogins

/-- C61 is false of the code: two clients in different sectors, registered for pairwise subjects, see the same subject. -/
theorem C61_pairwise_client_refuted :
    ¬ (∀ (p : Prov) (U : String → Prop), Names p U → ∀ (hash : String → String) (cfg : SubCfg) (fresh salt : String),
      PublicWith cfg salt → PairwiseWith cfg salt → p.E.subOf = authzSub hash cfg fresh → (∀ a b, NoCollision hash a b) →
      ∀ (now : Int) (ops : List POp), (∀ op ∈ ops, FairP p U op) →
      ∀ (r r' : Nat) (g g' : Grant), GrantAt (provHistory p now ops).w r g → GrantAt (provHistory p now ops).w r' g' →
      ∀ c c' sec sec', ClientOf g c → ClientOf g' c' → PairwiseClient p c sec → PairwiseClient p c' sec' → sec ≠ sec' →
      g.sub ≠ g'.sub) := by
  intro h
  have hg : ∀ r, (provHistory provSub 1000 twoLogins).w.st.heap[r]? ≠ none →
      ((provHistory provSub 1000 twoLogins).w.st.heap[r]?.map (fun o => match o with
        | .grant _ => true | _ => false)) = some true →
      ∃ g, GrantAt (provHistory provSub 1000 twoLogins).w r g := by
    intro r _ hr
    cases ho : (provHistory provSub 1000 twoLogins).w.st.heap[r]? with
    | none => rw [ho] at hr; cases hr
    | some o =>
      rw [ho] at hr
      cases o with
      | grant g => exact ⟨g, ho⟩
      | info i => simp at hr
  obtain ⟨g, h1⟩ := hg 2 (by decide +kernel) (by decide +kernel)
  obtain ⟨g', h2⟩ := hg 4 (by decide +kernel) (by decide +kernel)
  have key : ∀ (r : Nat) (x : Grant) (s c : String), GrantAt (provHistory provSub 1000 twoLogins).w r x →
      ((provHistory provSub 1000 twoLogins).w.st.heap[r]?.map (fun o => match o with
        | .grant g => (g.sub, g.authzReq.bind AuthzReq.clientId) | _ => ("", none))) = some (s, some c) → x.sub = s ∧ ClientOf x c := by
    intro r x s c hx hs
    have hx' : (provHistory provSub 1000 twoLogins).w.st.heap[r]? = some (.grant x) := hx
    rw [hx'] at hs
    simp only [Option.map_some, Option.some.injEq, Prod.mk.injEq] at hs
    refine ⟨hs.1, ?_⟩
    cases hr : x.authzReq with
    | none => rw [hr] at hs; simp at hs
    | some q => rw [hr] at hs; exact ⟨q, hr, hs.2⟩
  obtain ⟨k1, k2⟩ := key 2 g "hds" "c1" h1 (by decide +kernel)
  obtain ⟨k3, k4⟩ := key 4 g' "hds" "c2" h2 (by decide +kernel)
  refine h provSub isD names_provSub idHash subCfg "" "s" publicWith_subCfg (.inl ⟨by decide, rfl⟩) rfl
    (fun a b e => append_left_inj' e) 1000 twoLogins fair_twoLogins 2 4 g g' h1 h2 "c1" "c2" "rp" "rp2" k2 k4
    ⟨_, rfl, rfl, rfl⟩ ⟨_, rfl, rfl, rfl⟩ (by decide) ?_
  rw [k1, k3]

/-- C61 is false of the minters too: the texts are put together without separators, so two users in two sectors can have
the same subject, whatever the hash is. -/
theorem C61_concatenation_refuted (hash : String → String) (cfg : SubCfg) (salt : String) (hp : PairwiseWith cfg salt) :
    ∃ u u' req req' s, u ≠ u' ∧ req.sectorIdentifierUri ≠ req'.sectorIdentifierUri ∧
      grantSub hash cfg "pairwise" u req "" = .ok s ∧ grantSub hash cfg "pairwise" u' req' "" = .ok s := by
  refine ⟨"ann", "annhttps://a", { sectorIdentifierUri := some "https://a" }, {}, hash ("annhttps://a" ++ salt), by decide, by decide, ?_, ?_⟩
  · rw [grantSub_pairwise hp]
    rfl
  · rw [grantSub_pairwise hp]
    rfl

/-- Another sector, another subject: the hypotheses of C61_pairwise_partial are met. -/
example : grantSub idHash subCfg "pairwise" "d" { sectorIdentifierUri := some "a" } "" = .ok "hdas" ∧
    grantSub idHash subCfg "pairwise" "d" { sectorIdentifierUri := some "b" } "" = .ok "hdbs" := by decide +kernel

end Ex
end OidcOp
