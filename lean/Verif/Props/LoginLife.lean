/-
C80: a login counts for its life time, and nothing prolongs it.
-/
import Verif.Props.ProviderExamples
import Verif.Props.ResourceExamples
import Verif.Spec.LoginLife

namespace OidcOp
open Spec

theorem eventOf_loginEvent (x : LoginRec) : EventOf x (loginEvent x.method x.time x.user) := by
  refine ⟨rfl, rfl, rfl, ?_⟩
  unfold loginEvent LoginLife
  cases he : x.method.expiresIn with
  | none => exact ⟨3600, .inl ⟨.inl rfl, rfl⟩, rfl⟩
  | some t =>
    by_cases h0 : t = 0
    · exact ⟨3600, .inl ⟨.inr (by rw [h0]), rfl⟩, by simp only []; rw [if_pos h0]⟩
    · exact ⟨t, .inr ⟨rfl, h0⟩, by simp only []; rw [if_neg h0]⟩

/-- C80, for names as in C68.  Behind every grant that a provider ever makes there is a login, on a login page and for the
same client, and the grant's authentication event says who logged in, how, when, and until when this counts.  The grant was
made right at the login, or later, while the login counted. -/
theorem C80_grant_partial (p : Prov) (U : String → Prop) (hn : Names p U) (now : Int) (ops : List POp)
    (hf : ∀ op ∈ ops, FairP p U op) (r : Nat) (g : Grant) (hg : GrantAt (provHistory p now ops).w r g) :
    ∃ x ∈ (provHistory p now ops).logins, ∃ req ev, g.authzReq = some req ∧ req.clientId = x.req.clientId ∧
      g.authnEvent = some ev ∧ EventOf x ev ∧
      (g.issuedAt = x.time ∨ x.time ≤ g.issuedAt ∧ g.issuedAt < ev.validUntil) := by
  obtain ⟨u, c, hgg⟩ := (pinv_history hn (passing_vetted p (names_ne hn)) now ops hf).world.all r g (grantAt_spec.1 hg)
  obtain ⟨req, h1, h2, _⟩ := hgg.req
  obtain ⟨ev, h3, _, ⟨x, l1, _, l3, rfl⟩, h4⟩ := hgg.event
  exact ⟨x, l1, req, _, h1, by rw [h2, l3], h3, eventOf_loginEvent x, h4⟩

/-- C80, for names as in C68.  When a request gets its answer without a login page, the user named in the answer has logged
in for the client before, and this login still counts. -/
theorem C80_answer_partial (p : Prov) (U : String → Prop) (hn : Names p U) (now : Int) (ops : List POp)
    (hf : ∀ op ∈ ops, FairP p U op) (req : AuthzReq) (hint : List String) (is : List Nat) (ru : Option (Option String))
    (sid user : String) (k : Option SessionCookie) (w' : World)
    (h : processAuthz p.L p.E (provHistory p now ops).w req hint (pickCookies (provHistory p now ops) is) ru =
      (.ok (.part2 sid user k), w')) :
    ∃ x ∈ (provHistory p now ops).logins, x.user = user ∧ x.req.clientId = req.clientId ∧
      x.time ≤ (provHistory p now ops).w.now ∧
      ∃ t, LoginLife x.method t ∧ (provHistory p now ops).w.now < x.time + t := by
  obtain ⟨hinv, ht⟩ := pinv_times hn (passing_vetted p (names_ne hn)) now ops hf
  generalize provHistory p now ops = s at h hinv ht
  have hck : ∀ k ∈ pickCookies s is, SidFor p.E U k.sid := by
    intro k hk
    unfold pickCookies at hk
    rw [List.mem_filterMap] at hk
    obtain ⟨i, _, hi⟩ := hk
    exact hinv.cookies k (List.mem_of_getElem? hi)
  have key : ∀ m w'', setupAuth p.E p.L.loads m s.w req (pickCookies s is) ru = (.ok (.session sid user), w'') →
      ∃ x ∈ s.logins, x.user = user ∧ x.req.clientId = req.clientId ∧ x.time ≤ s.w.now ∧
        ∃ t, LoginLife x.method t ∧ s.w.now < x.time + t := by
    intro m w'' he
    obtain ⟨k, hk, c, s0, ev, hcf, hrc, hso, -, hev, hval, -⟩ :=
      C38_reuse_partial p.E p.L.loads m s.w w'' req _ ru sid user
        (plainCookies_of (fun u hu => (hn.users u hu).2) hck) he
    obtain ⟨n, u', c', g', hgood, hke⟩ := hck k hk
    have hd := p.E.decrypt_enc n u' c' g' hgood.2.1 hgood.2.2.1 hgood.2.2.2
    obtain ⟨g1, hcf⟩ := hcf
    rw [hke] at hcf hso
    rw [hd] at hcf
    simp only [Except.ok.injEq, List.cons.injEq] at hcf
    obtain ⟨rfl, rfl, _⟩ := hcf
    obtain ⟨ev', e1, _, ⟨x, l1, l2, l3, l4⟩, _⟩ := (session_good hinv.world hgood hso).event
    rw [hev] at e1
    cases e1
    obtain ⟨_, _, _, t, t1, t2⟩ := eventOf_loginEvent x
    refine ⟨x, l1, l2, by rw [l3, hrc], ht x l1, t, t1, ?_⟩
    rw [← t2, ← l4]
    exact hval
  unfold processAuthz at h
  split at h
  · cases h
  · split at h
    · cases h
    · split at h
      · cases h
      · split at h
        · cases h
        · rename_i m _
          split at h
          · cases h
          · cases h
          · cases h
          · rename_i sid1 user1 w1 he
            simp only [Prod.mk.injEq, Except.ok.injEq, ProcRes.part2.injEq] at h
            obtain ⟨⟨rfl, rfl, -⟩, -⟩ := h
            exact key m w1 he

/-- C80, for names as in C68.  The userinfo endpoint answers only while the login behind the token counts. -/
theorem C80_userinfo_partial (p : Prov) (U : String → Prop) (hn : Names p U) (now : Int) (ops : List POp)
    (hf : ∀ op ∈ ops, FairP p U op) (db : Option UserDb) (v : String) (info : Dict Json) (client : String)
    (h : userinfoProcess p.E db (provHistory p now ops).w v = .ok (.claims info client)) :
    ∃ x ∈ (provHistory p now ops).logins, ∃ t, LoginLife x.method t ∧ (provHistory p now ops).w.now ≤ x.time + t := by
  obtain ⟨g, t, ev, d, user, ⟨⟨r, hg⟩, _⟩, _, hev, hv, _⟩ := C45_userinfo_partial p.E db _ v info client h
  obtain ⟨x, hx, req, ev', _, _, he, ⟨_, _, _, l, h1, h2⟩, _⟩ := C80_grant_partial p U hn now ops hf r g hg
  rw [hev] at he
  cases he
  exact ⟨x, hx, l, h1, by rw [← h2]; exact hv⟩

namespace Ex

/-- The history of C68: the second grant was made five seconds after the login. -/
example : (provHistory prov 1000 session).w.st.heap.filterMap (fun o => match o with
      | .grant g => some (g.issuedAt, g.authnEvent.map (fun ev => (ev.uid, ev.authnInfo, ev.authnTime, ev.validUntil)))
      | _ => none) =
    [(1000, some ("d", "password", 1000, 4600)), (1005, some ("d", "password", 1000, 4600))] := by
  decide +kernel

example (r : Nat) (g : Grant) (hg : GrantAt (provHistory prov 1000 session).w r g) :
    ∃ ev, g.authnEvent = some ev ∧ ev.validUntil = 4600 := by
  obtain ⟨x, hx, req, ev, _, _, h1, ⟨_, _, _, t, h2, h3⟩, _⟩ := C80_grant_partial prov isD names_prov 1000 session fair_session r g hg
  have : (provHistory prov 1000 session).logins = [⟨"d", authzReq "c1", { acr := "password" }, 1000⟩] := by decide +kernel
  rw [this] at hx
  simp only [List.mem_singleton] at hx
  subst hx
  rcases h2 with ⟨_, rfl⟩ | ⟨h2, _⟩
  · exact ⟨ev, h1, h3⟩
  · cases h2

/-- A request with both cookies, after some time. -/
def later (d : Nat) : Except Exc ProcRes × World :=
  let s := provHistory prov 1000 (session ++ [.tick d])
  processAuthz prov.L prov.E s.w { authzReq "c1" with state := some "u" } [] (pickCookies s [1, 0]) none

/-- It gets its answer until an hour after the login, although the second cookie is younger. -/
example : (match (later 3594).1 with | .ok (.part2 _ u _) => some u | _ => none) = some "d" ∧
    (later 3595).1 = .ok (.loginPage { acr := "password" }) := by decide +kernel

/-- A user whose name is the base64url form of {"uid":"admin"} has logged in; every 50 minutes they send a request. -/
def trickOps : List POp :=
  [.request "c1" (authzReq "c1") [] [] none, .loggedIn 0 trickName, .tick 3000,
   .request "c1" { authzReq "c1" with state := some "t" } [0] [] none]

def trickProv : Prov := { prov with L := { prov.L with loads := adminJson } }

/-- C80 is false of the code for such names: there is a new authentication event, of a user who never logged in, and it
counts for an hour from the request on. -/
theorem C80_name_refuted :
    ¬ (∀ (p : Prov) (now : Int) (ops : List POp) (r : Nat) (g : Grant), GrantAt (provHistory p now ops).w r g →
      ∃ x ∈ (provHistory p now ops).logins, ∃ ev, g.authnEvent = some ev ∧ ev.uid = x.user ∧ ev.authnTime = x.time) := by
  intro h
  have hg : (provHistory trickProv 1000 trickOps).w.st.grantAt 5 =
      some (((provHistory trickProv 1000 trickOps).w.st.grantAt 5).getD {}) ∧
      (((provHistory trickProv 1000 trickOps).w.st.grantAt 5).getD {}).authnEvent.map
        (fun ev => (ev.uid, ev.authnTime, ev.validUntil)) = some ("admin", 4000, 7600) ∧
      (provHistory trickProv 1000 trickOps).logins.map (fun x => (x.user, x.time)) = [(trickName, 1000)] := by
    decide +kernel
  obtain ⟨h1, h2, h3⟩ := hg
  obtain ⟨x, hx, ev, h4, h5, -⟩ := h _ _ _ _ _ (grantAt_spec.2 h1)
  rw [h4] at h2
  simp only [Option.map_some, Option.some.injEq, Prod.mk.injEq] at h2
  have hx' : (x.user, x.time) ∈ [(trickName, (1000 : Int))] := by rw [← h3]; exact List.mem_map.2 ⟨x, hx, rfl⟩
  simp only [List.mem_singleton, Prod.mk.injEq] at hx'
  rw [h5, hx'.1] at h2
  exact absurd h2.1 (by decide)

end Ex

end OidcOp
