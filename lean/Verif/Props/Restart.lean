/-
C87: a provider that is started again with its stored session state goes on as if it had not stopped.
-/
import Verif.Lemmas.Restart
import Verif.Lemmas.Parts
import Verif.Model.TokenCookie
import Verif.Spec.Restart
import Verif.Props.Isolation

namespace OidcOp
open Spec

theorem sim_userinfo {E : Env} {U : String → Prop} {w w' : World} (h : Sim U w w') (db : Option UserDb) {v : String}
    (hk : Known E U v) : userinfoProcess E db w' v = userinfoProcess E db w v := by
  unfold userinfoProcess
  rw [h.now]
  rcases sim_byToken h hk with ⟨e, h1, h2⟩ | ⟨s, r, i, h1, h2, -⟩
  · rw [h1, h2]
  · rw [h1, h2]
    rfl

theorem withId_introspectScope (g : Grant) (i : String) (t : Token) : introspectScope (g.withId i) t = introspectScope g t := by
  unfold introspectScope
  split
  · rfl
  · split
    · exact withId_findScope g i _
    · rfl

theorem withId_introspectToken (issuer : String) (extra : String → Dict Json) (now : Int) (s : Sess) (r : Nat) (i : String)
    (t : Token) : introspectToken issuer extra now { s with ref := r, grant := s.grant.withId i } t =
      introspectToken issuer extra now s t := by
  unfold introspectToken
  simp only [withId_introspectScope]
  rfl

theorem sim_introspection {E : Env} {U : String → Prop} {w w' : World} (h : Sim U w w') (db : Option UserDb) (issuer : String)
    (extra : String → Dict Json) (username : Bool) {v : String} (hk : Known E U v) :
    introspectProcess E db issuer extra username w' v = introspectProcess E db issuer extra username w v := by
  unfold introspectProcess
  rw [h.now]
  rcases sim_byToken h hk with ⟨e, h1, h2⟩ | ⟨s, r, i, h1, h2, -⟩
  · rw [h1, h2]
  · rw [h1, h2]
    simp only [withId_introspectToken]
    rfl

/-- C87.  Take any history with stops and starts in between, and the same history
without them.  Every authorization and token response was the same, every record of a user, a client session and a grant has
the same content, and the next requests are accepted, refused and answered in the same way, at the authorization, token, user
info and introspection endpoints.  What is left out: the session
cookie that comes with a token response, for which the claim is false (`C87_token_cookie_refuted`), and token values that were
forged. -/
theorem C87_restart_partial (E : Env) (U : String → Prop)
    (hU : ∀ n u c g, (SKey.gra u c g).Good U → ¬ U (E.encSid n [u, c, g])) (hcl : ClaimsIgnoreId E) (now : Int)
    (ops : List ROp) (hf : ∀ o ∈ uninterrupted ops, FairR E U o) :
    AnswersLike E U (run E { now := now } (uninterrupted ops)) (rrun E { now := now } ops) := by
  obtain ⟨hw, hs⟩ := sim_run hU hcl ops hf (winv_init E _ now) (sim_init U now)
  refine ⟨hs.log, fun k hk => sim_found hs hk, fun c req hr => (sim_tokenParse hs hU c hr).1,
    fun req hr kw => (sim_tokenProcess hw hs hU kw hr).1, hs.pool, ?_,
    fun db v hk => sim_userinfo hs db hk, fun db iss ex un v hk => sim_introspection hs db iss ex un hk⟩
  intro sid req hS
  rcases (sim_postAuthentication hs hU hcl hS req).1 with ⟨e, h1, h2⟩ | ⟨h1, h2⟩ | ⟨s, r, i, a, h1, h2⟩ <;> rw [h1, h2] <;> rfl

/-- With the claims of the code, the hypothesis on claims is met. -/
theorem claimsOf_ignores_id (p : Parts) (sid : String) (g : Grant) (i : String) (sc : List String) :
    p.claimsOf sid { g with id := i } sc = p.claimsOf sid g sc := rfl

/-- Started again with the dump of what was read from a dump: nothing more changes, but for the internal identifiers. -/
theorem C87_twice (ids ids' : Nat → String) (s : Store) :
    Store.loaded ids' (Store.loaded ids s.dump).dump = Store.loaded ids' s.dump := by
  have hd : ∀ d : Dict Obj, (Store.loaded ids d).dump = d.mapIdx (fun i p => (p.1, p.2.reborn (ids i))) := by
    intro d
    unfold Store.dump
    have h1 : ∀ p ∈ (Store.loaded ids d).db, ((Store.loaded ids d).obj p.2).map (fun o => (p.1, o)) =
        some (p.1, (((Store.loaded ids d).obj p.2).getD (.grant {}))) := by
      intro p hp
      obtain ⟨i, hi, rfl⟩ := List.mem_mapIdx.1 hp
      simp [Store.loaded, Store.obj, hi]
    have h2 : ∀ l : Dict Nat, (∀ p ∈ l, p ∈ (Store.loaded ids d).db) →
        l.filterMap (fun p => ((Store.loaded ids d).obj p.2).map (fun o => (p.1, o))) =
        l.map (fun p => (p.1, (((Store.loaded ids d).obj p.2).getD (.grant {})))) := by
      intro l hl
      induction l with
      | nil => rfl
      | cons p r ih =>
        rw [List.filterMap_cons, h1 p (hl p (by simp)), ih (fun x hx => hl x (by simp [hx]))]
        rfl
    rw [h2 _ (fun _ h => h)]
    apply List.ext_getElem?
    intro i
    by_cases hi : i < d.length
    · simp [Store.loaded, Store.obj, hi]
    · simp [Store.loaded, hi]
  rw [hd]
  have hr : ∀ i j (o : Obj), (o.reborn i).reborn j = o.reborn j := by intro i j o; cases o <;> rfl
  simp only [Store.loaded, List.mapIdx_mapIdx, Function.comp_def, hr]

end OidcOp

namespace OidcOp.Ex
open OidcOp Spec

/-- Login, authorization, stop and start, code exchange, stop and start, refresh. -/
def stopped : List ROp :=
  [.op (.login "d" "c1" (authzReq "c1") event), .op (.authorize (sid "c1" 0) (authzReq "c1")), .restart (fun n => toString n),
   .op (.tick 5), .op (.parse "c1" (codeReq (E.mkVal 1 .authorizationCode (sid "c1" 0)))), .op (.process 0 none),
   .restart (fun n => toString (n + 10)),
   .op (.parse "c1" (refreshReq (E.mkVal 3 .refreshToken (sid "c1" 0)) none)), .op (.process 1 none)]

theorem sidFor_c1 : SidFor E Users (sid "c1" 0) :=
  ⟨0, "d", "c1", E.uuid 0, ⟨.inl rfl, ⟨by decide, by decide⟩, ⟨by decide, by decide⟩, E.uuid_clean 0⟩, rfl⟩

theorem fair_stopped : ∀ o ∈ uninterrupted stopped, FairR E Users o := by
  have hg : (SKey.gra "d" "c1" (E.uuid 0)).Good Users :=
    ⟨.inl rfl, ⟨by decide, by decide⟩, ⟨by decide, by decide⟩, E.uuid_clean 0⟩
  have k1 : Known E Users (E.mkVal 1 .authorizationCode (sid "c1" 0)) :=
    known_made (n := 1) (c := .authorizationCode) (sid := sid "c1" 0) (minter_ok rfl) sidFor_c1
  have k3 : Known E Users (E.mkVal 3 .refreshToken (sid "c1" 0)) :=
    known_made (n := 3) (c := .refreshToken) (sid := sid "c1" 0) (minter_ok rfl) sidFor_c1
  intro o ho
  simp only [stopped, uninterrupted, List.mem_cons, List.not_mem_nil, or_false] at ho
  rcases ho with rfl | rfl | rfl | rfl | rfl | rfl | rfl
  · exact good_cli_of_gra hg
  · exact sidFor_c1
  · trivial
  · refine ⟨trivial, ?_⟩
    rintro v (h | h)
    · cases h; exact k1
    · cases h
  · trivial
  · refine ⟨trivial, ?_⟩
    rintro v (h | h)
    · cases h
    · cases h; exact k3
  · trivial

/-- C87 says something about this history, in which three responses are given. -/
example : AnswersLike E Users (run E init (uninterrupted stopped)) (rrun E init stopped) ∧
    (rrun E init stopped).log.length = 3 :=
  ⟨C87_restart_partial E Users users_sid (fun _ _ _ _ => rfl) 1000 stopped fair_stopped, by decide +kernel⟩

end OidcOp.Ex

namespace OidcOp
open Spec Ex

/-- The access token of the history. -/
def soldToken : String := E.mkVal 2 .accessToken (sid "c1" 0)

/-- C87 is false of the session cookie of the token endpoint: it has the internal identifier of the grant, which is not stored. -/
theorem C87_token_cookie_refuted :
    ¬ (∀ (E : Env) (U : String → Prop), (∀ n u c g, (SKey.gra u c g).Good U → ¬ U (E.encSid n [u, c, g])) → ClaimsIgnoreId E →
      ∀ (now : Int) (ops : List ROp), (∀ o ∈ uninterrupted ops, FairR E U o) → ∀ a : String,
        tokenCookie E (rrun E { now := now } ops) a = tokenCookie E (run E { now := now } (uninterrupted ops)) a) := by
  intro h
  have := h E Users users_sid (fun _ _ _ _ => rfl) 1000 stopped fair_stopped soldToken
  revert this
  decide +kernel

/-- The cookie before, the cookie after: the second names a grant that does not exist. -/
example : tokenCookie E (run E init (uninterrupted stopped)) soldToken = .ok { sid := "d;;c1;;u", timestamp := 1005 } ∧
    tokenCookie E (rrun E init stopped) soldToken = .ok { sid := "d;;c1;;12", timestamp := 1005 } ∧
    dbGet ⟨"d", some "c1", some "12"⟩ (rrun E init stopped).st = .error .valueError := by
  decide +kernel

/-- After two restarts, introspection of the access token still tells that it is active, and whose it is. -/
example : ((introspectProcess E none "https://op" (fun _ => []) true (rrun E init stopped) soldToken).toOption.map
      (fun d => (d.get? "active", d.get? "username", d.get? "client_id"))) =
    some (some (.bool true), some (.str "d"), some (.str "c1")) := by
  decide +kernel

end OidcOp
