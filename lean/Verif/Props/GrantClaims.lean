/-
C43 for the claims that a grant is given when the user has authorized a client.
-/
import Verif.Props.ClaimSources

namespace OidcOp
open Spec

theorem claimsAllUsage_get? {cfg : ClaimsCfg} {req : Option AuthzReq} {scopes : Option (List String)} {client : Option String}
    {db db' : ClaimsDb} {cs : Dict (Dict Json)} (ps : List String)
    (h : claimsAllUsage cfg req scopes client ps db = (.ok cs, db')) :
    db' = db ∧ (∀ p ∈ ps, ∃ r, claimsFromRequest cfg req p scopes client none db = (.ok r, db) ∧ cs.get? p = some r) ∧
    ∀ p, p ∉ ps → cs.get? p = none := by
  induction ps generalizing cs with
  | nil => cases h; exact ⟨rfl, by simp, fun _ _ => rfl⟩
  | cons a t ih =>
    unfold claimsAllUsage at h
    have hdb := claimsFromRequest_db cfg db req a scopes client none (.inl rfl)
    cases h1 : claimsFromRequest cfg req a scopes client none db with
    | mk r1 db1 =>
      rw [h1] at h hdb
      simp only [] at hdb
      subst hdb
      cases r1 with
      | error e => cases h
      | ok c =>
        simp only [] at h
        cases h2 : claimsAllUsage cfg req scopes client t db1 with
        | mk r2 db2 =>
          rw [h2] at h
          cases r2 with
          | error e => cases h
          | ok r =>
            cases h
            obtain ⟨e, h3, h4⟩ := ih h2
            subst e
            refine ⟨rfl, ?_, ?_⟩
            · intro p hp
              rw [Dict.get?_cons]
              by_cases hpa : a = p
              · subst hpa
                exact ⟨c, h1, by simp⟩
              · rw [if_neg hpa]
                rcases List.mem_cons.1 hp with rfl | hp
                · exact absurd rfl hpa
                · exact h3 p hp
            · intro p hp
              simp only [List.mem_cons, not_or] at hp
              rw [Dict.get?_cons, if_neg (Ne.symm hp.1)]
              exact h4 p hp.2

/-- C43.  The claims that a grant is given when the user has authorized a client say, for the user info endpoint, introspection, ID
tokens and access tokens of an OpenID Connect provider, and for introspection and access tokens of an OAuth 2.0 server, what is
to be released there: exactly the claims with a source, by the settings of the client as they are.  They say nothing of
other places, and nothing is said to be released where there is no module. -/
theorem C43_grant (cfg : ClaimsCfg) (g : Grant) (req : AuthzReq) (c : String) (scopes : List String) (db db' : ClaimsDb)
    (cs : Dict (Dict Json)) (hr : g.authzReq = some req) (hcl : req.clientId = some c) (hne : c ≠ "")
    (hreg : cfg.scopes.cdb.get? c ≠ none) (h : grantClaims cfg g c scopes db = (.ok cs, db')) (p : String) :
    db' = db ∧
    (p ∉ (if cfg.oidc then ["userinfo", "introspection", "id_token", "access_token"] else ["introspection", "access_token"]) →
      cs.get? p = none) ∧
    (p ∈ (if cfg.oidc then ["userinfo", "introspection", "id_token", "access_token"] else ["introspection", "access_token"]) →
      ∃ r, cs.get? p = some r ∧ (cfg.modules.get? p = none → r = []) ∧
      ∀ m, cfg.modules.get? p = some m → ProperClaims m (OwnSettings m db c) req p →
        ∀ k x, r.get? k = some x ↔ ToRelease cfg m (OwnSettings m db c) req c p none scopes k x) := by
  unfold grantClaims at h
  rw [hr] at h
  obtain ⟨h1, h2, h3⟩ := claimsAllUsage_get? _ h
  refine ⟨h1, fun hp => h3 p hp, fun hp => ?_⟩
  have hp' : p ∈ releasePoints cfg.oidc := hp
  obtain ⟨r, h4, h5⟩ := h2 p hp'
  have hc : (truthyStr (if cfg.oidc = true then none else some c)).or req.clientId = some c := by
    rw [hcl]
    split
    · rfl
    · simp [truthyStr, hne]
  have hgm : ∀ m, cfg.modules.get? p = some m → getModule cfg p = .ok (some m) := by
    intro m hm
    unfold getModule
    rw [if_neg (by simpa using hp'), hm]
    simp
  refine ⟨r, h5, fun hm => ?_, fun m hm hpc k x => C43_sources cfg m db db req p c scopes _ none r (hgm m hm) hc hne hreg hpc h4 k x⟩
  unfold claimsFromRequest getModule at h4
  rw [if_neg (by simpa using hp'), hm] at h4
  by_cases hu : p = "userinfo" ∨ p = "introspection"
  · rw [if_pos hu] at h4
    cases h4; rfl
  · rw [if_neg hu] at h4
    cases h4

namespace Ex

/-- A provider with modules at all four places. -/
def allCfg : ClaimsCfg :=
  { claimsCfg with
    oidc := true
    modules := [("userinfo", { byScope := true }), ("introspection", {}), ("id_token", {}), ("access_token", {})] }

def allClaims : Dict (Dict Json) :=
  [("userinfo", [("sub", .null), ("email", .obj [("essential", .bool true)]), ("email_verified", .null)]), ("introspection", []),
   ("id_token", []), ("access_token", [])]

theorem allClaims_eq : grantClaims allCfg { (default : Grant) with authzReq := some claimsReq } "rp" ["openid", "email"] claimsDb =
    (.ok allClaims, claimsDb) := by decide +kernel

/-- The scope email has an effect at the user info endpoint and nowhere else. -/
example : ToRelease allCfg { byScope := true } none claimsReq "rp" "userinfo" none ["openid", "email"] "email_verified" .null := by
  obtain ⟨-, -, h⟩ := C43_grant allCfg { (default : Grant) with authzReq := some claimsReq } claimsReq "rp" ["openid", "email"] claimsDb
    claimsDb allClaims rfl rfl (by decide) (by decide +kernel) allClaims_eq "userinfo"
  obtain ⟨r, hr, -, h⟩ := h (by decide)
  have e : r = [("sub", .null), ("email", .obj [("essential", .bool true)]), ("email_verified", .null)] := by
    have : allClaims.get? "userinfo" = some [("sub", .null), ("email", .obj [("essential", .bool true)]), ("email_verified", .null)] := by
      decide +kernel
    rw [this] at hr
    exact (Option.some.inj hr).symm
  subst e
  have hq : claimsReq.claims.get? "userinfo" = some [("email", .obj [("essential", .bool true)])] := by decide +kernel
  have hp : ProperClaims { byScope := true } (OwnSettings { byScope := true } claimsDb "rp") claimsReq "userinfo" := by
    constructor
    · intro d h; cases h
    · intro cl p d h; cases h
    · intro d h
      rw [hq] at h
      cases h
      decide +kernel
  exact (h { byScope := true } rfl hp "email_verified" .null).1 (by decide +kernel)

end Ex

end OidcOp
