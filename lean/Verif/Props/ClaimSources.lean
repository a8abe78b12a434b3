/-
C43, C44, C69: where the claims to be released come from.
-/
import Verif.Props.Claims
import Verif.Props.Scopes

namespace OidcOp
open Spec

theorem get?_map_null (l : List String) (k : String) :
    Dict.get? (l.map (fun k => (k, Json.null))) k = if k ∈ l then some .null else none := by
  induction l with
  | nil => rfl
  | cons a r ih =>
    rw [List.map_cons, Dict.get?_cons, ih]
    by_cases h : a = k
    · subst h; simp
    · have h' : k ≠ a := fun e => h e.symm
      simp [h, h']

theorem get?_update_names (d : Dict Json) (l : List String) (k : String) :
    Dict.get? (d.update (l.map (fun k => (k, Json.null)))) k = if k ∈ l then some .null else d.get? k := by
  rw [Dict.get?_update, ← List.map_reverse, get?_map_null]
  by_cases h : k ∈ l <;> simp [h]

theorem lists_names {l : List String} {k : String} {x : Json} : Lists (.names l) k x ↔ k ∈ l ∧ x = .null := Iff.rfl

theorem addTo_spec (L : ClaimList) (hn : ∀ d, L = .specs d → d.keys.Nodup) (base : Dict Json) (k : String) (x : Json) :
    Dict.get? (L.addTo base) k = some x ↔ Lists L k x ∨ ((∀ y, ¬ Lists L k y) ∧ base.get? k = some x) := by
  cases L with
  | names l =>
    simp only [ClaimList.addTo, get?_update_names, Lists]
    by_cases h : k ∈ l
    · simp only [h, if_true, true_and, Option.some.injEq]
      constructor
      · intro e; exact .inl e.symm
      · rintro (e | ⟨e, _⟩)
        · exact e.symm
        · exact absurd rfl (e .null)
    · simp [h]
  | specs d =>
    simp only [ClaimList.addTo, Lists]
    rw [Dict.get?_update_of_nodup (hn d rfl)]
    cases h : d.get? k with
    | none => simp
    | some v =>
      simp only [Option.some.injEq]
      constructor
      · intro e; exact .inl e
      · rintro (e | ⟨e, _⟩)
        · exact e
        · exact absurd rfl (e v)

theorem mem_convertScopes (map : ScopeMap) (scopes : List String) (k : String) :
    k ∈ convertScopes map scopes ↔
      ∃ s ∈ scopes, ∃ l, (if map.isEmpty then scope2claims else map).get? s = some l ∧ k ∈ l := by
  unfold convertScopes
  have hf : ∀ (l acc : List String),
      k ∈ l.foldl (fun acc n => if acc.contains n then acc else acc ++ [n]) acc ↔ k ∈ acc ∨ k ∈ l := by
    intro l
    induction l with
    | nil => intro acc; simp
    | cons a r ih =>
      intro acc
      rw [List.foldl_cons, ih]
      by_cases h : acc.contains a = true
      · rw [if_pos h]
        rw [List.contains_iff_mem] at h
        constructor
        · rintro (h1 | h1)
          · exact .inl h1
          · exact .inr (List.mem_cons_of_mem _ h1)
        · rintro (h1 | h1)
          · exact .inl h1
          · rcases List.mem_cons.1 h1 with rfl | h2
            · exact .inl h
            · exact .inr h2
      · rw [if_neg h]
        simp [or_assoc]
  simp only [hf]
  simp only [List.not_mem_nil, false_or, List.mem_flatMap]
  constructor
  · rintro ⟨s, hs, hk⟩
    refine ⟨s, hs, ?_⟩
    cases hg : Dict.get? (if map.isEmpty then scope2claims else map) s with
    | none => rw [hg] at hk; simp at hk
    | some l => rw [hg] at hk; exact ⟨l, rfl, hk⟩
  · rintro ⟨s, hs, l, hl, hk⟩
    exact ⟨s, hs, by rw [hl]; exact hk⟩

theorem mem_scopesToClaims (cfg : ScopeCfg) (client : String) (scopes : List String) (k : String) (hne : client ≠ "")
    (hc : cfg.cdb.get? client ≠ none) :
    k ∈ scopesToClaims cfg [] (some client) scopes ↔ ScopeAdds cfg client scopes k := by
  unfold scopesToClaims ScopeAdds
  rw [if_pos (by rfl), mem_convertScopes]
  obtain ⟨cl, hcl⟩ : ∃ cl, cfg.cdb.get? client = some cl := by
    cases h : cfg.cdb.get? client with
    | none => exact absurd h hc
    | some cl => exact ⟨cl, rfl⟩
  have hmap : ∀ s, (∃ l, (if (scopesMapping cfg (some client)).isEmpty then scope2claims else
      scopesMapping cfg (some client)).get? s = some l ∧ k ∈ l) ↔ ScopeClaim cfg client s k := by
    intro s
    unfold ScopeClaim scopesMapping
    simp only [hne, if_false, hcl]
    cases h1 : cl.scopesToClaims with
    | some m =>
      simp only [Option.getD_some]
      cases m with
      | nil =>
        constructor
        · rintro ⟨l, hl, hk⟩
          exact ⟨cl, scope2claims, l, rfl, hl, hk, .inr (.inl ⟨h1, rfl⟩)⟩
        · rintro ⟨cl', m', l, he, hl, hk, h⟩
          cases he
          rcases h with ⟨h, hn⟩ | ⟨_, rfl⟩ | ⟨h, _⟩
          · rw [h1] at h; cases h; exact absurd rfl hn
          · exact ⟨l, hl, hk⟩
          · rw [h1] at h; cases h
      | cons p r =>
        constructor
        · rintro ⟨l, hl, hk⟩
          exact ⟨cl, _, l, rfl, hl, hk, .inl ⟨h1, by simp⟩⟩
        · rintro ⟨cl', m', l, he, hl, hk, h⟩
          cases he
          rcases h with ⟨h, hn⟩ | ⟨h, rfl⟩ | ⟨h, _⟩
          · rw [h1] at h; cases h; exact ⟨l, hl, hk⟩
          · rw [h1] at h; cases h
          · rw [h1] at h; cases h
    | none =>
      simp only [Option.getD_none]
      unfold ScopeCfg.map
      cases h2 : cfg.scopesToClaims with
      | none =>
        constructor
        · rintro ⟨l, hl, hk⟩
          refine ⟨cl, scope2claims, l, rfl, hl, hk, .inr (.inr ⟨h1, .inr ⟨.inl rfl, rfl⟩⟩)⟩
        · rintro ⟨cl', m', l, he, hl, hk, h⟩
          cases he
          rcases h with ⟨h, hn⟩ | ⟨h, rfl⟩ | ⟨_, ⟨h, _⟩ | ⟨_, rfl⟩⟩
          · rw [h1] at h; cases h
          · rw [h1] at h; cases h
          · cases h
          · exact ⟨l, hl, hk⟩
      | some m =>
        cases m with
        | nil =>
          constructor
          · rintro ⟨l, hl, hk⟩
            refine ⟨cl, scope2claims, l, rfl, hl, hk, .inr (.inr ⟨h1, .inr ⟨.inr rfl, rfl⟩⟩)⟩
          · rintro ⟨cl', m', l, he, hl, hk, h⟩
            cases he
            rcases h with ⟨h, hn⟩ | ⟨h, rfl⟩ | ⟨_, ⟨h, hn⟩ | ⟨_, rfl⟩⟩
            · rw [h1] at h; cases h
            · rw [h1] at h; cases h
            · cases h; exact absurd rfl hn
            · exact ⟨l, hl, hk⟩
        | cons p r =>
          constructor
          · rintro ⟨l, hl, hk⟩
            exact ⟨cl, _, l, rfl, hl, hk, .inr (.inr ⟨h1, .inl ⟨rfl, by simp⟩⟩)⟩
          · rintro ⟨cl', m', l, he, hl, hk, h⟩
            cases he
            rcases h with ⟨h, hn⟩ | ⟨h, rfl⟩ | ⟨_, ⟨h, hn⟩ | ⟨h | h, rfl⟩⟩
            · rw [h1] at h; cases h
            · rw [h1] at h; cases h
            · cases h; exact ⟨l, hl, hk⟩
            · cases h
            · cases h
  constructor
  · rintro ⟨s, hs, h⟩
    unfold filterScopes at hs
    rw [List.mem_filter] at hs
    exact ⟨s, hs.1, (mem_allowedScopes cfg client s hne hc).1 (by simpa using hs.2), (hmap s).1 h⟩
  · rintro ⟨s, hs, ha, h⟩
    refine ⟨s, ?_, (hmap s).2 h⟩
    unfold filterScopes
    rw [List.mem_filter]
    exact ⟨hs, by simpa using (mem_allowedScopes cfg client s hne hc).2 ha⟩

theorem clientByScope_spec (m : ClaimsModule) (cl : ClaimsClient) (point : String) (second : Option String) :
    clientByScope m cl point second = true ↔ ScopesCount m (some cl) point second := by
  unfold clientByScope ScopesCount truthyStr
  simp only [Option.some.injEq, exists_eq_left']
  by_cases he : cl.byScope.isEmpty = true
  · rw [if_pos he]
    have hg : ∀ k, cl.byScope.get? k = none := by
      intro k; rw [List.isEmpty_iff.1 he]; rfl
    simp [hg]
  · rw [if_neg he]
    cases h1 : cl.byScope.get? point with
    | none =>
      cases second with
      | none => simp
      | some s =>
        by_cases hs : s = ""
        · simp [hs]
        · simp only [hs, if_false, Option.getD_none, reduceCtorEq, false_or, Option.some.injEq, exists_eq_left', ne_eq,
            not_false_eq_true, true_and]
          cases h2 : cl.byScope.get? s with
          | none => simp
          | some b => cases b <;> simp
    | some b =>
      cases b with
      | true => simp
      | false =>
        cases second with
        | none => simp
        | some s =>
          by_cases hs : s = ""
          · simp [hs]
          · simp only [hs, if_false, Option.getD_some, Option.some.injEq, exists_eq_left', ne_eq,
              Bool.false_eq_true, false_or, not_false_eq_true, true_and]
            cases h2 : cl.byScope.get? s with
            | none => simp
            | some b => cases b <;> simp

theorem mem_keys_get? {α : Type} (d : Dict α) (k : String) : k ∈ d.keys ↔ ∃ x, d.get? k = some x := by
  rw [← Dict.get?_isSome_iff, Option.isSome_iff_exists]

theorem clientAlways_spec (m : ClaimsModule) (cl cl' : ClaimsClient) (point : String) (second : Option String)
    (L : ClaimList) (h : clientAlways cl point second = (.ok L, cl')) (k : String) (x : Json) :
    Lists L k x ↔ AlwaysAdds m (some cl) point second k x := by
  unfold AlwaysAdds
  simp only [reduceCtorEq, false_and, false_or, Option.some.injEq, exists_eq_left']
  unfold clientAlways truthyStr at h
  cases second with
  | none =>
    simp only [Prod.mk.injEq, Except.ok.injEq] at h
    obtain ⟨rfl, _⟩ := h
    cases h1 : cl.always.get? point <;> simp [Lists]
  | some s =>
    by_cases hs : s = ""
    · simp only [hs, if_true, Prod.mk.injEq, Except.ok.injEq] at h
      obtain ⟨rfl, _⟩ := h
      cases h1 : cl.always.get? point <;> simp [Lists, hs]
    · simp only [hs, if_false] at h
      simp only [reduceCtorEq, Option.some.injEq, hs, or_self, false_and, false_or, exists_eq_left', ne_eq,
        not_false_eq_true, true_and]
      cases h1 : cl.always.get? point with
      | none =>
        rw [h1] at h
        cases h2 : cl.always.get? s with
        | none =>
          simp only [h2, Prod.mk.injEq, Except.ok.injEq] at h
          obtain ⟨rfl, _⟩ := h
          simp [Lists]
        | some L2 =>
          cases L2 with
          | names l2 =>
            simp only [h2, Prod.mk.injEq, Except.ok.injEq] at h
            obtain ⟨rfl, _⟩ := h
            simp [Lists, and_comm]
          | specs d =>
            simp only [h2, Prod.mk.injEq, Except.ok.injEq] at h
            obtain ⟨rfl, _⟩ := h
            simp [Lists, and_comm, mem_keys_get?]
      | some L1 =>
        cases L1 with
        | specs d => simp [h1] at h
        | names l =>
          rw [h1] at h
          simp only [Prod.mk.injEq, Except.ok.injEq] at h
          obtain ⟨rfl, _⟩ := h
          cases h2 : cl.always.get? s with
          | none => simp [Lists, and_comm]
          | some L2 =>
            cases L2 with
            | names l2 => simp [Lists, and_comm]
            | specs d => simp [Lists, and_comm, mem_keys_get?]

theorem claimSettings_spec (m : ClaimsModule) (db db' : ClaimsDb) (c point : String) (second : Option String) (b : Bool)
    (L : ClaimList) (h : claimSettings m db (some c) point second = (.ok (b, L), db')) :
    (b = true ↔ ScopesCount m (OwnSettings m db c) point second) ∧
    (∀ k x, Lists L k x ↔ AlwaysAdds m (OwnSettings m db c) point second k x) ∧
    (∀ d, L = .specs d → m.always = .specs d ∨
      ∃ cl, OwnSettings m db c = some cl ∧ ∃ p, cl.always.get? p = some (.specs d)) := by
  have hmod : ∀ (own : Option ClaimsClient), own = none →
      (m.byScope = true ↔ ScopesCount m own point second) ∧
      (∀ k x, Lists m.always k x ↔ AlwaysAdds m own point second k x) := by
    rintro _ rfl
    constructor
    · simp [ScopesCount]
    · intro k x; simp [AlwaysAdds]
  unfold claimSettings at h
  cases hp : m.perClient with
  | false =>
    rw [hp] at h
    simp only [Prod.mk.injEq, Except.ok.injEq] at h
    obtain ⟨⟨rfl, rfl⟩, _⟩ := h
    have ho : OwnSettings m db c = none := by simp [OwnSettings, hp]
    exact ⟨(hmod _ ho).1, (hmod _ ho).2, fun d hd => .inl hd⟩
  | true =>
    rw [hp] at h
    have ho : OwnSettings m db c = db.get? c := by simp [OwnSettings, hp]
    cases hcl : db.get? c with
    | none =>
      simp only [hcl, Prod.mk.injEq, Except.ok.injEq] at h
      obtain ⟨⟨rfl, rfl⟩, _⟩ := h
      rw [hcl] at ho
      exact ⟨(hmod _ ho).1, (hmod _ ho).2, fun d hd => .inl hd⟩
    | some cl =>
      rw [hcl] at ho
      simp only [hcl] at h
      cases ha : clientAlways cl point second with
      | mk r cl' =>
        cases r with
        | error e => simp [ha] at h
        | ok L' =>
          simp only [ha, Prod.mk.injEq, Except.ok.injEq] at h
          obtain ⟨⟨rfl, rfl⟩, _⟩ := h
          rw [ho]
          refine ⟨clientByScope_spec m cl point second, clientAlways_spec m cl cl' point second L' ha, ?_⟩
          rintro d rfl
          refine .inr ⟨cl, rfl, point, ?_⟩
          unfold clientAlways at ha
          cases hs : truthyStr second with
          | none =>
            simp only [hs, Prod.mk.injEq, Except.ok.injEq] at ha
            cases h1 : cl.always.get? point with
            | none => simp [h1] at ha
            | some L1 => simp [h1] at ha; rw [ha.1]
          | some s =>
            simp only [hs] at ha
            cases h1 : cl.always.get? point with
            | none =>
              simp only [h1] at ha
              cases h2 : cl.always.get? s with
              | none => simp [h2] at ha
              | some L2 => cases L2 <;> simp [h2] at ha
            | some L1 => cases L1 <;> simp [h1] at ha

/-- C43: the claims that the interface names for release, and their specifications, are exactly those with a source: the
request's claims parameter, before the scopes that the client requested and may use, before the claims added always, before
the basic claims. -/
theorem C43_sources (cfg : ClaimsCfg) (m : ClaimsModule) (db db' : ClaimsDb) (req : AuthzReq) (point c : String)
    (scopes : List String) (client second : Option String) (r : Dict Json)
    (hm : getModule cfg point = .ok (some m)) (hc : (truthyStr client).or req.clientId = some c) (hne : c ≠ "")
    (hreg : cfg.scopes.cdb.get? c ≠ none) (hp : ProperClaims m (OwnSettings m db c) req point)
    (h : claimsFromRequest cfg (some req) point (some scopes) client second db = (.ok r, db')) (k : String) (x : Json) :
    r.get? k = some x ↔ ToRelease cfg m (OwnSettings m db c) req c point second scopes k x := by
  unfold claimsFromRequest at h
  simp only [hm, Option.bind_some, hc, Option.getD_some] at h
  cases hcs : claimSettings m db (some c) point second with
  | mk s db2 =>
    cases s with
    | error e => simp [hcs] at h
    | ok bl =>
      obtain ⟨b, L⟩ := bl
      simp only [hcs, Prod.mk.injEq, Except.ok.injEq] at h
      obtain ⟨rfl, _⟩ := h
      obtain ⟨hb, hL, hsp⟩ := claimSettings_spec m db db2 c point second b L hcs
      have hn : ∀ d, L = .specs d → d.keys.Nodup := by
        intro d hd
        rcases hsp d hd with h1 | ⟨cl, h1, p, h2⟩
        · exact hp.always d h1
        · exact hp.own cl p d h1 h2
      have hA := addTo_spec L hn m.base k
      simp only [hL] at hA
      have hsc := mem_scopesToClaims cfg.scopes c scopes k hne hreg
      -- claims of scopes over the ones before
      have hB : ∀ x, Dict.get? (if b then (L.addTo m.base).update
            ((scopesToClaims cfg.scopes [] (some c) scopes).map (fun k => (k, Json.null))) else L.addTo m.base) k = some x ↔
          ((ScopesCount m (OwnSettings m db c) point second ∧ ScopeAdds cfg.scopes c scopes k ∧ x = .null) ∨
           (¬ (ScopesCount m (OwnSettings m db c) point second ∧ ScopeAdds cfg.scopes c scopes k) ∧
            (AlwaysAdds m (OwnSettings m db c) point second k x ∨
             ((∀ y, ¬ AlwaysAdds m (OwnSettings m db c) point second k y) ∧ m.base.get? k = some x)))) := by
        intro x
        cases b with
        | false =>
          have hnot : ¬ ScopesCount m (OwnSettings m db c) point second := fun h => absurd (hb.2 h) (by simp)
          simp only [Bool.false_eq_true, if_false, hA x, hnot, false_and, false_or, not_false_eq_true, true_and]
        | true =>
          have hyes := hb.1 rfl
          simp only [if_true, get?_update_names, hyes, true_and]
          by_cases hk : k ∈ scopesToClaims cfg.scopes [] (some c) scopes
          · simp only [hk, if_true, hsc.1 hk, true_and, not_true_eq_false, false_and, or_false, Option.some.injEq]
            exact eq_comm
          · have hk' : ¬ ScopeAdds cfg.scopes c scopes k := fun h => hk (hsc.2 h)
            simp only [hk, if_false, hk', false_and, not_false_eq_true, true_and, false_or, hA x]
      unfold collectClaims ToRelease Requests
      simp only
      cases hr : req.claims.get? point with
      | none =>
        simp only [Option.getD_none, reduceCtorEq, false_and, exists_false, false_or, not_false_eq_true, implies_true,
          true_and]
        exact hB x
      | some d =>
        simp only [Option.getD_some, Option.some.injEq, exists_eq_left']
        rw [Dict.get?_update_of_nodup (hp.requested d hr)]
        cases hd : d.get? k with
        | none =>
          simp only [reduceCtorEq, false_or, not_false_eq_true, implies_true, true_and]
          exact hB x
        | some y =>
          simp only [Option.some.injEq]
          constructor
          · intro e; exact .inl e
          · rintro (e | ⟨e, _⟩)
            · exact e
            · exact absurd rfl (e y)

namespace Ex

/-- A server that releases claims by scope in user information, and lets clients have their own settings. -/
def claimsCfg : ClaimsCfg :=
  { modules := [("userinfo", { base := [("eduid", .null)], byScope := true, perClient := true }),
      ("id_token", { perClient := true })]
    scopes := { cdb := [("rp", {})] } }

def claimsDb : ClaimsDb :=
  [("rp", { byScope := [("id_token", false)], always := [("id_token", .names ["nick"]), ("userinfo", .names ["phone"])] })]

def claimsReq : AuthzReq :=
  { clientId := some "rp", claims := [("userinfo", [("email", .obj [("essential", .bool true)])])] }

end Ex

example : claimsFromRequest Ex.claimsCfg (some Ex.claimsReq) "userinfo" (some ["openid", "email", "secret"]) none none
    Ex.claimsDb =
    (.ok [("eduid", .null), ("phone", .null), ("sub", .null), ("email", .obj [("essential", .bool true)]),
      ("email_verified", .null)], Ex.claimsDb) := by decide +kernel

/-- C44 does not hold: an ID Token made as if user information was asked for leaves the claims that belong to user
information in the client's list for ID Tokens, so that the next ID Token is to contain them too. -/
theorem C44_pure_refuted :
    ∃ (cfg : ClaimsCfg) (db : ClaimsDb) (req : AuthzReq) (scopes : List String) (r r1 r2 : Dict Json) (db1 : ClaimsDb),
      claimsFromRequest cfg (some req) "id_token" (some scopes) none none db = (.ok r, db) ∧
      claimsFromRequest cfg (some req) "id_token" (some scopes) none (some "userinfo") db = (.ok r1, db1) ∧
      claimsFromRequest cfg (some req) "id_token" (some scopes) none none db1 = (.ok r2, db1) ∧
      db1 ≠ db ∧ r.get? "phone" = none ∧ r2.get? "phone" = some .null :=
  ⟨Ex.claimsCfg, Ex.claimsDb, Ex.claimsReq, ["openid"], [("nick", .null)], [("nick", .null), ("phone", .null)],
    [("nick", .null), ("phone", .null)],
    [("rp", { byScope := [("id_token", false)], always := [("id_token", .names ["nick", "phone"]),
      ("userinfo", .names ["phone"])] })],
    by decide +kernel, by decide +kernel, by decide +kernel, by decide +kernel, by decide +kernel, by decide +kernel⟩

/-- One evaluation of claims. -/
structure ClaimsCall where
  req : Option AuthzReq
  point : String
  scopes : Option (List String)
  client : Option String
  second : Option String

/-- The client database after a history of evaluations. -/
def claimsHistory (cfg : ClaimsCfg) (db : ClaimsDb) (calls : List ClaimsCall) : ClaimsDb :=
  calls.foldl (fun db c => (claimsFromRequest cfg c.req c.point c.scopes c.client c.second db).2) db

theorem set_self {α : Type} (d : Dict α) (k : String) (v : α) (h : d.get? k = some v) : d.set k v = d := by
  induction d with
  | nil => cases h
  | cons p r ih =>
    obtain ⟨k', v'⟩ := p
    rw [Dict.get?_cons] at h
    by_cases hk : k' = k
    · rw [if_pos hk] at h; cases h; simp [Dict.set, hk]
    · rw [if_neg hk] at h; simp [Dict.set, hk, ih h]

/-- An evaluation does not change the database if it has no second release point, or the client has no list of its own for
the first. -/
theorem claimsFromRequest_db (cfg : ClaimsCfg) (db : ClaimsDb) (req : Option AuthzReq) (point : String)
    (scopes : Option (List String)) (client second : Option String)
    (h : second = none ∨ second = some "" ∨ ∀ c cl, db.get? c = some cl → cl.always.get? point = none) :
    (claimsFromRequest cfg req point scopes client second db).2 = db := by
  have hs : ∀ m c, (claimSettings m db c point second).2 = db := by
    intro m c
    unfold claimSettings
    split
    · rename_i c' _
      split
      · rename_i cl hcl
        have hcl' : (clientAlways cl point second).2 = cl := by
          unfold clientAlways
          rcases h with rfl | rfl | h
          · rfl
          · rfl
          · rw [h c' cl hcl]
            cases truthyStr second with
            | none => rfl
            | some s =>
              simp only
              split <;> rfl
        split
        · rename_i he; rw [he] at hcl'; simp only at hcl'; rw [hcl']; exact set_self _ _ _ hcl
        · rename_i he; rw [he] at hcl'; simp only at hcl'; rw [hcl']; exact set_self _ _ _ hcl
      · rfl
    · rfl
  unfold claimsFromRequest
  split
  · rfl
  · rfl
  · simp only
    split
    · rename_i m _ _ _ _ he; have := hs m ((truthyStr client).or (req.bind (·.clientId))); rw [he] at this; exact this
    · rename_i m _ _ _ _ _ he; have := hs m ((truthyStr client).or (req.bind (·.clientId))); rw [he] at this; exact this

/-- C44, what remains: evaluations without a second release point, or of clients without a list of their own for the first
one, do not change the client database, whatever came before; so the answer to a request does not depend on them. -/
theorem C44_pure_partial (cfg : ClaimsCfg) (db : ClaimsDb) (calls : List ClaimsCall)
    (h : ∀ c ∈ calls, c.second = none ∨ c.second = some "" ∨
      ∀ x cl, db.get? x = some cl → cl.always.get? c.point = none) :
    claimsHistory cfg db calls = db := by
  unfold claimsHistory
  induction calls with
  | nil => rfl
  | cons c r ih =>
    rw [List.foldl_cons, claimsFromRequest_db cfg db _ _ _ _ _ (h c (List.mem_cons_self ..))]
    exact ih (fun c hc => h c (List.mem_cons_of_mem _ hc))

example : claimsHistory Ex.claimsCfg Ex.claimsDb
    [⟨some Ex.claimsReq, "id_token", some ["openid"], none, none⟩, ⟨none, "userinfo", none, some "rp", none⟩] = Ex.claimsDb := by
  decide +kernel

/-- C43.  Without a mapping of its own or of the server's, the scopes a client is allowed stand for the claims that OpenID
Connect Core says. -/
theorem C43_standard_scopes (cfg : ScopeCfg) (client s k : String) (cl : ScopeClient) (hc : cfg.cdb.get? client = some cl)
    (ho : cl.scopesToClaims = none) (hs : cfg.scopesToClaims = none) :
    ScopeClaim cfg client s k ↔ (s, k) ∈ standardClaims := by
  have h : ScopeClaim cfg client s k ↔ ∃ l, scope2claims.get? s = some l ∧ k ∈ l := by
    unfold ScopeClaim
    constructor
    · rintro ⟨cl', m, l, h1, h2, h3, h4⟩
      rw [hc] at h1
      cases h1
      rcases h4 with ⟨h4, -⟩ | ⟨h4, -⟩ | ⟨-, ⟨h4, -⟩ | ⟨-, rfl⟩⟩
      · rw [ho] at h4; cases h4
      · rw [ho] at h4; cases h4
      · rw [hs] at h4; cases h4
      · exact ⟨l, h2, h3⟩
    · rintro ⟨l, h1, h2⟩
      exact ⟨cl, _, l, hc, h1, h2, .inr (.inr ⟨ho, .inr ⟨.inl hs, rfl⟩⟩)⟩
  have h1 : ∀ p ∈ scope2claims, ∀ k ∈ p.2, (p.1, k) ∈ standardClaims := by decide +kernel
  have h2 : ∀ p ∈ standardClaims, ∃ q ∈ scope2claims, q.1 = p.1 ∧ scope2claims.get? p.1 = some q.2 ∧ p.2 ∈ q.2 := by
    decide +kernel
  rw [h]
  constructor
  · rintro ⟨l, hl, hk⟩
    exact h1 _ (Dict.get?_mem hl) k hk
  · intro hp
    obtain ⟨q, -, -, h3, h4⟩ := h2 _ hp
    exact ⟨_, h3, h4⟩

example : ScopeClaim { cdb := [("rp", {})] } "rp" "phone" "phone_number" :=
  (C43_standard_scopes _ _ _ _ {} (by decide +kernel) rfl rfl).2 (by decide +kernel)

/-- C69 does not hold: a client whose own setting says that scopes are not turned into claims at a release point gets
claims by scope there all the same, if the server's setting says so. -/
theorem C69_by_scope_refuted :
    ∃ (cfg : ClaimsCfg) (db : ClaimsDb) (cl : ClaimsClient) (req : AuthzReq) (r : Dict Json) (m : ClaimsModule),
      getModule cfg "id_token" = .ok (some m) ∧ m.perClient = true ∧ db.get? "rp" = some cl ∧
      cl.byScope.get? "id_token" = some false ∧ req.claims = [] ∧
      claimsFromRequest cfg (some req) "id_token" (some ["openid", "email"]) (some "rp") none db = (.ok r, db) ∧
      r.get? "email" = some .null :=
  ⟨{ modules := [("id_token", { byScope := true, perClient := true })], scopes := { cdb := [("rp", {})] } },
    [("rp", { byScope := [("id_token", false)] })], { byScope := [("id_token", false)] }, { clientId := some "rp" },
    [("sub", .null), ("email", .null), ("email_verified", .null)], { byScope := true, perClient := true },
    by decide +kernel, rfl, by decide +kernel, by decide +kernel, rfl, by decide +kernel, by decide +kernel⟩

/-- C69, what remains: a client's own setting can turn claims by scope on, and if neither the server's setting nor the
client's is on then no claim of a scope is released that has no other source. -/
theorem C69_by_scope_partial (cfg : ClaimsCfg) (m : ClaimsModule) (db db' : ClaimsDb) (cl : ClaimsClient) (req : AuthzReq)
    (point c k : String) (scopes : List String) (r : Dict Json)
    (hm : getModule cfg point = .ok (some m)) (hpc : m.perClient = true) (hcl : db.get? c = some cl) (hne : c ≠ "")
    (hreg : cfg.scopes.cdb.get? c ≠ none) (hp : ProperClaims m (some cl) req point)
    (h : claimsFromRequest cfg (some req) point (some scopes) (some c) none db = (.ok r, db'))
    (hreq : ∀ x, ¬ Requests req point k x) (hno : ∀ L x, cl.always.get? point = some L → ¬ Lists L k x)
    (hbase : m.base.get? k = none) (hk : ScopeAdds cfg.scopes c scopes k) :
    r.get? k = some .null ↔ m.byScope = true ∨ cl.byScope.get? point = some true := by
  have hown : OwnSettings m db c = some cl := by simp [OwnSettings, hpc, hcl]
  have hc : (truthyStr (some c)).or req.clientId = some c := by simp [truthyStr, hne]
  rw [C43_sources cfg m db db' req point c scopes (some c) none r hm hc hne hreg (by rw [hown]; exact hp) h k .null, hown]
  have halw : ∀ x, ¬ AlwaysAdds m (some cl) point none k x := by
    rintro x (⟨h, _⟩ | ⟨cl', h1, ⟨_, L, h2, h3⟩ | ⟨s, h2, _⟩⟩)
    · cases h
    · cases h1; exact hno L x h2 h3
    · cases h2
  have hsc : ScopesCount m (some cl) point none ↔ m.byScope = true ∨ cl.byScope.get? point = some true := by
    unfold ScopesCount
    constructor
    · rintro (h | ⟨cl', h1, h2 | ⟨s, h2, _⟩⟩)
      · exact .inl h
      · cases h1; exact .inr h2
      · cases h2
    · rintro (h | h)
      · exact .inl h
      · exact .inr ⟨cl, rfl, .inl h⟩
  rw [← hsc]
  unfold ToRelease
  constructor
  · rintro (h | ⟨_, ⟨h, _⟩ | ⟨_, h | ⟨_, h⟩⟩⟩)
    · exact absurd h (hreq _)
    · exact h
    · exact absurd h (halw _)
    · rw [hbase] at h; cases h
  · intro h
    exact .inr ⟨hreq, .inl ⟨h, hk, rfl⟩⟩

example : claimsFromRequest { Ex.claimsCfg with modules := [("id_token", { perClient := true })] } (some Ex.claimsReq)
    "id_token" (some ["openid", "email"]) (some "rp") none [("rp", { byScope := [("id_token", true)] })] =
    (.ok [("sub", .null), ("email", .null), ("email_verified", .null)], [("rp", { byScope := [("id_token", true)] })]) := by
  decide +kernel

end OidcOp
