/-
Lemmas for the login model.
-/
import Verif.Spec.Login
import Verif.Lemmas.Session
import Verif.Lemmas.World
import Verif.Lemmas.Token

namespace OidcOp
open Spec

/-! ### The grant that was just made is the one that is found -/

theorem key3_ne_key2 {u c g : String} (hu : CleanId u) (hc : CleanId c) (hg : GrantId g) : key3 u c g ≠ key2 u c := by
  intro h
  have := skey_str_inj (U := fun _ => True) (k := .gra u c g) (k' := .cli u c) ⟨trivial, hu, hc, hg⟩ ⟨trivial, hu, hc⟩ h
  cases this

theorem key3_ne_user {u c g : String} (hu : CleanId u) (hc : CleanId c) (hg : GrantId g) : key3 u c g ≠ u := by
  intro h
  have := skey_str_inj (U := fun _ => True) (k := .gra u c g) (k' := .usr u) ⟨trivial, hu, hc, hg⟩ ⟨trivial, hu⟩ h
  cases this

/-- The key is bound to a grant. -/
def KeyBound (s : Store) (k : String) (r : Nat) (g : Grant) : Prop := s.db.get? k = some r ∧ s.heap[r]? = some (.grant g)

theorem KeyBound.addSub {s : Store} {k k' : String} {r : Nat} {g : Grant} (h : KeyBound s k r g) (hne : k ≠ k') (b : Bool)
    (x : String) : KeyBound (addSub k' b x s).2 k r g := by
  unfold OidcOp.addSub
  cases hl : s.lookup k' with
  | none =>
    simp only [Store.alloc, Store.bind]
    refine ⟨?_, ?_⟩
    · rw [Dict.get?_set_ne _ _ (Ne.symm hne)]; exact h.1
    · rw [List.getElem?_append_left]
      · exact h.2
      · exact (List.getElem?_eq_some_iff.1 h.2).1
  | some p =>
    obtain ⟨r', o⟩ := p
    cases o with
    | grant _ => exact h
    | info i =>
      simp only []
      split
      · exact h
      · refine ⟨?_, ?_⟩
        · simp only [Store.bind, Store.put]
          rw [Dict.get?_set_ne _ _ (Ne.symm hne)]; exact h.1
        · have hi := ((lookup_eq s k' r' (.info i)).1 hl).2
          exact (GrantsKept.put hi _).2 _ _ h.2

theorem createGrant_bound {u c : String} {g : Grant} {s s' : Store} {r : Nat} (hu : CleanId u) (hc : CleanId c)
    (hg : GrantId g.id) (h : createGrant u c g s = (.ok r, s')) : KeyBound s' (key3 u c g.id) r g := by
  unfold createGrant at h
  simp only [Store.alloc] at h
  have hb : KeyBound (Store.bind { s with heap := s.heap ++ [.grant g] } (key3 u c g.id) s.heap.length) (key3 u c g.id)
      s.heap.length g := by
    refine ⟨?_, ?_⟩
    · simp only [Store.bind]
      exact Dict.get?_set_self ..
    · simp [Store.bind]
  cases hd : dbSet ⟨u, some c, some g.id⟩ s.heap.length { s with heap := s.heap ++ [.grant g] } with
  | mk res s2 =>
    rw [hd] at h
    cases res with
    | error e => cases h
    | ok _ =>
      simp only [Prod.mk.injEq, Except.ok.injEq] at h
      obtain ⟨rfl, rfl⟩ := h
      unfold dbSet at hd
      simp only [clean_truthy hg.1, clean_truthy hc, setClient_some, setUser_some, SE.bind_apply, SE.modify] at hd
      have h1 := hb.addSub (k' := key2 u c) (key3_ne_key2 hu hc hg) false g.id
      cases ha : addSub (key2 u c) false g.id (Store.bind { s with heap := s.heap ++ [.grant g] } (key3 u c g.id)
          s.heap.length) with
      | mk ra sa =>
        rw [ha] at hd h1
        cases ra with
        | error e => cases hd
        | ok _ =>
          simp only [] at hd h1
          have h2 := h1.addSub (k' := u) (key3_ne_user hu hc hg) true c
          rw [hd] at h2
          exact h2

theorem createSession_bound {u c : String} {g : Grant} {s s' : Store} {r : Nat} (hu : CleanId u) (hc : CleanId c)
    (hg : GrantId g.id) (h : createSession u c g s = (.ok r, s')) : KeyBound s' (key3 u c g.id) r g := by
  unfold createSession at h
  simp only [SE.bind_apply] at h
  split at h
  · split at h
    · exact createGrant_bound hu hc hg h
    · cases h
  · cases h

theorem dbGet_key3 {u c g : String} {st : Store} {r r' : Nat} {gr : Grant} (hb : KeyBound st (key3 u c g) r gr)
    (h : dbGet ⟨u, some c, some g⟩ st = .ok r') : r' = r := by
  have hl : st.lookup (key3 u c g) = some (r, .grant gr) := (lookup_eq _ _ _ _).2 ⟨hb.1, hb.2⟩
  unfold dbGet at h
  repeat' split at h
  all_goals first
    | (cases h; done)
    | (rename_i h1; rw [h1] at hl; cases hl; cases h; rfl)
    | (rename_i h1; rename_i h2; cases h; simp_all)

/-- The session behind a session id that was made for a grant bound to its key. -/
theorem sessionOf_bound {E : Env} {st : Store} {n : Nat} {u c g : String} {r : Nat} {gr : Grant} {s : Sess}
    (hu : CleanId u) (hc : CleanId c) (hg : GrantId g) (hb : KeyBound st (key3 u c g) r gr)
    (h : sessionOf E st (E.encSid n [u, c, g]) = .ok s) :
    s.grant = gr ∧ s.ref = r ∧ s.user = u ∧ s.client = c := by
  unfold sessionOf at h
  rw [E.decrypt_enc n u c g hu hc hg] at h
  simp only [] at h
  split at h
  · cases h
  · rename_i r' hr
    have := dbGet_key3 hb hr
    subst this
    have ho : st.obj r' = some (.grant gr) := hb.2
    rw [ho] at h
    cases h
    exact ⟨rfl, rfl, rfl, rfl⟩

theorem authzCreateGrant_session {E : Env} {w : World} {u c : String} {req : AuthzReq} {ev : AuthnEvent} {x : Nat} {n : Nat}
    {s : Sess} (hu : CleanId u) (hc : CleanId c)
    (hok : (createGrant u c (newGrant E w u { req with clientId := some c } ev []) w.st).1 = .ok x)
    (h : sessionOf E (authzCreateGrant E w u c req ev).st (E.encSid n [u, c, E.uuid w.n]) = .ok s) :
    s.grant = newGrant E w u { req with clientId := some c } ev [] ∧ s.user = u ∧ s.client = c := by
  have hb := createGrant_bound (s' := (createGrant u c (newGrant E w u { req with clientId := some c } ev []) w.st).2)
    (r := x) hu hc (g := newGrant E w u { req with clientId := some c } ev []) (E.uuid_clean w.n) (by rw [← hok])
  obtain ⟨h1, _, h2, h3⟩ := sessionOf_bound hu hc (E.uuid_clean w.n) hb h
  exact ⟨h1, h2, h3⟩

theorem authzCreateSession_session {E : Env} {w : World} {u c : String} {req : AuthzReq} {ev : AuthnEvent} {x : Nat} {n : Nat}
    {s : Sess} (hu : CleanId u) (hc : CleanId c)
    (hok : (createSession u c (newGrant E w u { req with clientId := some c } ev (E.authz.rulesOf (some c))) w.st).1 = .ok x)
    (h : sessionOf E (authzCreateSession E w u c req ev).st (E.encSid n [u, c, E.uuid w.n]) = .ok s) :
    s.grant = newGrant E w u { req with clientId := some c } ev (E.authz.rulesOf (some c)) ∧ s.user = u ∧ s.client = c := by
  have hb := createSession_bound
    (s' := (createSession u c (newGrant E w u { req with clientId := some c } ev (E.authz.rulesOf (some c))) w.st).2)
    (r := x) hu hc (g := newGrant E w u { req with clientId := some c } ev (E.authz.rulesOf (some c))) (E.uuid_clean w.n)
    (by rw [← hok])
  obtain ⟨h1, _, h2, h3⟩ := sessionOf_bound hu hc (E.uuid_clean w.n) hb h
  exact ⟨h1, h2, h3⟩

/-! ### The identity -/

theorem mem_stripEq {s : Str} {ch : Char} (h : ch ∈ s) (hne : ch ≠ '=') : ch ∈ stripEq s := by
  unfold stripEq
  rw [List.mem_reverse]
  have h' : ch ∈ s.reverse := List.mem_reverse.2 h
  generalize s.reverse = l at h'
  induction l with
  | nil => cases h'
  | cons a l ih =>
    rw [List.dropWhile_cons]
    split
    · rename_i ha
      rcases List.mem_cons.1 h' with rfl | h'
      · simp at ha; exact absurd ha hne
      · exact ih h'
    · exact h'

theorem stripEq_none {s : Str} (h : '=' ∉ s) : stripEq s = s := by
  unfold stripEq
  have h' : '=' ∉ s.reverse := fun x => h (List.mem_reverse.1 x)
  cases hr : s.reverse with
  | nil => simpa using congrArg List.reverse hr.symm
  | cons a l =>
    rw [hr] at h'
    rw [List.dropWhile_cons, if_neg]
    · rw [← hr, List.reverse_reverse]
    · intro ha
      simp at ha
      subst ha
      exact h' List.mem_cons_self

theorem b64d_plain {u : String} (h : PlainName u) : b64d u.toList = .ok none := by
  have key : ∀ x ∈ b64Alphabet, x.isAlphanum = true ∨ x = '-' ∨ x = '_' := by decide +kernel
  unfold b64d
  simp only []
  split
  · rfl
  · rename_i hall
    have hall' : (stripEq u.toList).all (fun c => b64Alphabet.contains c) = true := by simpa using hall
    rw [List.all_eq_true] at hall'
    rcases h with ⟨ch, hm, hn⟩ | ⟨h1, h2⟩
    · have hne : ch ≠ '=' := fun e => hn (.inr (.inr (.inr e)))
      have := key ch (by simpa using hall' ch (mem_stripEq hm hne))
      rcases this with h | h | h
      · exact absurd (.inl h) hn
      · exact absurd (.inr (.inl h)) hn
      · exact absurd (.inr (.inr (.inl h))) hn
    · rw [stripEq_none h1, if_pos rfl, if_pos h2]

/-- Where the identity of a cookie comes from. -/
theorem cookieInfo_spec {E : Env} {client : Option String} {cookies : List SessionCookie} {i : Identity} {ts : Int}
    (h : cookieInfo E client cookies = .ok (some (i, ts))) :
    ∃ k ∈ cookies, ∃ u c g rest, E.decrypt k.sid = .ok (u :: c :: g :: rest) ∧ client = some c ∧
      i = { uid := some u, sid := some k.sid } ∧ ts = k.timestamp := by
  induction cookies with
  | nil => cases h
  | cons k ks ih =>
    have up : cookieInfo E client ks = .ok (some (i, ts)) → ∃ k' ∈ k :: ks, ∃ u c g rest,
        E.decrypt k'.sid = .ok (u :: c :: g :: rest) ∧ client = some c ∧
        i = { uid := some u, sid := some k'.sid } ∧ ts = k'.timestamp := by
      intro h'
      obtain ⟨k', hk, hr⟩ := ih h'
      exact ⟨k', List.mem_cons_of_mem _ hk, hr⟩
    unfold cookieInfo at h
    split at h
    · cases h
    · cases h
    · cases h
    · split at h
      · exact up h
      · cases h
    · rename_i u c rest hne hd
      split at h
      · exact up h
      · rename_i hcl
        simp only [Except.ok.injEq, Option.some.injEq, Prod.mk.injEq] at h
        cases rest with
        | nil => exact (hne rfl).elim
        | cons g rest => exact ⟨k, List.mem_cons_self, u, c, g, rest, hd, (Decidable.not_not.1 hcl).symm, h.1.symm, h.2.symm⟩

/-- With plain user names the identity is that of a cookie for the client that is young enough and whose session is
active. -/
theorem findIdentity_spec {E : Env} {loads : List Nat → Except Exc Identity} {w : World} {req : AuthzReq}
    {cookies : List SessionCookie} {i : Identity} (hp : PlainCookies E cookies)
    (h : findIdentity E loads w req cookies = .ok (some i)) :
    ∃ k ∈ cookies, ∃ u c g rest, E.decrypt k.sid = .ok (u :: c :: g :: rest) ∧ req.clientId = some c ∧
      i = { uid := some u, sid := some k.sid } ∧ (req.upmAnswer = false → ∀ a, req.maxAge = some a → a ≠ 0 → w.now ≤ k.timestamp + a) ∧
      (k.sid ≠ "" → ∃ s, sessionOf E w.st k.sid = .ok s ∧ s.grant.isActive w.now = true) := by
  unfold findIdentity authenticatedAs at h
  cases hc : cookieInfo E req.clientId cookies with
  | error e =>
    rw [hc] at h
    simp only [] at h
    split at h <;> cases h
  | ok o =>
    rw [hc] at h
    cases o with
    | none => cases h
    | some p =>
      obtain ⟨i0, ts⟩ := p
      obtain ⟨k, hk, u, c, g, rest, hd, hcl, rfl, rfl⟩ := cookieInfo_spec hc
      simp only [] at h
      by_cases hage : maxAgeOf req ≠ 0 ∧ w.now > k.timestamp + maxAgeOf req
      · rw [if_pos hage] at h; cases h
      · rw [if_neg hage] at h
        simp only [unwrapIdentity, b64d_plain (hp k hk u _ hd), checkIdentity] at h
        refine ⟨k, hk, u, c, g, rest, hd, hcl, ?_, ?_, ?_⟩
        · repeat' split at h
          all_goals first
            | (cases h; done)
            | (cases h; rfl)
        · intro hu a ha hne
          simp only [maxAgeOf, hu, ha, Option.getD_some, Bool.false_eq_true, if_false] at hage
          exact Decidable.byContradiction (fun hlt => hage ⟨hne, by omega⟩)
        · intro hne
          have ht : truthyStr (some k.sid) = some k.sid := by simp [truthyStr, hne]
          rw [ht] at h
          simp only [] at h
          split at h
          · cases h
          · rename_i s hs
            refine ⟨s, hs, ?_⟩
            split at h
            · cases h
            · rename_i ha; simpa using ha

theorem promptHas_iff (req : AuthzReq) (p : String) : promptHas req p = true ↔ Prompts req p := by
  unfold promptHas Prompts
  cases req.prompt with
  | none => simp
  | some l => simp

end OidcOp
