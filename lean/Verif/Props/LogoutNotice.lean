/-
Property theorems about who hears of a logout: C114.
-/
import Verif.Props.LogoutExamples
import Verif.Spec.LogoutNotice

namespace OidcOp
open Spec

theorem frontIframe_frame {K : LogoutCtx} {reg : LogoutReg} {sid f : String} (h : frontIframe K reg sid = some f) :
    ∃ uri, reg.frontUri = some uri ∧ ∃ src, FrameOf src f ∧ (reg.frontSid = false → src = uri) ∧
      (reg.frontSid = true → WithSession K uri sid src) := by
  unfold frontIframe at h
  cases hu : reg.frontUri with
  | none => rw [hu] at h; cases h
  | some uri =>
    rw [hu] at h
    refine ⟨uri, rfl, ?_⟩
    simp only [] at h
    by_cases hs : reg.frontSid = true
    · rw [if_pos hs] at h
      by_cases hq : '?' ∈ uri.toList
      · rw [if_pos hq] at h
        cases h
        refine ⟨K.noQuery uri ++ "?" ++ K.L.urlencode ((K.L.split uri).2.update [("iss", [K.issuer]), ("sid", [sid])]), ?_,
          fun h => absurd (hs.symm.trans h) (by decide), fun _ => ⟨_, _, rfl, ?_, ?_, fun h => absurd hq h, fun _ => ⟨rfl, ?_⟩⟩⟩
        · unfold FrameOf
          apply String.toList_inj.1; simp
        · simp [Dict.update, Dict.get?_set]
        · simp [Dict.update]
        · intro k h1 h2
          simp [Dict.update, Dict.get?_set, Ne.symm h1, Ne.symm h2]
      · rw [if_neg hq] at h
        cases h
        refine ⟨uri ++ "?" ++ K.L.urlencode [("iss", [K.issuer]), ("sid", [sid])], ?_,
          fun h => absurd (hs.symm.trans h) (by decide), fun _ => ⟨_, _, rfl, rfl, rfl, fun _ => ⟨rfl, ?_⟩, fun h => absurd h hq⟩⟩
        · unfold FrameOf
          apply String.toList_inj.1; simp
        · intro k h1 h2
          simp [Dict.get?_cons, Ne.symm h1, Ne.symm h2]
    · rw [if_neg hs] at h
      cases h
      exact ⟨uri, rfl, fun _ => rfl, fun h => absurd h hs⟩

/-- What a notice is. -/
theorem notice_is {K : LogoutCtx} {now : Int} {n : Nat} {reg : LogoutReg} {sid : String} {nt : Notice}
    (h : notice K now n reg sid = .ok (some nt)) :
    (∃ u t, nt = .back u t ∧ reg.backUri = some u ∧ LogoutToken K reg sid t) ∨
    (∃ f, nt = .front f ∧ reg.backUri = none ∧ ∃ uri, reg.frontUri = some uri ∧ ∃ src, FrameOf src f ∧
      (reg.frontSid = false → src = uri) ∧ (reg.frontSid = true → WithSession K uri sid src)) := by
  unfold notice at h
  cases hb : reg.backUri with
  | some uri =>
    rw [hb] at h
    simp only [] at h
    unfold backChannel at h
    simp only [hb] at h
    cases hc : reg.clientId with
    | none => rw [hc] at h; cases h
    | some cid =>
      rw [hc] at h
      simp only [] at h
      cases hs : K.signFails (reg.alg.getD K.dfltAlg) with
      | some e => rw [hs] at h; cases h
      | none =>
        rw [hs] at h
        cases h
        refine .inl ⟨_, _, rfl, rfl, cid, _, hc, K.J.unpack_sign _ _ _, ?_, ?_, ?_, ?_⟩
        · simp [packFor, packed, Dict.get?_set]
        · simp [packFor]
        · simp [packFor, packed, Dict.get?_set, Dict.get?]
        · simp [packFor, packed, Dict.get?_set, Dict.get?, backChannelEvent]
  | none =>
    rw [hb] at h
    simp only [] at h
    cases hf : frontIframe K reg sid with
    | none => rw [hf] at h; cases h
    | some f =>
      rw [hf] at h
      cases h
      exact .inr ⟨f, rfl, rfl, frontIframe_frame hf⟩

/-- The post of a notice. -/
def postOf : String × Notice → Option (String × Str)
  | (_, .back u t) => some (u, t)
  | (_, .front _) => none

theorem sendNotices_all {http : String → Str → Except Exc Nat} (hh : ∀ u t, ∃ st, http u t = .ok st)
    (l : List (String × Notice)) : sendNotices http l = (.ok (), l.filterMap postOf) := by
  induction l with
  | nil => rfl
  | cons x t ih =>
    obtain ⟨c, nt⟩ := x
    cases nt with
    | front f =>
      show sendNotices http t = _
      rw [ih]; rfl
    | back u tok =>
      obtain ⟨st, hs⟩ := hh u tok
      simp only [sendNotices, hs, ih]
      rfl

/-- The outcome of a logout when all posts are answered. -/
theorem logoutAndTell_all {K : LogoutCtx} {http : String → Str → Except Exc Nat} (hh : ∀ u t, ∃ st, http u t = .ok st)
    {alla : Bool} {sid : String} {w w' : World} {l : List (String × Notice)}
    (h : (if alla then logoutAll K sid w else logoutOne K sid w) = (.ok l, w')) :
    ∃ frames posts, logoutAndTell K http alla sid w = ((.ok frames, w'), posts) ∧
      (∀ f, f ∈ frames ↔ ∃ c, (c, Notice.front f) ∈ l) ∧ (∀ u t, (u, t) ∈ posts ↔ ∃ c, (c, Notice.back u t) ∈ l) := by
  unfold logoutAndTell
  rw [h]
  simp only [sendNotices_all hh]
  refine ⟨_, _, rfl, ?_, ?_⟩
  · intro f
    rw [List.mem_filterMap]
    constructor
    · rintro ⟨⟨c, nt⟩, h1, h2⟩
      cases nt with
      | front g => cases h2; exact ⟨c, h1⟩
      | back _ _ => cases h2
    · rintro ⟨c, h1⟩
      exact ⟨_, h1, rfl⟩
  · intro u t
    rw [List.mem_filterMap]
    constructor
    · rintro ⟨⟨c, nt⟩, h1, h2⟩
      cases nt with
      | front g => cases h2
      | back _ _ => cases h2; exact ⟨c, h1⟩
    · rintro ⟨c, h1⟩
      exact ⟨_, h1, rfl⟩

/-- C114, when the clients' logout endpoints can be reached.  After any fair history, logging out everywhere from any of the user's
sessions tells every client that has a logout URI and holds an ID token that the user's session with it has ended, over the
channel it has registered, and tells nobody else.  Missing: that a client hears of it although another client cannot be
reached, which is refuted below. -/
theorem C114_everywhere_partial (K : LogoutCtx) (U : String → Prop) (adds : Bool)
    (hU : ∀ n u c g, (SKey.gra u c g).Good U → ¬ U (K.E.encSid n [u, c, g])) (hsid : SidAttr K)
    (now : Int) (ops : List WOp) (hops : ∀ op ∈ ops, FairW K.E U adds op)
    (n : Nat) (u c g : String) (hk : (SKey.gra u c g).Good U) (gr : Grant)
    (hf : found (run K.E { now := now } ops).st (.gra u c g) = some (.grant gr)) (ui : SInfo)
    (hu : found (run K.E { now := now } ops).st (.usr u) = some (.info ui))
    (hreg : ∀ c' ∈ ui.subordinate, ∃ reg, K.clients.get? c' = some reg ∧ CanTell K reg)
    (http : String → Str → Except Exc Nat) (hh : ∀ u t, ∃ st, http u t = .ok st) :
    ∃ frames w' posts, logoutAndTell K http true (K.E.encSid n [u, c, g]) (run K.E { now := now } ops) = ((.ok frames, w'), posts) ∧
      (∀ c', Told K U (run K.E { now := now } ops).st u c' → ∃ reg sid g', K.clients.get? c' = some reg ∧
        K.E.decrypt sid = .ok [u, c', g'] ∧ Hears K reg sid frames posts) ∧
      (∀ uri tok, (uri, tok) ∈ posts → ∃ c' reg, Told K U (run K.E { now := now } ops).st u c' ∧
        K.clients.get? c' = some reg ∧ reg.backUri = some uri) ∧
      (∀ f ∈ frames, ∃ c' reg src, Told K U (run K.E { now := now } ops).st u c' ∧ K.clients.get? c' = some reg ∧
        reg.backUri = none ∧ reg.frontUri ≠ none ∧ FrameOf src f) := by
  obtain ⟨hw, hi, hho⟩ := home_history hU now ops hops
  generalize run K.E { now := now } ops = w at *
  have hi := hi.inv
  obtain ⟨r, hv⟩ := found_grant_view hi hk hf
  obtain ⟨rc, ci, hvc, hgm⟩ := hi.links.up2 _ _ _ _ hv
  obtain ⟨ru, ui', hvu, hcm⟩ := hi.links.up1 _ _ _ hvc
  have hui : ui' = ui := by
    rw [found_view hi (view_some hvu).1, hvu] at hu
    simpa using hu
  subst hui
  have hd := K.E.decrypt_enc n u c g hk.2.1 hk.2.2.1 hk.2.2.2
  have e1 : dbGet ⟨u, none, none⟩ w.st = .ok ru := (dbGet_iff hi (view_some hvu).1 ru).2 ⟨_, hvu⟩
  have e2 : dbGet ⟨u, some c, none⟩ w.st = .ok rc := (dbGet_iff hi (view_some hvc).1 rc).2 ⟨_, hvc⟩
  have e3 : dbGet ⟨u, some c, some g⟩ w.st = .ok r := (dbGet_iff hi hk r).2 ⟨_, hv⟩
  have e4 : userSession K.E w.st (K.E.encSid n [u, c, g]) = .ok (u, ui'.subordinate) := by
    simp only [userSession, hd, e1, e2, e3, view_some_obj hvu]
  have hcli : ∀ c' ∈ ui'.subordinate, ∃ x, view U w.st (.cli u c') = some x := fun c' h => hi.links.down1 _ _ _ _ hvu h
  obtain ⟨l, h1, h2, h3⟩ := clientLogouts_spec hi hho hsid (u := u) ui'.subordinate hreg hcli
  obtain ⟨st', h4, -, -⟩ := cleanSessions_spec (E := K.E) (U := U) (u := u) (l.map (fun x => (x.1, x.2.1))) hi (by
    intro x hx
    obtain ⟨y, hy, rfl⟩ := List.mem_map.1 hx
    obtain ⟨a, _, b, _⟩ := h2 y hy
    exact ⟨b, hcli _ a⟩)
  rw [List.map_map] at h4
  have h4' : cleanSessions K.E (l.map (fun x => x.2.1)) w.st = (.ok (), st') := h4
  have hall : (if true = true then logoutAll K (K.E.encSid n [u, c, g]) w else logoutOne K (K.E.encSid n [u, c, g]) w) =
      (.ok (notices l), { w with st := st', n := w.n + 1 }) := by
    rw [if_pos rfl]
    simp only [logoutAll, e4, h1, h4']
  obtain ⟨frames, posts, h5, h6, h7⟩ := logoutAndTell_all hh hall
  have hin : ∀ x ∈ l, ∀ nt, x.2.2 = some nt → (x.1, nt) ∈ notices l := by
    intro x hx nt hn
    exact List.mem_filterMap.2 ⟨x, hx, by rw [hn]; rfl⟩
  have hout : ∀ c' nt, (c', nt) ∈ notices l → ∃ x ∈ l, x.1 = c' ∧ x.2.2 = some nt := by
    intro c' nt h
    obtain ⟨x, hx, he⟩ := List.mem_filterMap.1 h
    cases hn : x.2.2 with
    | none => rw [hn] at he; cases he
    | some nt' =>
      rw [hn] at he
      cases he
      exact ⟨x, hx, rfl, hn⟩
  refine ⟨frames, _, posts, h5, ?_, ?_, ?_⟩
  · intro c' ht
    have hm := told_listed hi ht hvu
    obtain ⟨x, hx, rfl⟩ := h3 c' hm ht
    obtain ⟨_, _, ⟨g', hg'⟩, reg, nt, hr, hnt, hno⟩ := h2 x hx
    refine ⟨reg, x.2.1, g', hr, hg', ?_, ?_⟩
    · intro uri hb
      rcases notice_is hno with ⟨u', t, rfl, hb', htok⟩ | ⟨f, rfl, hb', -⟩
      · rw [hb] at hb'
        cases hb'
        exact ⟨t, (h7 _ _).2 ⟨_, hin x hx _ hnt⟩, htok⟩
      · rw [hb] at hb'; cases hb'
    · intro hb uri hfu
      rcases notice_is hno with ⟨u', t, rfl, hb', htok⟩ | ⟨f, rfl, -, uri', hfu', src, hs1, hs2, hs3⟩
      · rw [hb] at hb'; cases hb'
      · rw [hfu] at hfu'
        cases hfu'
        exact ⟨src, ⟨f, (h6 _).2 ⟨_, hin x hx _ hnt⟩, hs1⟩, hs2, hs3⟩
  · intro uri tok hp
    obtain ⟨c', hm⟩ := (h7 _ _).1 hp
    obtain ⟨x, hx, rfl, hn⟩ := hout _ _ hm
    obtain ⟨_, ht, _, reg, nt, hr, hnt, hno⟩ := h2 x hx
    rw [hn] at hnt
    cases hnt
    rcases notice_is hno with ⟨u', t, he, hb', htok⟩ | ⟨f, he, -⟩
    · cases he; exact ⟨_, reg, ht, hr, hb'⟩
    · cases he
  · intro f hfm
    obtain ⟨c', hm⟩ := (h6 _).1 hfm
    obtain ⟨x, hx, rfl, hn⟩ := hout _ _ hm
    obtain ⟨_, ht, _, reg, nt, hr, hnt, hno⟩ := h2 x hx
    rw [hn] at hnt
    cases hnt
    rcases notice_is hno with ⟨u', t, he, hb', htok⟩ | ⟨f', he, hb', uri', hfu', src, hs1, -⟩
    · cases he
    · cases he; exact ⟨_, reg, src, ht, hr, hb', by rw [hfu']; simp, hs1⟩

/-- C114, logging out of one client: this client hears of the end of this very session, and nobody else does. -/
theorem C114_one (K : LogoutCtx) (U : String → Prop) (adds : Bool)
    (hU : ∀ n u c g, (SKey.gra u c g).Good U → ¬ U (K.E.encSid n [u, c, g]))
    (now : Int) (ops : List WOp) (hops : ∀ op ∈ ops, FairW K.E U adds op)
    (n : Nat) (u c g : String) (hk : (SKey.gra u c g).Good U) (gr : Grant)
    (hf : found (run K.E { now := now } ops).st (.gra u c g) = some (.grant gr)) (reg : LogoutReg)
    (hreg : K.clients.get? c = some reg) (hct : CanTell K reg)
    (http : String → Str → Except Exc Nat) (hh : ∀ u t, ∃ st, http u t = .ok st) :
    ∃ frames w' posts, logoutAndTell K http false (K.E.encSid n [u, c, g]) (run K.E { now := now } ops) = ((.ok frames, w'), posts) ∧
      Hears K reg (K.E.encSid n [u, c, g]) frames posts ∧
      (∀ p ∈ posts, reg.backUri = some p.1) ∧ posts.length + frames.length ≤ 1 := by
  obtain ⟨hw, hi, hho⟩ := home_history hU now ops hops
  generalize run K.E { now := now } ops = w at *
  have hi := hi.inv
  obtain ⟨r, hv⟩ := found_grant_view hi hk hf
  obtain ⟨rc, ci, hvc, hgm⟩ := hi.links.up2 _ _ _ _ hv
  have hd := K.E.decrypt_enc n u c g hk.2.1 hk.2.2.1 hk.2.2.2
  have e3 : dbGet ⟨u, some c, some g⟩ w.st = .ok r := (dbGet_iff hi hk r).2 ⟨_, hv⟩
  have e4 : sessionOf K.E w.st (K.E.encSid n [u, c, g]) =
      .ok { sid := K.E.encSid n [u, c, g], user := u, client := c, gid := g, ref := r, grant := gr } := by
    simp only [sessionOf, hd, e3, view_some_obj hv]
  obtain ⟨st', h4, -, -⟩ := cleanSessions_spec (E := K.E) (U := U) (u := u) [(c, K.E.encSid n [u, c, g])] hi (by
    intro x hx
    rw [List.mem_singleton] at hx
    subst hx
    exact ⟨⟨g, hd⟩, _, hvc⟩)
  have h4' : cleanSessions K.E [K.E.encSid n [u, c, g]] w.st = (.ok (), st') := h4
  by_cases huri : HasLogoutUri reg
  · obtain ⟨nt, hnt⟩ := notice_ok hct huri w.now w.n (K.E.encSid n [u, c, g])
    have hall : logoutOne K (K.E.encSid n [u, c, g]) w = (.ok [(c, nt)], { w with st := st', n := w.n + 1 }) := by
      simp only [logoutOne, e4, hreg, hnt, h4']; rfl
    unfold logoutAndTell
    simp only [Bool.false_eq_true, if_false, hall, sendNotices_all hh]
    rcases notice_is hnt with ⟨u', t, rfl, hb', htok⟩ | ⟨f, rfl, hb, uri', hfu', src, hs1, hs2, hs3⟩
    · refine ⟨_, _, _, rfl, ⟨?_, fun h => ?_⟩, ?_, by simp [postOf]⟩
      · intro uri hb
        rw [hb] at hb'
        cases hb'
        exact ⟨t, by simp [postOf], htok⟩
      · rw [h] at hb'; cases hb'
      · intro p hp
        simp only [postOf, List.filterMap_cons, List.filterMap_nil, List.mem_singleton] at hp
        subst hp
        exact hb'
    · refine ⟨_, _, _, rfl, ⟨fun uri h => ?_, fun _ uri hfu => ?_⟩, ?_, by simp [postOf]⟩
      · rw [hb] at h; cases h
      · rw [hfu] at hfu'
        cases hfu'
        exact ⟨src, ⟨f, by simp, hs1⟩, hs2, hs3⟩
      · intro p hp
        simp [postOf] at hp
  · simp only [HasLogoutUri, not_or, Decidable.not_not] at huri
    have hnt : notice K w.now w.n reg (K.E.encSid n [u, c, g]) = .ok none := by
      simp only [notice, huri.1, frontIframe, huri.2]
    have hall : logoutOne K (K.E.encSid n [u, c, g]) w = (.ok [], { w with st := st', n := w.n + 1 }) := by
      simp only [logoutOne, e4, hreg, hnt, h4']; rfl
    unfold logoutAndTell
    simp only [Bool.false_eq_true, if_false, hall, sendNotices_all hh]
    refine ⟨_, _, _, rfl, ⟨fun uri h => ?_, fun _ uri hfu => ?_⟩, ?_, by simp⟩
    · rw [huri.1] at h; cases h
    · rw [huri.2] at hfu; cases hfu
    · intro p hp; simp at hp

/-- C114.  Whoever is told at all over the back channel is told before the first endpoint that cannot be reached; up to there
nobody is left out. -/
theorem C114_in_turn (http : String → Str → Except Exc Nat) (l : List (String × Notice)) :
    ∃ rest, l.filterMap postOf = (sendNotices http l).2 ++ rest ∧
      (rest ≠ [] → ∃ u t e, (sendNotices http l).2.getLast? = some (u, t) ∧ http u t = .error e) := by
  induction l with
  | nil => exact ⟨[], rfl, fun h => absurd rfl h⟩
  | cons x t ih =>
    obtain ⟨c, nt⟩ := x
    cases nt with
    | front f => exact ih
    | back u tok =>
      obtain ⟨rest, h1, h2⟩ := ih
      show ∃ rest, (u, tok) :: t.filterMap postOf = _ ++ rest ∧ _
      unfold sendNotices
      cases hq : http u tok with
      | error e => exact ⟨t.filterMap postOf, rfl, fun _ => ⟨u, tok, e, rfl, hq⟩⟩
      | ok st =>
        refine ⟨rest, by rw [h1]; rfl, fun hr => ?_⟩
        obtain ⟨u', t', e, h3, h4⟩ := h2 hr
        refine ⟨u', t', e, ?_, h4⟩
        show ((u, tok) :: (sendNotices http t).2).getLast? = _
        rw [List.getLast?_cons, h3]; rfl

namespace Ex

/-- The user logs in at c1 and at c2 and both get tokens. -/
def atBoth : List WOp := start "c1" ++
  [.login "d" "c2" (authzReq "c2") event, .authorize (sid "c2" 5) (authzReq "c2"),
   .parse "c2" (codeReq (E.mkVal 6 .authorizationCode (sid "c2" 5))), .process 1 none]

theorem good_c2 : (SKey.gra "d" "c2" (E.uuid 5)).Good Users :=
  ⟨.inl rfl, ⟨by decide, by decide⟩, ⟨by decide, by decide⟩, E.uuid_clean 5⟩

theorem fair_atBoth : ∀ op ∈ atBoth, FairW E Users false op := by
  intro op h
  rcases List.mem_append.1 h with h | h
  · exact fair_start op h
  · simp only [List.mem_cons, List.not_mem_nil, or_false] at h
    rcases h with rfl | rfl | rfl | rfl
    · exact good_cli_of_gra good_c2
    · exact ⟨0, "d", "c2", E.uuid 5, good_c2, rfl⟩
    · trivial
    · trivial

/-- The grants of the user at both clients. -/
def grantC1 : Grant := ((run E init atBoth).st.grantAt 2).getD {}
def grantC2 : Grant := ((run E init atBoth).st.grantAt 4).getD {}

theorem atBoth_c1 : found (run E init atBoth).st (.gra "d" "c1" (E.uuid 0)) = some (.grant grantC1) := by decide +kernel
theorem atBoth_c2 : found (run E init atBoth).st (.gra "d" "c2" (E.uuid 5)) = some (.grant grantC2) := by decide +kernel

/-- c1 is told over the back channel, c2 over the front channel, with the session in the query. -/
def frontReg : LogoutReg := { clientId := some "c2", frontUri := some "https://rp2/fc?x=1", frontSid := true }

noncomputable def K12 : LogoutCtx := lctx [("c1", c1Reg), ("c2", frontReg)]

theorem atBoth_user : ∃ ui, found (run E init atBoth).st (.usr "d") = some (.info ui) ∧ ui.subordinate = ["c1", "c2"] := by
  have h2 : (match found (run E init atBoth).st (.usr "d") with
      | some (.info ui) => ui.subordinate
      | _ => []) = ["c1", "c2"] := by decide +kernel
  cases h : found (run E init atBoth).st (.usr "d") with
  | none => rw [h] at h2; cases h2
  | some o =>
    rw [h] at h2
    cases o with
    | grant g => cases h2
    | info ui => exact ⟨ui, rfl, h2⟩

theorem told_atBoth (clients : Dict LogoutReg) (r1 r2 : LogoutReg) (h1 : clients.get? "c1" = some r1) (h2 : clients.get? "c2" = some r2)
    (hl1 : HasLogoutUri r1) (hl2 : HasLogoutUri r2) :
    Told (lctx clients) Users (run E init atBoth).st "d" "c1" ∧ Told (lctx clients) Users (run E init atBoth).st "d" "c2" :=
  ⟨⟨⟨r1, h1, hl1⟩, E.uuid 0, grantC1, good_c1, atBoth_c1, by decide +kernel,
      (grantC1.issuedToken[3]?).getD default, by decide +kernel, by decide +kernel⟩,
   ⟨⟨r2, h2, hl2⟩, E.uuid 5, grantC2, good_c2, atBoth_c2, by decide +kernel,
      (grantC2.issuedToken[3]?).getD default, by decide +kernel, by decide +kernel⟩⟩

/-- The hypotheses of C114 are met, and both clients hear of the logout. -/
example : ∃ frames w' posts, logoutAndTell K12 (fun _ _ => .ok 500) true (sid "c1" 0) (run E init atBoth) = ((.ok frames, w'), posts) ∧
    (∃ s tok, ("https://rp/bc", tok) ∈ posts ∧ LogoutToken K12 c1Reg s tok) ∧
    ∃ s src, (∃ f ∈ frames, FrameOf src f) ∧ WithSession K12 "https://rp2/fc?x=1" s src := by
  obtain ⟨ui, hu, hs⟩ := atBoth_user
  obtain ⟨frames, w', posts, h, ht, -⟩ := C114_everywhere_partial K12 Users false users_sid (lctx_sid _) 1000 atBoth fair_atBoth 0 "d" "c1"
    (E.uuid 0) good_c1 _ atBoth_c1 ui hu (by
      rw [hs]
      intro c' hc'
      simp only [List.mem_cons, List.not_mem_nil, or_false] at hc'
      rcases hc' with rfl | rfl
      · exact ⟨c1Reg, rfl, fun _ => ⟨by decide, rfl⟩⟩
      · exact ⟨frontReg, rfl, fun h => absurd rfl h⟩) (fun _ _ => .ok 500) (fun _ _ => ⟨500, rfl⟩)
  obtain ⟨t1, t2⟩ := told_atBoth [("c1", c1Reg), ("c2", frontReg)] c1Reg frontReg rfl rfl (.inl (by decide)) (.inr (by decide))
  refine ⟨frames, w', posts, h, ?_, ?_⟩
  · obtain ⟨reg, s, g, hr, -, hh⟩ := ht _ t1
    cases hr
    obtain ⟨tok, h1, h2⟩ := hh.1 _ rfl
    exact ⟨s, tok, h1, h2⟩
  · obtain ⟨reg, s, g, hr, -, hh⟩ := ht _ t2
    cases hr
    obtain ⟨src, h1, -, h2⟩ := hh.2 rfl _ rfl
    exact ⟨s, src, h1, h2 rfl⟩

def c2Back : LogoutReg := { clientId := some "c2", backUri := some "https://rp2/bc" }

/-- C114 does not hold in full: if the logout endpoint of c1 cannot be reached, c2 is not told, although the user's session with c2
has ended and c2 can be reached. -/
theorem C114_unreachable_refuted :
    ∃ (http : String → Str → Except Exc Nat), (∀ t, http "https://rp2/bc" t = .ok 200) ∧
      Told (lctx [("c1", c1Reg), ("c2", c2Back)]) Users (run E init atBoth).st "d" "c2" ∧
      ∀ tok, ("https://rp2/bc", tok) ∉
        (logoutAndTell (lctx [("c1", c1Reg), ("c2", c2Back)]) http true (sid "c1" 0) (run E init atBoth)).2 := by
  refine ⟨fun u _ => if u = "https://rp2/bc" then .ok 200 else .error (.other "ConnectionError"), fun t => by simp,
    (told_atBoth _ c1Reg c2Back rfl rfl (.inl (by decide)) (.inl (by decide))).2, ?_⟩
  have : (logoutAndTell (lctx [("c1", c1Reg), ("c2", c2Back)])
      (fun u _ => if u = "https://rp2/bc" then .ok 200 else .error (.other "ConnectionError")) true (sid "c1" 0)
      (run E init atBoth)).2.map (·.1) = ["https://rp/bc"] := by decide +kernel
  intro tok hm
  have h := List.mem_map_of_mem (f := (·.1)) hm
  rw [this] at h
  exact absurd h (show "https://rp2/bc" ∉ ["https://rp/bc"] by decide)

/-- A front channel URI is put into the page as it is: one with a quote in it ends the frame, and what comes after it is markup of
the client's own on the provider's page. -/
theorem C114_markup_refuted :
    ∃ (reg : LogoutReg) (f : String), frontIframe K12 reg "s" = some f ∧ ∀ src, FrameOf src f → '"' ∈ src.toList := by
  refine ⟨{ frontUri := some "https://rp/\"><script src=\"https://rp/x.js\"></script>" }, _, rfl, ?_⟩
  intro src h
  unfold FrameOf at h
  have h' := congrArg String.toList h
  simp only [String.toList_append, List.append_cancel_right_eq, List.append_cancel_left_eq] at h'
  rw [← h']
  decide +kernel

end Ex

end OidcOp
