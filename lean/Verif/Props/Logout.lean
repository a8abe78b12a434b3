/-
C62: where the end session endpoint redirects to.  C63: what logging out ends.  C73: what the logout page accepts.
C74: what clients are told.
-/
import Verif.Lemmas.Logout
import Verif.Props.Uri

namespace OidcOp
open Spec

/-- C63, for the sessions that a log out everywhere takes notice of.  After any fair history, logging out everywhere from any of
the user's sessions ends the sessions with all clients that have a logout URI and hold an ID token: the client session and
every grant of it are revoked, and the client is among those to be told.  Every other record is as it was.  Missing: the
clients without a logout URI or without an ID token (refuted below), and users with an unregistered client (refuted
below). -/
theorem C63_logout_all_partial (K : LogoutCtx) (U : String → Prop) (adds : Bool)
    (hU : ∀ n u c g, (SKey.gra u c g).Good U → ¬ U (K.E.encSid n [u, c, g])) (hsid : SidAttr K)
    (now : Int) (ops : List WOp) (hops : ∀ op ∈ ops, FairW K.E U adds op)
    (n : Nat) (u c g : String) (hk : (SKey.gra u c g).Good U) (gr : Grant)
    (hf : found (run K.E { now := now } ops).st (.gra u c g) = some (.grant gr)) (ui : SInfo)
    (hu : found (run K.E { now := now } ops).st (.usr u) = some (.info ui))
    (hreg : ∀ c' ∈ ui.subordinate, ∃ reg, K.clients.get? c' = some reg ∧ CanTell K reg) :
    ∃ res w', logoutAll K (K.E.encSid n [u, c, g]) (run K.E { now := now } ops) = (.ok res, w') ∧
      (∀ c', Told K U (run K.E { now := now } ops).st u c' →
        SessionEnded U (run K.E { now := now } ops).st w'.st u c' ∧ ∃ nt, (c', nt) ∈ res) ∧
      ∀ k : SKey, k.Good U → ¬ (k.user = u ∧ ∃ c', clientOf k = some c' ∧ Told K U (run K.E { now := now } ops).st u c') →
        found w'.st k = found (run K.E { now := now } ops).st k := by
  obtain ⟨hw, hi, hh⟩ := home_history hU now ops hops
  generalize run K.E { now := now } ops = w at *
  have hi := hi.inv
  obtain ⟨r, hv⟩ := found_grant_view hi hk hf
  obtain ⟨rc, ci, hvc, hgm⟩ := hi.links.up2 _ _ _ _ hv
  obtain ⟨ru, ui', hvu, hcm⟩ := hi.links.up1 _ _ _ hvc
  have hui : ui' = ui := by
    rw [found_view hi (view_some hvu).1, hvu] at hu
    simpa using hu
  subst hui
  have hd := K.E.decrypt_enc n u c g hk.2.1 hk.2.2.1 hk.2.2.2
  have e1 : dbGet ⟨u, none, none⟩ w.st = .ok ru := (dbGet_iff hi (view_some hvu).1 ru).2 ⟨_, hvu⟩
  have e2 : dbGet ⟨u, some c, none⟩ w.st = .ok rc := (dbGet_iff hi (view_some hvc).1 rc).2 ⟨_, hvc⟩
  have e3 : dbGet ⟨u, some c, some g⟩ w.st = .ok r := (dbGet_iff hi hk r).2 ⟨_, hv⟩
  have e4 : userSession K.E w.st (K.E.encSid n [u, c, g]) = .ok (u, ui'.subordinate) := by
    simp only [userSession, hd, e1, e2, e3, view_some_obj hvu]
  have hcli : ∀ c' ∈ ui'.subordinate, ∃ x, view U w.st (.cli u c') = some x := fun c' h => hi.links.down1 _ _ _ _ hvu h
  obtain ⟨l, h1, h2, h3⟩ := clientLogouts_spec hi hh hsid (u := u) ui'.subordinate hreg hcli
  obtain ⟨st', h4, hi', h5⟩ := cleanSessions_spec (E := K.E) (U := U) (u := u) (l.map (fun x => (x.1, x.2.1))) hi (by
    intro x hx
    obtain ⟨y, hy, rfl⟩ := List.mem_map.1 hx
    obtain ⟨a, _, b, _⟩ := h2 y hy
    exact ⟨b, hcli _ a⟩)
  rw [List.map_map] at h4 h5
  have h4' : cleanSessions K.E (l.map (fun x => x.2.1)) w.st = (.ok (), st') := h4
  obtain ⟨h6, h7⟩ := ended_of_view hi hi' h5
  refine ⟨notices l, { w with st := st', n := w.n + 1 }, by simp only [logoutAll, e4, h1, h4'], ?_, ?_⟩
  · intro c' ht
    have hm := told_listed hi ht hvu
    obtain ⟨x, hx, rfl⟩ := h3 c' hm ht
    refine ⟨h6 x.1 (List.mem_map.2 ⟨x, hx, rfl⟩) (hcli _ hm), ?_⟩
    obtain ⟨_, _, _, reg, nt, _, hnt, _⟩ := h2 x hx
    exact ⟨nt, List.mem_filterMap.2 ⟨x, hx, by rw [hnt]; rfl⟩⟩
  · intro k hkk hn
    refine h7 k hkk ?_
    rintro ⟨hku, c', hc', hco⟩
    obtain ⟨x, hx, rfl⟩ := List.mem_map.1 hc'
    exact hn ⟨hku, x.1, hco, (h2 x hx).2.1⟩

/-- C63, logging out of one client: the session with that client is ended, every other record is as it was - the
user's sessions with other clients and all sessions of other users. -/
theorem C63_logout_one (K : LogoutCtx) (U : String → Prop) (adds : Bool)
    (hU : ∀ n u c g, (SKey.gra u c g).Good U → ¬ U (K.E.encSid n [u, c, g]))
    (now : Int) (ops : List WOp) (hops : ∀ op ∈ ops, FairW K.E U adds op)
    (n : Nat) (u c g : String) (hk : (SKey.gra u c g).Good U) (gr : Grant)
    (hf : found (run K.E { now := now } ops).st (.gra u c g) = some (.grant gr)) (reg : LogoutReg)
    (hreg : K.clients.get? c = some reg) (hct : CanTell K reg) :
    ∃ res w', logoutOne K (K.E.encSid n [u, c, g]) (run K.E { now := now } ops) = (.ok res, w') ∧
      SessionEnded U (run K.E { now := now } ops).st w'.st u c ∧
      (HasLogoutUri reg → ∃ nt, (c, nt) ∈ res) ∧
      ∀ k : SKey, k.Good U → ¬ (k.user = u ∧ clientOf k = some c) →
        found w'.st k = found (run K.E { now := now } ops).st k := by
  obtain ⟨hw, hi, hh⟩ := home_history hU now ops hops
  generalize run K.E { now := now } ops = w at *
  have hi := hi.inv
  obtain ⟨r, hv⟩ := found_grant_view hi hk hf
  obtain ⟨rc, ci, hvc, hgm⟩ := hi.links.up2 _ _ _ _ hv
  have hd := K.E.decrypt_enc n u c g hk.2.1 hk.2.2.1 hk.2.2.2
  have e3 : dbGet ⟨u, some c, some g⟩ w.st = .ok r := (dbGet_iff hi hk r).2 ⟨_, hv⟩
  have e4 : sessionOf K.E w.st (K.E.encSid n [u, c, g]) =
      .ok { sid := K.E.encSid n [u, c, g], user := u, client := c, gid := g, ref := r, grant := gr } := by
    simp only [sessionOf, hd, e3, view_some_obj hv]
  have hnt : ∃ nt, notice K w.now w.n reg (K.E.encSid n [u, c, g]) = .ok nt ∧ (HasLogoutUri reg → nt ≠ none) := by
    by_cases huri : HasLogoutUri reg
    · obtain ⟨nt, h⟩ := notice_ok hct huri w.now w.n (K.E.encSid n [u, c, g])
      exact ⟨_, h, by simp⟩
    · simp only [HasLogoutUri, not_or, Decidable.not_not] at huri
      exact ⟨none, by simp only [notice, huri.1, frontIframe, huri.2], by simp [HasLogoutUri, huri.1, huri.2]⟩
  obtain ⟨nt, h1, h2⟩ := hnt
  obtain ⟨st', h4, hi', h5⟩ := cleanSessions_spec (E := K.E) (U := U) (u := u) [(c, K.E.encSid n [u, c, g])] hi (by
    intro x hx
    rw [List.mem_singleton] at hx
    subst hx
    exact ⟨⟨g, hd⟩, _, hvc⟩)
  have h4' : cleanSessions K.E [K.E.encSid n [u, c, g]] w.st = (.ok (), st') := h4
  obtain ⟨h6, h7⟩ := ended_of_view hi hi' h5
  refine ⟨notices [(c, K.E.encSid n [u, c, g], nt)], { w with st := st', n := w.n + 1 },
    by simp only [logoutOne, e4, hreg, h1, h4'], h6 c (by simp) ⟨_, hvc⟩, ?_, ?_⟩
  · intro huri
    cases hn : nt with
    | none => exact absurd hn (h2 huri)
    | some x => exact ⟨x, by simp [notices]⟩
  · intro k hkk hn
    refine h7 k hkk ?_
    rintro ⟨hku, c', hc', hco⟩
    simp only [List.map_cons, List.map_nil, List.mem_singleton] at hc'
    exact hn ⟨hku, hc' ▸ hco⟩

/-- C63: the sessions are ended before the clients are told, so whatever the clients' logout endpoints answer, and if they
cannot be reached at all, the sessions end just the same. -/
theorem C63_regardless_of_clients (K : LogoutCtx) (http http' : String → Str → Except Exc Nat) (alla : Bool) (sid : String)
    (w : World) : (verifiedLogout K http alla sid w).2 = (verifiedLogout K http' alla sid w).2 := by
  unfold verifiedLogout logoutAndTell
  cases (if alla = true then logoutAll K sid w else logoutOne K sid w) with
  | mk r w' =>
    cases r with
    | error e => rfl
    | ok l =>
      simp only []
      cases sendNotices http l with
      | mk a _ => cases sendNotices http' l with
        | mk b _ => cases a <;> cases b <;> rfl

/-- C74.  Every back channel notice of a log out everywhere goes to the back channel URI in the record of a client that the user
has a session with.  Its logout token verifies as the provider's, names the client of that record as the audience and
the provider as the issuer, and carries the session id of the user's session with that very client. -/
theorem C74_logout_tokens (K : LogoutCtx) (U : String → Prop) (adds : Bool)
    (hU : ∀ n u c g, (SKey.gra u c g).Good U → ¬ U (K.E.encSid n [u, c, g])) (hsid : SidAttr K)
    (now : Int) (ops : List WOp) (hops : ∀ op ∈ ops, FairW K.E U adds op)
    (n : Nat) (u c g : String) (hk : (SKey.gra u c g).Good U) (gr : Grant)
    (hf : found (run K.E { now := now } ops).st (.gra u c g) = some (.grant gr)) (ui : SInfo)
    (hu : found (run K.E { now := now } ops).st (.usr u) = some (.info ui))
    (hreg : ∀ c' ∈ ui.subordinate, ∃ reg, K.clients.get? c' = some reg ∧ CanTell K reg)
    (res : List (String × Notice)) (w' : World)
    (h : logoutAll K (K.E.encSid n [u, c, g]) (run K.E { now := now } ops) = (.ok res, w'))
    (c' uri : String) (tok : Str) (hm : (c', Notice.back uri tok) ∈ res) :
    ∃ reg cid p s g', K.clients.get? c' = some reg ∧ reg.backUri = some uri ∧ reg.clientId = some cid ∧
      K.J.unpack (reg.alg.getD K.dfltAlg) tok = .ok p ∧
      p.get? "aud" = some (.arr [.str cid]) ∧ p.get? "iss" = some (.str K.issuer) ∧ p.get? "sid" = some (.str s) ∧
      K.E.decrypt s = .ok [u, c', g'] := by
  obtain ⟨hw, hi, hh⟩ := home_history hU now ops hops
  generalize run K.E { now := now } ops = w at *
  have hi := hi.inv
  obtain ⟨r, hv⟩ := found_grant_view hi hk hf
  obtain ⟨rc, ci, hvc, hgm⟩ := hi.links.up2 _ _ _ _ hv
  obtain ⟨ru, ui', hvu, hcm⟩ := hi.links.up1 _ _ _ hvc
  have hui : ui' = ui := by
    rw [found_view hi (view_some hvu).1, hvu] at hu
    simpa using hu
  subst hui
  have hd := K.E.decrypt_enc n u c g hk.2.1 hk.2.2.1 hk.2.2.2
  have e1 : dbGet ⟨u, none, none⟩ w.st = .ok ru := (dbGet_iff hi (view_some hvu).1 ru).2 ⟨_, hvu⟩
  have e2 : dbGet ⟨u, some c, none⟩ w.st = .ok rc := (dbGet_iff hi (view_some hvc).1 rc).2 ⟨_, hvc⟩
  have e3 : dbGet ⟨u, some c, some g⟩ w.st = .ok r := (dbGet_iff hi hk r).2 ⟨_, hv⟩
  have e4 : userSession K.E w.st (K.E.encSid n [u, c, g]) = .ok (u, ui'.subordinate) := by
    simp only [userSession, hd, e1, e2, e3, view_some_obj hvu]
  have hcli : ∀ c' ∈ ui'.subordinate, ∃ x, view U w.st (.cli u c') = some x := fun c' h => hi.links.down1 _ _ _ _ hvu h
  obtain ⟨l, h1, h2, h3⟩ := clientLogouts_spec hi hh hsid (u := u) ui'.subordinate hreg hcli
  have hres : res = notices l := by
    simp only [logoutAll, e4, h1] at h
    split at h
    · cases h
    · simp only [Prod.mk.injEq, Except.ok.injEq] at h
      exact h.1.symm
  rw [hres] at hm
  obtain ⟨x, hx, hxe⟩ := List.mem_filterMap.1 hm
  obtain ⟨_, _, ⟨g', hg'⟩, reg, nt, hr, hnt, hno⟩ := h2 x hx
  rw [hnt] at hxe
  simp only [Option.map_some, Option.some.injEq, Prod.mk.injEq] at hxe
  obtain ⟨rfl, rfl⟩ := hxe
  unfold notice at hno
  split at hno
  · rename_i uri' hb
    split at hno
    · cases hno
    · cases hno
    · rename_i a b hbc
      simp only [Except.ok.injEq, Option.some.injEq, Notice.back.injEq] at hno
      obtain ⟨rfl, rfl⟩ := hno
      unfold backChannel at hbc
      simp only [hb] at hbc
      cases hcid : reg.clientId with
      | none => rw [hcid] at hbc; cases hbc
      | some cid =>
        rw [hcid] at hbc
        simp only [] at hbc
        split at hbc
        · cases hbc
        · simp only [Except.ok.injEq, Option.some.injEq, Prod.mk.injEq] at hbc
          obtain ⟨rfl, rfl⟩ := hbc
          refine ⟨reg, cid, _, x.2.1, g', hr, hb, hcid, K.J.unpack_sign _ _ _, ?_, ?_, ?_, hg'⟩
          · simp [packFor]
          · simp [packFor, packed, Dict.get?_set]
          · simp [packFor, packed, Dict.get?_set, Dict.get?]
  · split at hno
    · cases hno
    · cases hno

/-! ### the end session endpoint -/

theorem postUris_get (K : LogoutCtx) (c : String) : K.postUris.get? c = (K.clients.get? c).map LogoutReg.postUris := by
  unfold LogoutCtx.postUris
  induction K.clients with
  | nil => rfl
  | cons x l ih =>
    simp only [List.map_cons, Dict.get?] at ih ⊢
    by_cases h : x.1 = c
    · simp [h]
    · simpa [h] using ih

/-- C62, for the client that the request names.  If the end session endpoint accepts a request, the session is the one of the
request's cookie; a hint names the session's client in its audience and the session's subject; and a
post_logout_redirect_uri comes with a hint and is one registered for the client the request names, or the session's
client if the request names none.  Missing: that the URI is always the session's client's own (refuted below). -/
theorem C62_redirect_partial (K : LogoutCtx) (req : EndReq) (cookie : LogoutCookie) (w : World) (tok : Str)
    (h : endSession K req cookie w = .ok tok) :
    ∃ sid s, cookie = .value (some sid) ∧ sessionOf K.E w.st sid = .ok s ∧
      (∀ hint, req.hint = some hint → s.client ∈ hint.aud ∧ hint.sub = s.grant.sub) ∧
      (∀ uri, req.postUri = some uri → req.hint ≠ none ∧ ∃ c reg regs r, c = req.clientId.getD s.client ∧
        K.clients.get? c = some reg ∧ reg.postUris = some regs ∧ r ∈ regs ∧ Matches K.L uri r) := by
  unfold endSession at h
  split at h
  · cases h
  · rename_i hph
    split at h
    · cases h
    · rename_i s hs
      split at h
      · cases h
      · rename_i hhint
        split at h
        · cases h
        · rename_i uri huri
          unfold cookieSession at hs
          split at hs
          · cases hs
          · cases hs
          · cases hs
          · rename_i sid
            split at hs
            · split at hs <;> cases hs
            · rename_i s' hs'
              cases hs
              refine ⟨sid, s, rfl, hs', ?_, ?_⟩
              · intro hint hh
                rw [hh] at hhint
                unfold hintCheck at hhint
                simp only [] at hhint
                split at hhint
                · cases hhint
                · rename_i h1
                  split at hhint
                  · cases hhint
                  · rename_i h2
                    exact ⟨Decidable.not_not.1 h1, Decidable.not_not.1 h2⟩
              · intro u hu
                refine ⟨by
                  intro hn
                  rw [hu, hn] at hph
                  simp at hph, ?_⟩
                unfold postUri at huri
                rw [hu] at huri
                simp only [] at huri
                split at huri
                · cases huri
                · rename_i hver
                  obtain ⟨c, u', regs, r, h1, h2, h3, h4, h5⟩ := C30_redirect_uri_exact _ _ _ _ hver
                  simp only [Option.some.injEq] at h1 h2
                  subst h1 h2
                  rw [postUris_get] at h3
                  cases hreg : K.clients.get? (req.clientId.getD s.client) with
                  | none => rw [hreg] at h3; cases h3
                  | some reg =>
                    rw [hreg] at h3
                    simp only [Option.map_some, Option.some.injEq] at h3
                    exact ⟨_, reg, regs, r, rfl, hreg, h3, h4, h5⟩

/-- C62 for requests that do not name another client. -/
theorem C62_own_client_partial (K : LogoutCtx) (req : EndReq) (cookie : LogoutCookie) (w : World) (tok : Str)
    (h : endSession K req cookie w = .ok tok)
    (hown : ∀ sid s c, cookie = .value (some sid) → sessionOf K.E w.st sid = .ok s → req.clientId = some c → c = s.client) :
    ∃ sid s, cookie = .value (some sid) ∧ sessionOf K.E w.st sid = .ok s ∧
      ∀ uri, req.postUri = some uri → (∃ hint, req.hint = some hint ∧ s.client ∈ hint.aud ∧ hint.sub = s.grant.sub) ∧
        ∃ reg regs r, K.clients.get? s.client = some reg ∧ reg.postUris = some regs ∧ r ∈ regs ∧ Matches K.L uri r := by
  obtain ⟨sid, s, h1, h2, h3, h4⟩ := C62_redirect_partial K req cookie w tok h
  refine ⟨sid, s, h1, h2, fun uri hu => ?_⟩
  obtain ⟨h5, c, reg, regs, r, hc, h6, h7, h8, h9⟩ := h4 uri hu
  have hcl : req.clientId.getD s.client = s.client := by
    cases hid : req.clientId with
    | none => rfl
    | some c' => exact hown sid s c' h1 h2 hid
  rw [hcl] at hc
  subst hc
  cases hh : req.hint with
  | none => exact absurd hh h5
  | some hint => exact ⟨⟨hint, rfl, h3 hint hh⟩, reg, regs, r, h6, h7, h8, h9⟩

theorem defaultPostUri_below (K : LogoutCtx) : Below K.issuer K.postPath (defaultPostUri K) := by
  have h : (∃ b, K.issuer = b ++ "/") ↔ K.issuer.toList.getLast? = some '/' := by
    constructor
    · rintro ⟨b, hb⟩
      rw [hb]; simp
    · intro hl
      refine ⟨String.ofList K.issuer.toList.dropLast, ?_⟩
      apply String.toList_inj.1
      rw [String.toList_append, String.toList_ofList]
      obtain ⟨l, hl⟩ := List.getLast?_eq_some_iff.1 hl
      rw [hl]; simp
  unfold defaultPostUri Below
  split
  · rename_i h1; exact .inl ⟨h.2 h1, rfl⟩
  · rename_i h1; exact .inr ⟨fun h2 => h1 (h.1 h2), rfl⟩

/-- C62: what the confirmation says.  The signed confirmation verifies as the provider's own and names the session of
the cookie and where the user is sent: the requested URI, with the request's state added as a parameter if there is
one, or the provider's own page. -/
theorem C62_confirmation (K : LogoutCtx) (req : EndReq) (cookie : LogoutCookie) (w : World) (tok : Str)
    (h : endSession K req cookie w = .ok tok) :
    ∃ sid p, cookie = .value (some sid) ∧ unpackSigned K tok = .ok p ∧ p.get? "sid" = some (.str sid) ∧
      p.get? "alla" = none ∧
      (req.postUri = none → ∃ uri, p.get? "redirect_uri" = some (.str uri) ∧ Below K.issuer K.postPath uri) ∧
      (∀ uri, req.postUri = some uri → req.state = none → p.get? "redirect_uri" = some (.str uri)) ∧
      (∀ uri state, req.postUri = some uri → req.state = some state →
        p.get? "redirect_uri" = some (.str (uri ++ "?" ++ K.L.urlencode [("state", [state])])) ∧
        p.get? "state" = some (.str state)) := by
  obtain ⟨sid, s, hc, hs, _⟩ := C62_redirect_partial K req cookie w tok h
  subst hc
  have hsid := (sessionOf_spec hs).2.1
  unfold endSession at h
  simp only [cookieSession, hs] at h
  split at h
  · cases h
  · split at h
    · cases h
    · split at h
      · cases h
      · rename_i uri huri
        split at h
        · cases h
        · simp only [Except.ok.injEq] at h
          subst h
          refine ⟨sid, packFor K w.now K.issuer (endPayload req s.sid uri), rfl, ?_, ?_, ?_, ?_, ?_, ?_⟩
          · simp only [unpackSigned, K.J.peek_sign, K.J.unpack_sign]
          · rw [hsid]
            unfold endPayload
            split <;> simp [packFor, packed, Dict.get?_set, Dict.get?]
          · unfold endPayload
            split <;> simp [packFor, packed, Dict.get?_set, Dict.get?]
          · intro hn
            simp only [postUri, hn, Except.ok.injEq] at huri
            subst huri
            refine ⟨_, ?_, defaultPostUri_below K⟩
            unfold endPayload
            split <;> simp [packFor, packed, Dict.get?_set, Dict.get?]
          · intro u hu hst
            simp only [postUri, hu, hst] at huri
            split at huri
            · cases huri
            · simp only [Except.ok.injEq] at huri
              subst huri
              simp [endPayload, hu, hst, packFor, packed, Dict.get?_set, Dict.get?]
          · intro u st hu hst
            simp only [postUri, hu, hst] at huri
            split at huri
            · cases huri
            · simp only [Except.ok.injEq] at huri
              subst huri
              simp [endPayload, hu, hst, packFor, packed, Dict.get?_set, Dict.get?]

/-- C73.  The confirmation of the end session endpoint, presented at the logout page, logs the user out of exactly the session
of the cookie (or, if the user asks for it, of all sessions as in C63). -/
theorem C73_confirmation_ends_session_partial (K : LogoutCtx) (req : EndReq) (cookie : LogoutCookie) (w : World) (tok : Str)
    (h : endSession K req cookie w = .ok tok) (http : String → Str → Except Exc Nat) (alla : Bool) (w' : World) :
    ∃ sid, cookie = .value (some sid) ∧ rpLogout K http alla tok w' = verifiedLogout K http alla sid w' := by
  obtain ⟨sid, p, h1, h2, h3, h4, _⟩ := C62_confirmation K req cookie w tok h
  exact ⟨sid, h1, by simp only [rpLogout, h2, h3, h4]⟩

/-- C73: without a signature of the provider nothing happens at the logout page. -/
theorem C73_unsigned_changes_nothing_partial (K : LogoutCtx) (http : String → Str → Except Exc Nat) (alla : Bool) (tok : Str)
    (w : World) (h : ∀ p, K.J.unpack K.signingAlg tok ≠ .ok p) : ∃ e, rpLogout K http alla tok w = (.error e, w) := by
  unfold rpLogout unpackSigned
  cases K.J.peek tok with
  | none => exact ⟨_, rfl⟩
  | some _ =>
    cases hu : K.J.unpack K.signingAlg tok with
    | error e => exact ⟨e, by simp⟩
    | ok p => exact absurd hu (h p)

end OidcOp
