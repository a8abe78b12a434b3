/-
The work on a grant does not look at the grant's id.
-/
import Verif.Model.World

namespace OidcOp

/-- The grant with another id. -/
def Grant.withId (g : Grant) (i : String) : Grant := { g with id := i }

def GS.withId (s : GS) (i : String) : GS := ⟨s.g.withId i, s.n⟩

/-- The computation gives the same result and the same state but for the id. -/
def IdFree {α : Type} (f : SE GS α) : Prop := ∀ (s : GS) (i : String), f (s.withId i) = ((f s).1, (f s).2.withId i)

theorem IdFree.pure {α : Type} (a : α) : IdFree (Pure.pure a) := fun _ _ => rfl

theorem IdFree.raise {α : Type} (e : Exc) : IdFree (SE.raise e : SE GS α) := fun _ _ => rfl

theorem IdFree.ofExcept {α : Type} (x : Except Exc α) : IdFree (SE.ofExcept x) := fun _ _ => rfl

theorem IdFree.bind {α β : Type} {f : SE GS α} {k : α → SE GS β} (hf : IdFree f) (hk : ∀ a, IdFree (k a)) :
    IdFree (f >>= k) := by
  intro s i
  simp only [SE.bind_apply]
  rw [hf s i]
  cases h : f s with
  | mk r s' =>
    cases r with
    | error e => rfl
    | ok a => exact hk a s' i

theorem IdFree.getBind {β : Type} {k : GS → SE GS β} (h : ∀ s i, k (s.withId i) = k s) (hk : ∀ s, IdFree (k s)) :
    IdFree (SE.get >>= k) := by
  intro s i
  simp only [SE.bind_apply, SE.get_apply]
  rw [h s i]
  exact hk s s i

theorem IdFree.ite {α : Type} {p : Prop} [Decidable p] {f g : SE GS α} (hf : IdFree f) (hg : IdFree g) :
    IdFree (if p then f else g) := by
  split
  · exact hf
  · exact hg

theorem withId_findScopeFuel (g : Grant) (i : String) (n : Nat) (t : Token) :
    (g.withId i).findScopeFuel n t = g.findScopeFuel n t := by
  induction n generalizing t with
  | zero => rfl
  | succ n ih =>
    unfold Grant.findScopeFuel
    split
    · rfl
    · cases t.basedOn with
      | none => rfl
      | some v =>
        simp only []
        split
        · rfl
        · show (match (g.getToken v) with | none => _ | some t' => _) = _
          cases g.getToken v with
          | none => rfl
          | some t' => exact ih t'

theorem withId_findScopeTok (g : Grant) (i : String) (t : Token) : (g.withId i).findScopeTok t = g.findScopeTok t :=
  withId_findScopeFuel g i _ t

theorem withId_findScope (g : Grant) (i : String) (b : Option String) : (g.withId i).findScope b = g.findScope b := by
  unfold Grant.findScope
  cases b with
  | none => rfl
  | some v =>
    simp only []
    have h : (g.withId i).getToken v = g.getToken v := rfl
    rw [h]
    cases g.getToken v with
    | none => rfl
    | some t => exact withId_findScopeTok g i t

theorem withId_mintToken (g : Grant) (i : String) (clock : Int) (c : TokenClass) (b : Option Token) (rules : Option UsageRules)
    (sc : Option (List String)) (tt : String) (h : Except Exc String) :
    (g.withId i).mintToken clock c b rules sc tt h =
      ((g.mintToken clock c b rules sc tt h).1, (g.mintToken clock c b rules sc tt h).2.withId i) := by
  unfold Grant.mintToken
  simp only [withId_findScopeTok]
  show (if g.isActive clock = false then _ else _) = _
  by_cases ha : g.isActive clock = false
  · simp only [if_pos ha]
  · simp only [if_neg ha]
    split
    · rfl
    · split
      · rfl
      · cases sc with
        | some s => cases h <;> rfl
        | none =>
          cases b with
          | none => cases h <;> rfl
          | some b => cases hf : g.findScopeTok b <;> simp only [hf] <;> cases h <;> rfl

theorem idFree_mintEP (mk : Minter) (clock : Int) (c : TokenClass) (b : Option Token) (sc : Option (List String)) (tt : String) :
    IdFree (mintEP mk clock c b sc tt) := by
  intro s i
  unfold mintEP
  show (match (s.g.withId i).mintToken clock c b (s.g.rulesFor c) sc tt (mk s.n c) with | (.error e, g') => _ | (.ok none, g') => _ | (.ok (some t), g') => _) = _
  rw [withId_mintToken]
  rcases h : s.g.mintToken clock c b (s.g.rulesFor c) sc tt (mk s.n c) with ⟨r, g'⟩
  rcases r with e | _ | t <;> simp only [h] <;> rfl

theorem idFree_mintOrSkip (mk : Minter) (clock : Int) (c : TokenClass) (b : Token) (tt : String) (wanted : Bool) :
    IdFree (mintOrSkip mk clock c b tt wanted) := by
  intro s i
  unfold mintOrSkip
  cases wanted with
  | false => rfl
  | true =>
    simp only [if_true]
    rw [idFree_mintEP]
    rcases h : mintEP mk clock c (some b) none tt s with ⟨r, s'⟩
    cases r with
    | ok t => rfl
    | error e => cases e <;> rfl

theorem idFree_mintIdToken (mk : Minter) (clock : Int) (b : Token) (sc : Option (List String)) (wanted : Bool) :
    IdFree (mintIdToken mk clock b sc wanted) := by
  intro s i
  unfold mintIdToken
  cases wanted with
  | false => rfl
  | true =>
    simp only [if_true]
    rw [idFree_mintEP]
    rcases h : mintEP mk clock .idToken (some b) sc "" s with ⟨r, s'⟩
    cases r with
    | ok t => rfl
    | error e => cases e <;> rfl

theorem idFree_mintRefresh (mk : Minter) (clock : Int) (b : Token) (sc : List String) (wanted : Bool) :
    IdFree (mintRefresh mk clock b sc wanted) := by
  intro s i
  unfold mintRefresh
  cases wanted with
  | false => rfl
  | true =>
    simp only [if_true]
    rw [idFree_mintEP]
    rcases h : mintEP mk clock .refreshToken (some b) (some sc) "" s with ⟨r, s'⟩
    cases r with
    | ok t => rfl
    | error e => rfl

theorem idFree_dpopStep (b : Bool) (req : TokenReq) : IdFree (dpopStep b req) := by
  intro s i
  unfold dpopStep
  cases b with
  | false => rfl
  | true => cases truthyStr req.dpopJkt <;> rfl

theorem idFree_codeMint (cfg : TokenCfg) (mk : Minter) (clock : Int) (kw : Option Bool) (cl : String) (req : TokenReq)
    (code : String) : IdFree (codeMint cfg mk clock kw cl req code) := by
  unfold codeMint
  cases req.clientId with
  | none => exact .raise _
  | some rc =>
    simp only []
    refine .ite (.pure _) ?_
    refine .bind (.ofExcept _) fun sup => .bind (idFree_dpopStep _ _) fun tt => .getBind ?_ ?_
    · intro s i; rfl
    · intro s
      cases s.g.getToken code with
      | none => exact .raise _
      | some b =>
        simp only []
        cases s.g.authzReq with
        | none => exact .raise _
        | some ar =>
          simp only []
          refine .bind (.ofExcept _) fun same => .ite (.pure _) ?_
          refine .bind (idFree_mintOrSkip _ _ _ _ _ _) fun a => .bind (idFree_mintOrSkip _ _ _ _ _ _) fun r => .bind (.ofExcept _) fun o =>
            .bind (idFree_mintIdToken _ _ _ _ _) fun idt => ?_
          cases idt with
          | none => exact .pure _
          | some v => exact .pure _

theorem idFree_codeProcess (cfg : TokenCfg) (mk : Minter) (clock : Int) (kw : Option Bool) (cl : String) (req : TokenReq)
    (code : String) : IdFree (codeProcess cfg mk clock kw cl req code) := by
  unfold codeProcess
  refine .bind (idFree_codeMint _ _ _ _ _ _ _) fun m => ?_
  cases m with
  | err c => intro s i; rfl
  | ready r => intro s i; rfl

theorem idFree_refreshProcess (cfg : TokenCfg) (mk : Minter) (clock : Int) (kw : Option Bool) (cl : String) (req : TokenReq)
    (v : String) : IdFree (refreshProcess cfg mk clock kw cl req v) := by
  unfold refreshProcess
  cases req.clientId with
  | none => exact .raise _
  | some rc =>
    simp only []
    refine .ite (.pure _) ?_
    refine .bind (idFree_dpopStep _ _) fun tt => .getBind ?_ ?_
    · intro s i
      show (match s.g.getToken v with | none => _ | some tok => _) = _
      cases s.g.getToken v with
      | none => rfl
      | some tok =>
        simp only []
        have : (s.withId i).g.findScope tok.basedOn = s.g.findScope tok.basedOn := withId_findScope _ _ _
        rw [this]
    · intro s
      cases s.g.getToken v with
      | none => exact .raise _
      | some tok =>
        simp only []
        refine .bind (.ofExcept _) fun found => .bind (idFree_mintEP _ _ _ _ _ _) fun a => ?_
        cases tok.rules.supportsMinting with
        | none => exact .raise _
        | some mints =>
          simp only []
          refine .bind (idFree_mintRefresh _ _ _ _ _) fun rt => .bind (idFree_mintIdToken _ _ _ _ _) fun idt => ?_
          cases idt with
          | none => exact .pure _
          | some v' =>
            refine .bind (fun s i => rfl) fun _ => .bind (fun s i => ?_) fun _ => .pure _
            unfold revokeIf
            split <;> rfl

theorem idFree_mintAuthz (mk : Minter) (clock : Int) (c : TokenClass) (sc : Option (List String)) :
    IdFree (mintAuthz mk clock c sc) := by
  intro s i
  unfold mintAuthz
  show (match (s.g.withId i).mintToken clock c none (some ((s.g.rulesFor c).getD {})) sc "" (mk s.n c) with | (.error e, g') => _ | (.ok none, g') => _ | (.ok (some t), g') => _) = _
  rw [withId_mintToken]
  rcases h : s.g.mintToken clock c none (some ((s.g.rulesFor c).getD {})) sc "" (mk s.n c) with ⟨r, g'⟩
  rcases r with e | _ | t <;> simp only [h] <;> rfl

theorem idFree_mintIfAsked (mk : Minter) (clock : Int) (c : TokenClass) (wanted : Bool) :
    IdFree (mintIfAsked mk clock c wanted) := by
  intro s i
  unfold mintIfAsked
  cases wanted with
  | false => rfl
  | true =>
    simp only [if_true]
    rw [idFree_mintAuthz]
    rcases h : mintAuthz mk clock c none s with ⟨r, s'⟩
    cases r <;> rfl

theorem idFree_mintIdTokenAuthz (mk : Minter) (clock : Int) (sc : Option (List String)) (wanted : Bool) :
    IdFree (mintIdTokenAuthz mk clock sc wanted) := by
  intro s i
  unfold mintIdTokenAuthz
  cases wanted with
  | false => rfl
  | true =>
    simp only [if_true]
    cases sc with
    | none => rfl
    | some sc =>
      simp only []
      rw [idFree_mintAuthz]
      rcases h : mintAuthz mk clock .idToken (some sc) s with ⟨r, s'⟩
      cases r with
      | ok t => rfl
      | error e => cases e <;> rfl

theorem idFree_createAuthnResponse (mk : Minter) (clock : Int) (filter : List String → List String) (req : AuthzReq) :
    IdFree (createAuthnResponse mk clock filter req) := by
  unfold createAuthnResponse
  refine .ite (.pure _) (.ite (.raise _) ?_)
  refine .bind (idFree_mintIfAsked _ _ _ _) fun c => .bind (idFree_mintIfAsked _ _ _ _) fun a => .bind (idFree_mintIdTokenAuthz _ _ _ _) fun idt => ?_
  cases idt with
  | none => exact .pure _
  | some idt => exact .ite (.pure _) (.pure _)

theorem withId_authzCall (cfg : AuthzCfg) (claims : List String → Except Exc (Dict (Dict Json))) (clock : Int) (cl : String)
    (req : AuthzReq) (g : Grant) (i : String) :
    authzCall cfg claims clock cl req (g.withId i) =
      ((authzCall cfg claims clock cl req g).1, (authzCall cfg claims clock cl req g).2.withId i) := by
  unfold authzCall
  cases cfg.expiresIn <;> cases cfg.usageRules <;> cases hs : g.scope.isEmpty <;>
    simp only [Grant.withId, hs, if_true, Bool.false_eq_true, if_false] <;> split <;> rfl

theorem withId_codeParse (cfg : TokenCfg) (clock : Int) (req : TokenReq) (code : String) (g : Grant) (i : String) :
    codeParse cfg clock req code (g.withId i) =
      ((codeParse cfg clock req code g).1, (codeParse cfg clock req code g).2.withId i) := by
  unfold codeParse
  show (match g.getToken code with | none => _ | some t => _) = _
  cases g.getToken code with
  | none => rfl
  | some t =>
    simp only []
    by_cases h1 : t.cls ≠ .authorizationCode
    · simp only [if_pos h1]
    · simp only [if_neg h1]
      by_cases h2 : cfg.flavor = .oidc ∧ t.used ≠ 0
      · simp only [if_pos h2]
        have : (g.withId i).revokeToken "" code = (g.revokeToken "" code).map (·.withId i) := by
          unfold Grant.revokeToken
          show (match revokeTokensFuel (g.issuedToken.length + 1) "" code true g.issuedToken with | .ok ts => _ | .error e => _) = _
          cases revokeTokensFuel (g.issuedToken.length + 1) "" code true g.issuedToken <;> rfl
        rw [this]
        cases g.revokeToken "" code <;> rfl
      · simp only [if_neg h2]
        by_cases h3 : t.isActive clock = false
        · simp only [if_pos h3]
        · simp only [if_neg h3]
          cases req.clientId with
          | some _ => rfl
          | none =>
            show (match g.authzReq with | none => _ | some ar => _) = _
            cases g.authzReq with
            | none => rfl
            | some ar => cases h : ar.clientId <;> simp only [h]

theorem withId_refreshParse (clock : Int) (req : TokenReq) (v : String) (g : Grant) (i : String) :
    refreshParse clock req v (g.withId i) = refreshParse clock req v g := by
  unfold refreshParse
  simp only [withId_findScope]
  rfl

end OidcOp
