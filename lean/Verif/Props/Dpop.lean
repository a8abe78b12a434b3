/-
C81, C82: DPoP.
-/
import Verif.Lemmas.Dpop
import Verif.Props.WorldExamples

namespace OidcOp
open Spec

/-! ### One request -/

theorem dpopSame_ok {d : Dict Json} {k : String} {x : Option String} {u : Unit} :
    dpopSame d k x = .ok u ↔ ∃ y, x = some y ∧ d.get? k = some (.str y) := by
  unfold dpopSame
  cases hd : d.get? k with
  | none => simp
  | some v =>
    cases x with
    | none => simp
    | some y =>
      simp only [Option.some.injEq, exists_eq_left']
      split
      · rename_i h; simp [h]
      · rename_i h; simp [h]

/-- What the header check accepts. -/
theorem dpopHeader_ok {L : DpopLib} {p : String} {d : Dict Json} (h : dpopHeader L p = .ok (some d)) :
    ∃ k headers claims, SignedWith L p k headers claims ∧ d = headers.update claims := by
  unfold dpopHeader at h
  split at h
  · cases h
  · rename_i hs hf
    split at h
    · cases h
    · rename_i jwk hj
      split at h
      · cases h
      · rename_i k hk
        split at h
        · cases h
        · rename_i alg ha
          split at h
          · cases h
          · rename_i claims hv
            cases h
            exact ⟨k, hs, claims, ⟨jwk, alg, hf, hj, hk, ha, hv⟩, rfl⟩

theorem signedWith_header {L : DpopLib} {p : String} {k : L.Key} {headers claims : Dict Json}
    (h : SignedWith L p k headers claims) : dpopHeader L p = .ok (some (headers.update claims)) := by
  obtain ⟨jwk, alg, hf, hj, hk, ha, hv⟩ := h
  unfold dpopHeader
  rw [hf]; simp only []
  rw [hj]; simp only []
  rw [hk]; simp only []
  rw [ha]; simp only []
  rw [hv]

theorem signedWith_says {L : DpopLib} {p : String} {k : L.Key} {headers claims : Dict Json}
    (h : SignedWith L p k headers claims) (name : String) (v : Json) :
    (headers.update claims).get? name = some v ↔ Says headers claims name v := by
  obtain ⟨jwk, alg, hf, hj, hk, ha, hv⟩ := h
  rw [Dict.get?_update_of_nodup (L.verify_nodup hv)]
  unfold Says
  cases hc : Dict.get? claims name with
  | none => simp
  | some x => simp

/-- C81.  A request that passes carries a proof of possession of some key, made for the URL and the method of the request. -/
theorem C81_proof_required (L : DpopLib) (h : HttpInfo) (req : TokenReq) (res : PRes)
    (hp : dpopParse L (some h) req = .ok res) : ∃ k, ProvesKey L h k := by
  unfold dpopParse at hp
  simp only [] at hp
  split at hp
  · cases hp
  · rename_i j hj
    unfold dpopCheck at hj
    split at hj
    · cases hj
    · rename_i hd hhd
      split at hj
      · cases hj
      · rename_i p hpp
        split at hj
        · cases hj
        · cases hj
        · rename_i d hdh
          split at hj
          · cases hj
          · rename_i u1 h1
            split at hj
            · cases hj
            · rename_i u2 h2
              obtain ⟨k, headers, claims, hs, rfl⟩ := dpopHeader_ok hdh
              obtain ⟨url, e1, e2⟩ := dpopSame_ok.1 h1
              obtain ⟨m, e3, e4⟩ := dpopSame_ok.1 h2
              exact ⟨k, hd, p, headers, claims, url, m, hhd, hpp, hs, e1, e3, (signedWith_says hs _ _).1 e2,
                (signedWith_says hs _ _).1 e4⟩

/-- C81.  If proofs do not have a claim "jwk": a request passes exactly if it carries a proof of possession of a key, made
for its URL and method, and then it is bound to the thumb print of that key and otherwise unchanged. -/
theorem C81_bound_to_proven_key_partial (L : DpopLib) (h : HttpInfo) (hn : NoJwkClaim L h) (req : TokenReq) (res : PRes) :
    dpopParse L (some h) req = .ok res ↔
      ∃ k, ProvesKey L h k ∧ res = .req { req with dpopJkt := some (L.thumbprint k) } := by
  constructor
  · intro hp
    obtain ⟨k, hk⟩ := C81_proof_required L h req res hp
    refine ⟨k, hk, ?_⟩
    obtain ⟨hd, p, headers, claims, url, m, e1, e2, hs, e3, e4, s1, s2⟩ := hk
    have hnj := hn hd p k headers claims e1 e2 hs
    unfold dpopParse dpopCheck at hp
    simp only [e1, e2, signedWith_header hs] at hp
    rw [(dpopSame_ok (u := ())).2 ⟨url, e3, (signedWith_says hs _ _).2 s1⟩] at hp
    simp only [] at hp
    rw [(dpopSame_ok (u := ())).2 ⟨m, e4, (signedWith_says hs _ _).2 s2⟩] at hp
    simp only [] at hp
    obtain ⟨jwk, alg, hf, hj, hkk, ha, hv⟩ := id hs
    have hg : (headers.update claims).get? "jwk" = some jwk := (signedWith_says hs _ _).2 (.inr ⟨hnj, hj⟩)
    unfold dpopKey at hp
    simp only [hg, hkk] at hp
    cases hp; rfl
  · rintro ⟨k, ⟨hd, p, headers, claims, url, m, e1, e2, hs, e3, e4, s1, s2⟩, rfl⟩
    have hnj := hn hd p k headers claims e1 e2 hs
    unfold dpopParse dpopCheck
    simp only [e1, e2, signedWith_header hs]
    rw [(dpopSame_ok (u := ())).2 ⟨url, e3, (signedWith_says hs _ _).2 s1⟩]
    simp only []
    rw [(dpopSame_ok (u := ())).2 ⟨m, e4, (signedWith_says hs _ _).2 s2⟩]
    simp only []
    obtain ⟨jwk, alg, hf, hj, hkk, ha, hv⟩ := id hs
    have hg : (headers.update claims).get? "jwk" = some jwk := (signedWith_says hs _ _).2 (.inr ⟨hnj, hj⟩)
    unfold dpopKey
    simp only [hg, hkk]

/-! ### Histories -/

/-- A parsed request came with a proof of possession of the key it is bound to. -/
def BoundBy (L : DpopLib) (ops : List DOp) (req : TokenReq) : Prop :=
  ∃ client req0 h k, .token client req0 (some h) ∈ ops ∧ ProvesKey L h k ∧
    req = { req0 with clientId := some client, dpopJkt := some (L.thumbprint k) }

theorem BoundBy.mono {L : DpopLib} {ops ops' : List DOp} {req : TokenReq} (hs : ∀ o ∈ ops, o ∈ ops')
    (h : BoundBy L ops req) : BoundBy L ops' req := by
  obtain ⟨c, r, i, k, h1, h2, h3⟩ := h
  exact ⟨c, r, i, k, hs _ h1, h2, h3⟩

/-- Operations of a provider with DPoP keep the invariant, and the log grows only at `process`. -/
theorem winv_dstep {E : Env} {L : DpopLib} {w : World} (hw : WInv E (fun _ => True) w) (op : DOp) :
    WInv E (fun _ => True) (dstep E L w op) ∧
    (∀ client req http, op = .token client req http → (dstep E L w op).log = w.log ∧
      ∀ rq ∈ (dstep E L w op).pool, rq ∈ w.pool ∨
        dpopParse L http { req with clientId := some client } = .ok (.req rq)) := by
  cases op with
  | plain op => exact ⟨(step_spec hw (sidClosed_true E) op (fun _ _ _ => trivial)).2.1, by simp⟩
  | token client req http =>
    obtain ⟨t1, t2, t3, t4⟩ := tokenParse_spec E (fun _ => True) w client { req with clientId := some client }
    have hd : dstep E L w (.token client req http) =
      (match tokenParseD E L w client { req with clientId := some client } http with
      | (.ok (.req r), w') => { w' with pool := w'.pool ++ [r] }
      | (_, w') => w') := rfl
    have hsame : ∀ r w', tokenParse E w client { req with clientId := some client } = (.ok (.req r), w') →
        r = { req with clientId := some client } := by
      intro r w' h
      exact tokenParse_client (by rw [h])
    rw [hd]
    unfold tokenParseD
    cases hp : tokenParse E w client { req with clientId := some client } with
    | mk res w1 =>
      rw [hp] at t1 t2 t3 t4
      have hw1 : WInv E (fun _ => True) w1 :=
        ⟨cinv_chain hw.core t1, fun rq hr => (hw.pool rq (t2 ▸ hr)).chain t1⟩
      have stay : WInv E (fun _ => True) w1 ∧ (∀ client' req' http', DOp.token client req http = .token client' req' http' →
          w1.log = w.log ∧ ∀ rq ∈ w1.pool, rq ∈ w.pool ∨
            dpopParse L http' { req' with clientId := some client' } = .ok (.req rq)) :=
        ⟨hw1, fun _ _ _ _ => ⟨t3, fun rq hr => .inl (t2 ▸ hr)⟩⟩
      cases res with
      | error e => exact stay
      | ok pr =>
        cases pr with
        | err c => exact stay
        | req r =>
          have hr := hsame _ _ hp
          have hok := (t4 r rfl).poolOK hw
          simp only []
          cases hdp : dpopParse L http r with
          | error e => exact stay
          | ok x =>
            cases x with
            | err c => exact stay
            | req r2 =>
              simp only []
              refine ⟨⟨hw1.core, ?_⟩, ?_⟩
              · intro rq hrq
                rcases List.mem_append.1 hrq with h1 | h1
                · exact hw1.pool rq h1
                · simp only [List.mem_singleton] at h1
                  subst h1
                  have h2 : PoolOK w1.core r := hok.chain t1
                  have h3 : rq = { r with dpopJkt := rq.dpopJkt } := by
                    unfold dpopParse at hdp
                    repeat' split at hdp
                    all_goals first | (cases hdp; done) | (cases hdp; rfl)
                  constructor
                  · intro v a b; rw [h3] at a b; exact h2.code v a b
                  · intro v a b
                    have a' : r.grantType = some "refresh_token" := by rw [h3] at a; exact a
                    have b' : r.refreshToken = some v := by rw [h3] at b; exact b
                    have c' : rq.scope = r.scope := by rw [h3]
                    rw [c']
                    exact h2.refresh v a' b'
              · rintro c' r' h' e
                cases e
                refine ⟨t3, ?_⟩
                intro rq hrq
                rcases List.mem_append.1 hrq with h1 | h1
                · exact .inl (t2 ▸ h1)
                · simp only [List.mem_singleton] at h1
                  subst h1
                  rw [← hr]
                  exact .inr hdp

theorem drun_snoc (E : Env) (L : DpopLib) (w : World) (ops : List DOp) (op : DOp) :
    drun E L w (ops ++ [op]) = dstep E L (drun E L w ops) op := by simp [drun]

theorem winv_drun (E : Env) (L : DpopLib) (now : Int) (ops : List DOp) :
    WInv E (fun _ => True) (drun E L { now := now } ops) := by
  induction ops using List.reverseRecOn with
  | nil => exact winv_init E _ now
  | append_singleton ops op ih => rw [drun_snoc]; exact (winv_dstep ih op).1

/-- Parsed requests are bound to keys that were proven. -/
theorem pool_bound {E : Env} {L : DpopLib} {now : Int} {ops : List DOp} (hops : ∀ op ∈ ops, WithProofs L op) :
    ∀ req ∈ (drun E L { now := now } ops).pool, BoundBy L ops req := by
  induction ops using List.reverseRecOn with
  | nil => intro req h; simp [drun] at h
  | append_singleton ops op ih =>
    have hw := winv_drun E L now ops
    have hop := hops op (by simp)
    have ih := ih (fun o ho => hops o (by simp [ho]))
    rw [drun_snoc]
    intro req hr
    have old : req ∈ (drun E L { now := now } ops).pool → BoundBy L (ops ++ [op]) req :=
      fun h => (ih req h).mono (by simp +contextual)
    cases op with
    | plain op =>
      rcases pool_step hw op req hr with h | ⟨c, r0, rfl, -⟩
      · exact old h
      · exact hop.elim
    | token client req0 http =>
      obtain ⟨h, rfl, hn⟩ := hop
      rcases ((winv_dstep hw _).2 _ _ _ rfl).2 req hr with h1 | h1
      · exact old h1
      · obtain ⟨k, hk, he⟩ := (C81_bound_to_proven_key_partial L h hn _ _).1 h1
        cases he
        exact ⟨client, req0, h, k, by simp, hk, rfl⟩

/-- Where a token response was given, in a history of a provider with DPoP. -/
theorem danswer_step (E : Env) (L : DpopLib) (now : Int) (ops : List DOp) (ref : Nat) (client : String) (rf : Bool)
    (v : String) (req : TokenReq) (r : TokenResp) (he : .token ref client rf v req r ∈ (drun E L { now := now } ops).log) :
    ∃ pre i kw post rq, ops = pre ++ .plain (.process i kw) :: post ∧ (drun E L { now := now } pre).pool[i]? = some rq ∧
      drun E L { now := now } (pre ++ [.plain (.process i kw)]) = (tokenProcess E (drun E L { now := now } pre) kw rq).2 ∧
      (tokenProcess E (drun E L { now := now } pre) kw rq).2.log =
        (drun E L { now := now } pre).log ++ [.token ref client rf v req r] := by
  induction ops using List.reverseRecOn with
  | nil => simp [drun] at he
  | append_singleton ops op ih =>
    have hw := winv_drun E L now ops
    have old : Event.token ref client rf v req r ∈ (drun E L { now := now } ops).log →
        ∃ pre i kw post rq, ops ++ [op] = pre ++ .plain (.process i kw) :: post ∧
          (drun E L { now := now } pre).pool[i]? = some rq ∧
          drun E L { now := now } (pre ++ [.plain (.process i kw)]) = (tokenProcess E (drun E L { now := now } pre) kw rq).2 ∧
          (tokenProcess E (drun E L { now := now } pre) kw rq).2.log =
            (drun E L { now := now } pre).log ++ [.token ref client rf v req r] := fun h => by
      obtain ⟨pre, i, kw, post, rq, h1, h2⟩ := ih h
      exact ⟨pre, i, kw, post ++ [op], rq, by rw [h1]; simp, h2⟩
    have hsn := drun_snoc E L { now := now } ops op
    rw [hsn] at he
    cases op with
    | token c0 r0 http => rw [((winv_dstep hw _).2 _ _ _ rfl).1] at he; exact old he
    | plain op =>
      change _ ∈ (step E (drun E L { now := now } ops) op).log at he
      have same : (step E (drun E L { now := now } ops) op).log = (drun E L { now := now } ops).log →
          ∃ pre i kw post rq, ops ++ [DOp.plain op] = pre ++ .plain (.process i kw) :: post ∧
          (drun E L { now := now } pre).pool[i]? = some rq ∧
          drun E L { now := now } (pre ++ [.plain (.process i kw)]) = (tokenProcess E (drun E L { now := now } pre) kw rq).2 ∧
          (tokenProcess E (drun E L { now := now } pre) kw rq).2.log =
            (drun E L { now := now } pre).log ++ [.token ref client rf v req r] := fun h => old (h ▸ he)
      cases op with
      | process i kw =>
        cases hi : (drun E L { now := now } ops).pool[i]? with
        | none => refine same ?_; simp only [step, hi]
        | some rq =>
          have hst : step E (drun E L { now := now } ops) (.process i kw) =
              (tokenProcess E (drun E L { now := now } ops) kw rq).2 := by simp only [step, hi]
          rcases (tokenProcess_spec hw (sidClosed_true E) kw (List.mem_of_getElem? hi)).2.2 with h | ⟨s, rf', v', r', a, h, -⟩
          · exact same (by rw [hst, h])
          · rw [hst, h] at he
            rcases List.mem_append.1 he with he | he
            · exact old he
            · simp only [List.mem_singleton] at he
              refine ⟨ops, i, kw, [], rq, rfl, hi, ?_, ?_⟩
              · rw [drun_snoc]; exact hst
              · rw [h, he]
      | parse c rq =>
        refine same ?_
        have h2 := (tokenParse_spec E (fun _ => True) (drun E L { now := now } ops) c { rq with clientId := some c }).2.2.1
        simp only [step]
        split <;> (rename_i hp; rw [hp] at h2; exact h2)
      | authorize sid rq =>
        rcases (authzPart2_spec E (fun _ => True) (drun E L { now := now } ops) sid trivial rq).2.2 with h | ⟨_, _, _, h, _⟩
        · exact same h
        · simp only [step] at he
          rw [h] at he
          rcases List.mem_append.1 he with he | he
          · exact old he
          · simp at he
      | tick d => exact same rfl
      | login u c req ev => exact same rfl
      | again u c req ev => exact same rfl
      | addGrant u c g => exact same rfl
      | revokeToken sid v rec => exact same (revokeTokenW_chain E (fun _ => True) _ sid v rec).2.2
      | revokeGrant sid =>
        refine same ?_
        simp only [step, revokeGrantW]
        repeat' split
        all_goals rfl
      | revokeClientSession sid =>
        refine same ?_
        simp only [step, revokeClientSessionW]
        repeat' split
        all_goals rfl
      | removeSession sid =>
        refine same ?_
        simp only [step, removeSessionW]
        repeat' split
        all_goals rfl

/-- C82.  In every history of an OpenID Connect provider with DPoP in which token requests come with HTTP information and
proofs have no claim "jwk": every token response has the type DPoP, its request came with a proof of possession of a key,
for its URL and method, and right after the response the grant, and so the access token in it, is bound to this key. -/
theorem C82_responses_bound_partial (E : Env) (L : DpopLib) (cfg : TokenCfg) (hE : E.cfg = cfg.withDpop)
    (hf : cfg.flavor = .oidc) (now : Int) (ops : List DOp) (hops : ∀ op ∈ ops, WithProofs L op)
    (ref : Nat) (client : String) (rf : Bool) (v : String) (req : TokenReq) (r : TokenResp)
    (he : .token ref client rf v req r ∈ (drun E L { now := now } ops).log) :
    r.tokenType = "DPoP" ∧
    ∃ c req0 h k, .token c req0 (some h) ∈ ops ∧ ProvesKey L h k ∧
      req = { req0 with clientId := some c, dpopJkt := some (L.thumbprint k) } ∧
      ∃ pre op post g, ops = pre ++ op :: post ∧
        (drun E L { now := now } (pre ++ [op])).log = (drun E L { now := now } pre).log ++ [.token ref client rf v req r] ∧
        GrantAt (drun E L { now := now } (pre ++ [op])) ref g ∧ g.dpopJkt = some (L.thumbprint k) := by
  obtain ⟨pre, i, kw, post, rq, h1, h2, h3, h4⟩ := danswer_step E L now ops ref client rf v req r he
  have hpre : ∀ op ∈ pre, WithProofs L op := fun op ho => hops op (by rw [h1]; simp [ho])
  obtain ⟨rfl, s, gs, -, -, -, h5, h6, -⟩ := tokenProcess_dpop h4
  obtain ⟨c, req0, h, k, b1, b2, b3⟩ := pool_bound hpre _ (List.mem_of_getElem? h2)
  have hon : (if rf then E.cfg.dpopAdvertised else E.cfg.flavor = .oidc && E.cfg.dpopEnabled) = true := by
    rw [hE]
    simp [TokenCfg.withDpop, hf]
  obtain ⟨t1, t2⟩ := h6 (L.thumbprint k) hon (by rw [b3]) (L.thumbprint_ne k)
  refine ⟨t1, c, req0, h, k, by rw [h1]; simp [b1], b2, b3, pre, _, post, gs, h1, ?_, ?_, t2⟩
  · rw [h3]; exact h4
  · rw [h3]; exact grantAt_spec.2 h5

/-! ### Cases that meet the hypotheses, and what is not checked -/

namespace Ex

/-- Proofs: headers, the key that signed, claims.  "p1" and "p2" are in order; "wrongtyp" has another type; "smuggle" is
signed with "k1" and has a claim "jwk" that names "k2". -/
def proofs : Dict (Dict Json × String × Dict Json) :=
  [("p1", [("typ", .str "dpop+jwt"), ("alg", .str "ES256"), ("jwk", .str "k1")], "k1",
      [("jti", .str "1"), ("htm", .str "POST"), ("htu", .str "https://op/token"), ("iat", .num 1000)]),
   ("p2", [("typ", .str "dpop+jwt"), ("alg", .str "ES256"), ("jwk", .str "k2")], "k2",
      [("jti", .str "2"), ("htm", .str "POST"), ("htu", .str "https://op/token"), ("iat", .num 1000)]),
   ("wrongtyp", [("typ", .str "JWT"), ("alg", .str "ES256"), ("jwk", .str "k1")], "k1",
      [("htm", .str "POST"), ("htu", .str "https://op/token")]),
   ("smuggle", [("typ", .str "dpop+jwt"), ("alg", .str "ES256"), ("jwk", .str "k1")], "k1",
      [("htm", .str "POST"), ("htu", .str "https://op/token"), ("jwk", .str "k2")])]

theorem proofs_nodup : ∀ x ∈ proofs, x.2.1.keys.Nodup ∧ x.2.2.2.keys.Nodup := by decide

def dlib : DpopLib where
  Key := String
  factory p := (proofs.get? p).map (·.1)
  keyOf
    | .str k => .ok k
    | _ => .error .valueError
  verify p k _ :=
    match proofs.get? p with
    | some (_, k', cs) => if k = k' then .ok cs else .error (.other "BadSignature")
    | none => .error (.other "BadSignature")
  thumbprint k := "t" ++ k
  factory_nodup := by
    intro p hs h
    cases hp : proofs.get? p with
    | none => rw [hp] at h; cases h
    | some x => rw [hp] at h; cases h; exact (proofs_nodup _ (Dict.get?_mem hp)).1
  verify_nodup := by
    intro p k a cs h
    cases hp : proofs.get? p with
    | none => rw [hp] at h; cases h
    | some x =>
      rw [hp] at h
      simp only [] at h
      split at h
      · cases h; exact (proofs_nodup _ (Dict.get?_mem hp)).2
      · cases h
  thumbprint_ne := by
    intro k h
    have := congrArg String.toList h
    simp at this

def http (p : String) : HttpInfo :=
  { headers := some [("dpop", p)], url := some "https://op/token", method := some "POST" }

/-- The proof "p1" proves possession of "k1", and has no claim "jwk". -/
theorem proves_p1 : ProvesKey dlib (http "p1") "k1" ∧ NoJwkClaim dlib (http "p1") := by
  refine ⟨⟨_, _, _, _, _, _, rfl, rfl, ⟨_, _, rfl, rfl, rfl, rfl, rfl⟩, rfl, rfl, .inl ?_, .inl ?_⟩, ?_⟩
  · decide
  · decide
  · intro hd p k headers claims e1 e2 hs
    cases e1
    have e2 : some "p1" = some p := e2
    cases e2
    obtain ⟨jwk, alg, hf, hj, hk, ha, hv⟩ := hs
    simp only [dlib, proofs, Dict.get?, if_true] at hv
    split at hv
    · cases hv; decide
    · cases hv

theorem proves_p2 : ProvesKey dlib (http "p2") "k2" ∧ NoJwkClaim dlib (http "p2") := by
  refine ⟨⟨_, _, _, _, _, _, rfl, rfl, ⟨_, _, rfl, rfl, rfl, rfl, rfl⟩, rfl, rfl, .inl ?_, .inl ?_⟩, ?_⟩
  · decide
  · decide
  · intro hd p k headers claims e1 e2 hs
    cases e1
    have e2 : some "p2" = some p := e2
    cases e2
    obtain ⟨jwk, alg, hf, hj, hk, ha, hv⟩ := hs
    simp [dlib, proofs, Dict.get?] at hv
    split at hv
    · cases hv; decide
    · cases hv

example : dpopParse dlib (some (http "p1")) {} = .ok (.req { dpopJkt := some "tk1" }) := by decide +kernel

/-- C81 is false of the code: a proof signed with "k1" binds the request to "k2", of which it proves nothing, because
claims are copied over the header parameters before the key is read. -/
theorem C81_proven_key_refuted :
    ¬ (∀ (L : DpopLib) (h : HttpInfo) (req req' : TokenReq), dpopParse L (some h) req = .ok (.req req') →
      ∃ k, ProvesKey L h k ∧ req'.dpopJkt = some (L.thumbprint k)) := by
  intro h
  obtain ⟨k, ⟨hd, p, headers, claims, url, m, e1, e2, hs, -⟩, hj⟩ :=
    h dlib (http "smuggle") {} { dpopJkt := some "tk2" } (by decide +kernel)
  cases e1
  have e2 : some "smuggle" = some p := e2
  cases e2
  obtain ⟨jwk, alg, hf, hjw, hk, ha, hv⟩ := hs
  have h1 : k = "k1" := by
    simp [dlib, proofs, Dict.get?] at hv
    split at hv
    · assumption
    · cases hv
  subst h1
  exact absurd hj (by decide)

/-- C81 is false of the code: the type of the proof is not checked (`DPoPProof.verify` is never called). -/
theorem C81_type_refuted :
    ¬ (∀ (L : DpopLib) (h : HttpInfo) (req req' : TokenReq) (hd headers : Dict _) (p : String),
      dpopParse L (some h) req = .ok (.req req') → h.headers = some hd → hd.get? "dpop" = some p →
      L.factory p = some headers → headers.get? "typ" = some (.str "dpop+jwt")) := by
  intro h
  have := h dlib (http "wrongtyp") {} { dpopJkt := some "tk1" } [("dpop", "wrongtyp")]
    [("typ", .str "JWT"), ("alg", .str "ES256"), ("jwk", .str "k1")] "wrongtyp" (by decide +kernel) rfl (by decide) (by rfl)
  exact absurd this (by decide)

/-- A provider with DPoP. -/
def ED : Env := env cfg.withDpop authz (fun _ _ => none)

def dsid (c : String) (k : Nat) : String := ED.encSid 0 ["d", c, ED.uuid k]

/-- Authorization, code exchange with the key "k1", refresh with the key "k2". -/
def dhistory : List DOp :=
  [.plain (.login "d" "c1" (authzReq "c1") event), .plain (.authorize (dsid "c1" 0) (authzReq "c1")), .plain (.tick 5),
   .token "c1" (codeReq (ED.mkVal 1 .authorizationCode (dsid "c1" 0))) (some (http "p1")), .plain (.process 0 none),
   .token "c1" (refreshReq (ED.mkVal 3 .refreshToken (dsid "c1" 0)) none) (some (http "p2")), .plain (.process 1 none)]

theorem dhistory_proofs : ∀ op ∈ dhistory, WithProofs dlib op := by
  simp only [dhistory, List.forall_mem_cons, List.not_mem_nil, false_imp_iff, implies_true, and_true]
  exact ⟨trivial, trivial, trivial, ⟨_, rfl, proves_p1.2⟩, trivial, ⟨_, rfl, proves_p2.2⟩, trivial⟩

/-- The history meets the hypotheses of C82 and has two token responses. -/
example : ED.cfg = cfg.withDpop ∧ cfg.flavor = .oidc ∧ (∀ op ∈ dhistory, WithProofs dlib op) ∧
    (drun ED dlib init dhistory).log.length = 3 :=
  ⟨rfl, rfl, dhistory_proofs, by decide +kernel⟩

/-- A token response of a history. -/
def respAt (w : World) (i : Nat) : TokenResp :=
  match w.log[i]? with
  | some (.token _ _ _ _ _ r) => r
  | _ => {}

/-- C82 is false of the code: a refresh token of a grant bound to one key can be used with another key, and the grant is
bound to that one then. -/
theorem C82_refresh_same_key_refuted :
    ¬ (∀ (E : Env) (L : DpopLib) (now : Int) (pre post : List DOp), (∀ op ∈ pre ++ post, WithProofs L op) →
      ∀ ref g g' j, GrantAt (drun E L { now := now } pre) ref g → g.dpopJkt = some j →
        GrantAt (drun E L { now := now } (pre ++ post)) ref g' → g'.dpopJkt = some j) := by
  intro h
  have h0 := h ED dlib 1000 (dhistory.take 5) (dhistory.drop 5)
    (by rw [List.take_append_drop]; exact dhistory_proofs) 2
    (((drun ED dlib init (dhistory.take 5)).st.grantAt 2).getD {}) (((drun ED dlib init dhistory).st.grantAt 2).getD {}) "tk1"
    (by decide +kernel) (by decide +kernel) (by decide +kernel)
  exact absurd h0 (by decide +kernel)

/-- C82 is false of the code: the same proof is accepted again and again. -/
theorem C82_replay_refuted :
    ¬ (∀ (E : Env) (L : DpopLib) (now : Int) (ops : List DOp) (ref ref' : Nat) (client client' : String) (rf rf' : Bool)
        (v v' : String) (req req' : TokenReq) (r r' : TokenResp) (c c' : String) (q q' : TokenReq) (h h' : HttpInfo)
        (hd hd' : Dict String),
      Event.token ref client rf v req r ∈ (drun E L { now := now } ops).log →
      Event.token ref' client' rf' v' req' r' ∈ (drun E L { now := now } ops).log →
      DOp.token c q (some h) ∈ ops → DOp.token c' q' (some h') ∈ ops → q.code = req.code → q'.code = req'.code →
      q.refreshToken = req.refreshToken → q'.refreshToken = req'.refreshToken → h.headers = some hd → h'.headers = some hd' →
      v ≠ v' → hd.get? "dpop" ≠ hd'.get? "dpop") := by
  intro h
  let ops : List DOp := dhistory.take 5 ++ [.token "c1" (refreshReq (ED.mkVal 3 .refreshToken (dsid "c1" 0)) none) (some (http "p1")),
    .plain (.process 1 none)]
  have e1 : ∃ r, (drun ED dlib init ops).log[1]? = some (Event.token 2 "c1" false (ED.mkVal 1 .authorizationCode (dsid "c1" 0))
      { codeReq (ED.mkVal 1 .authorizationCode (dsid "c1" 0)) with clientId := some "c1", dpopJkt := some "tk1" } r) :=
    ⟨respAt (drun ED dlib init ops) 1, by decide +kernel⟩
  have e2 : ∃ r, (drun ED dlib init ops).log[2]? = some (Event.token 2 "c1" true (ED.mkVal 3 .refreshToken (dsid "c1" 0))
      { refreshReq (ED.mkVal 3 .refreshToken (dsid "c1" 0)) none with clientId := some "c1", dpopJkt := some "tk1" } r) :=
    ⟨respAt (drun ED dlib init ops) 2, by decide +kernel⟩
  obtain ⟨r1, e1⟩ := e1
  obtain ⟨r2, e2⟩ := e2
  exact h ED dlib 1000 ops _ _ _ _ _ _ _ _ _ _ _ _ "c1" "c1" (codeReq (ED.mkVal 1 .authorizationCode (dsid "c1" 0)))
    (refreshReq (ED.mkVal 3 .refreshToken (dsid "c1" 0)) none) (http "p1") (http "p1") _ _ (List.mem_of_getElem? e1)
    (List.mem_of_getElem? e2) (by simp [ops, dhistory]) (by simp [ops, dhistory]) rfl rfl rfl rfl rfl rfl
    (by decide +kernel) rfl

/-- C82 is false of the code: without `http_info` the thumb print is taken from the request itself, so a token response of
type DPoP is given without any proof. -/
theorem C82_without_http_info_refuted :
    ¬ (∀ (E : Env) (L : DpopLib) (now : Int) (ops : List DOp) (ref : Nat) (client : String) (rf : Bool) (v : String)
        (req : TokenReq) (r : TokenResp), Event.token ref client rf v req r ∈ (drun E L { now := now } ops).log →
      r.tokenType = "DPoP" → ∃ c req0 h k, DOp.token c req0 (some h) ∈ ops ∧ ProvesKey L h k) := by
  intro h
  let ops : List DOp :=
    [.plain (.login "d" "c1" (authzReq "c1") event), .plain (.authorize (dsid "c1" 0) (authzReq "c1")), .plain (.tick 5),
     .token "c1" { codeReq (ED.mkVal 1 .authorizationCode (dsid "c1" 0)) with dpopJkt := some "tk2" } none, .plain (.process 0 none)]
  have e1 : ∃ r, r.tokenType = "DPoP" ∧ (drun ED dlib init ops).log[1]? = some (Event.token 2 "c1" false
      (ED.mkVal 1 .authorizationCode (dsid "c1" 0))
      { codeReq (ED.mkVal 1 .authorizationCode (dsid "c1" 0)) with clientId := some "c1", dpopJkt := some "tk2" } r) :=
    ⟨respAt (drun ED dlib init ops) 1, by decide +kernel, by decide +kernel⟩
  obtain ⟨r1, e0, e1⟩ := e1
  obtain ⟨c, q, i, k, hm, -⟩ := h ED dlib 1000 ops _ _ _ _ _ r1 (List.mem_of_getElem? e1) e0
  simp [ops] at hm

end Ex
end OidcOp
