/-
Specification vocabulary for tokens and grants (C10-C18).  No model function is mentioned, only the
data types.
-/
import Verif.Model.Grant

namespace OidcOp.Spec

/-- When an item is active at instant `at'`: not revoked, used fewer times than allowed, not before
`not_before` and not after `expires_at` (0 means unset). -/
def ItemActive (i : Item) (at' : Int) : Prop :=
  i.revoked = false ∧
  (∀ m, i.maxUsage = some m → (i.used : Int) < m) ∧
  (i.notBefore ≠ 0 → i.notBefore ≤ at') ∧
  (i.expiresAt ≠ 0 → at' ≤ i.expiresAt)

/-- The token may be used as the basis for minting a token of class `c`. -/
def MayMint (t : Token) (c : TokenClass) : Prop :=
  ∃ l, t.rules.supportsMinting = some l ∧ c ∈ l

/-- Position `i` of the list of issued tokens holds a token that descends, through `based_on`, from
the token value `v`. -/
inductive DerivedFrom (ts : List Token) (v : String) : Nat → Prop where
  | child {i : Nat} {t : Token} : ts[i]? = some t → t.basedOn = some v → DerivedFrom ts v i
  | step {i j : Nat} {p t : Token} : DerivedFrom ts v j → ts[j]? = some p → ts[i]? = some t →
      t.basedOn = some p.value → DerivedFrom ts v i

/-- The scope that a reference to a token value carries: the token's own scope if it has one, otherwise
what its own parent carries; no reference carries the grant's scope. -/
inductive EffScope (g : Grant) : Option String → List String → Prop where
  | root : EffScope g none g.scope
  | own {t : Token} : t ∈ g.issuedToken → t.scope ≠ [] → EffScope g (some t.value) t.scope
  | up {t : Token} {sc : List String} : t ∈ g.issuedToken → t.scope = [] → EffScope g t.basedOn sc →
      EffScope g (some t.value) sc

/-- The ancestry of a list of issued tokens is in order: values are non-empty and pairwise distinct
and every `based_on` names a token that was issued earlier. -/
structure Ancestry (ts : List Token) : Prop where
  nonempty : ∀ t ∈ ts, t.value ≠ ""
  distinct : (ts.map Token.value).Nodup
  earlier : ∀ (i : Nat) (t : Token) (v : String), ts[i]? = some t → t.basedOn = some v →
    ∃ (j : Nat) (p : Token), j < i ∧ ts[j]? = some p ∧ p.value = v

/-- `ts'` is `ts` with exactly the positions in `S` revoked in addition; nothing else differs. -/
def RevokedExactly (S : Nat → Prop) (ts ts' : List Token) : Prop :=
  ts'.length = ts.length ∧
  ∀ (i : Nat) (t : Token), ts[i]? = some t →
    ∃ r, ts'[i]? = some { t with revoked := r } ∧ (r = true ↔ t.revoked = true ∨ S i)

end OidcOp.Spec
