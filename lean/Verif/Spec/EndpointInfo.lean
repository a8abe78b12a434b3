/-
Specification vocabulary for C97: what an endpoint publishes of itself.
-/
import Verif.Spec.Construct

namespace OidcOp.Spec

/-- The value that an endpoint publishes under a name that its class lists with the default `d`: what it is configured with; else
the default; else, if the name is one for algorithms, what the library supports of that kind without the weak ones, signing
algorithms in their order. -/
inductive OfItself (lib : CryptoAlgs) (kwargs : Dict Json) (attr : String) (d : Json) : Json → Prop where
  | configured {v : Json} (h : kwargs.get? attr = some v) : OfItself lib kwargs attr d v
  | default (h : kwargs.get? attr = none) (hd : d ≠ .null) : OfItself lib kwargs attr d d
  | sign (h : kwargs.get? attr = none) (hd : d = .null) (ho : OccursIn "signing_alg_values_supported" attr) (l : List String)
      (hl : l.Perm (lib.sign.erase "none")) (hs : l.Pairwise Before) : OfItself lib kwargs attr d (.arr (l.map .str))
  | alg (h : kwargs.get? attr = none) (hd : d = .null) (hn : ¬ OccursIn "signing_alg_values_supported" attr)
      (ho : OccursIn "encryption_alg_values_supported" attr) :
      OfItself lib kwargs attr d (.arr ((lib.alg.filter (fun a => a ≠ "RSA1_5" ∧ a ≠ "none")).map .str))
  | enc (h : kwargs.get? attr = none) (hd : d = .null) (hn : ¬ OccursIn "signing_alg_values_supported" attr)
      (hn' : ¬ OccursIn "encryption_alg_values_supported" attr) (ho : OccursIn "encryption_enc_values_supported" attr) :
      OfItself lib kwargs attr d (.arr (lib.enc.map .str))

/-- There is something to publish under the name. -/
def Something (lib : CryptoAlgs) (kwargs : Dict Json) (attr : String) (d : Json) : Prop :=
  kwargs.get? attr ≠ none ∨ d ≠ .null ∨ ∃ l, AlgsAbout lib attr l

end OidcOp.Spec
