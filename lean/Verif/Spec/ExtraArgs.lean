/-
What it means that the configured extra arguments are in an answer (C111).
-/
import Verif.Model.ExtraArgs

namespace OidcOp.Spec

/-- The message of an answer, in the body or in the URL. -/
def messageOf : Body → Option (Dict Json)
  | .json m => some m
  | .form m => some m
  | .url _ _ m => some m
  | _ => none

/-- The message has every extra argument whose attribute has a value, and otherwise what was handed over. -/
structure HasExtra (attr : String → Option Json) (extra : Dict String) (was m : Dict Json) : Prop where
  there : ∀ arg param v, extra.get? arg = some param → attr param = some v → v.truthy = true → m.get? arg = some v
  rest : ∀ k, extra.get? k = none → m.get? k = was.get? k

/-- The arguments are for an answer that is neither an error nor ready made. -/
structure Plain (a : AnswerArgs) : Prop where
  noError : a.error = ""
  noMessage : a.message = none
  noType : a.contentType = none

/-- With extra arguments configured for an endpoint, they are in its answers. -/
def ExtraThere (name : String) : Prop :=
  ∀ (endpoints : List String) (kwargs : Dict (Dict String)) (hooks : List String × Option (Dict (Dict String)))
    (attr : String → Option Json) (extra : Dict String) (a : AnswerArgs) (r : HttpAnswer),
    kwargs.keys.Nodup → extra.keys.Nodup → addExtraSupport endpoints kwargs = .ok hooks → kwargs.get? name = some extra → Plain a →
    extraResponse hooks attr name a = .ok r → ∃ m, messageOf r.body = some m ∧ HasExtra attr extra (a.args.getD []) m

end OidcOp.Spec
