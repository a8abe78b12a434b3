/-
Specification vocabulary for C104: what an HTTP answer should look like.
-/
import Verif.Model.Respond

namespace OidcOp.Spec

/-- RFC 6749, section 5.1: neither caches nor proxies keep the answer. -/
def NotCached (headers : List Header) : Prop := ("Cache-Control", "no-store") ∈ headers ∧ ("Pragma", "no-cache") ∈ headers

/-- The header says what type the content has; names of headers are the same in upper and lower case. -/
def SaysType (h : Header) : Prop := h.1.toList.map Char.toLower = "content-type".toList

instance (h : Header) : Decidable (SaysType h) := inferInstanceAs (Decidable (_ = _))

/-- There is one header that says what type the content has. -/
def OneType (headers : List Header) (ct : String) : Prop := ∃ name, headers.filter (fun h => decide (SaysType h)) = [(name, ct)]

/-- The message tells of the error and holds nothing else than what RFC 6749, section 5.2 and 4.1.2.1, has for errors. -/
structure TellsError (a : AnswerArgs) (m : Dict Json) : Prop where
  error : m.get? "error" = some (.str a.error)
  description : m.get? "error_description" = a.errorDescription
  uri : m.get? "error_uri" = a.errorUri
  state : m.get? "state" = a.state
  nothingElse : ∀ k ∈ m.keys, k ∈ ["error", "error_description", "error_uri", "state"]

end OidcOp.Spec
