/-
How clients hear that a user has logged out (C114).
-/
import Verif.Spec.Logout

namespace OidcOp.Spec

/-- A frame that makes the browser fetch `src`. -/
def FrameOf (src text : String) : Prop := text = "<iframe src=\"" ++ src ++ "\">"

/-- A URL with the issuer and the session id in its query, beside what was there before (OpenID Connect Front-Channel Logout 1.0,
section 3). -/
def WithSession (K : LogoutCtx) (uri sid src : String) : Prop :=
  ∃ (place : String) (q : Dict (List String)), src = place ++ "?" ++ K.L.urlencode q ∧
    q.get? "iss" = some [K.issuer] ∧ q.get? "sid" = some [sid] ∧
    ('?' ∉ uri.toList → place = uri ∧ ∀ k, k ≠ "iss" → k ≠ "sid" → q.get? k = none) ∧
    ('?' ∈ uri.toList → place = K.noQuery uri ∧ ∀ k, k ≠ "iss" → k ≠ "sid" → q.get? k = (K.L.split uri).2.get? k)

/-- A logout token for a client: it verifies as the provider's, is for the client of the record, and says that the session `sid` has
ended (OpenID Connect Back-Channel Logout 1.0, section 2.4). -/
def LogoutToken (K : LogoutCtx) (reg : LogoutReg) (sid : String) (tok : Str) : Prop :=
  ∃ cid p, reg.clientId = some cid ∧ K.J.unpack (reg.alg.getD K.dfltAlg) tok = .ok p ∧
    p.get? "iss" = some (.str K.issuer) ∧ p.get? "aud" = some (.arr [.str cid]) ∧ p.get? "sid" = some (.str sid) ∧
    p.get? "events" = some (.obj [("http://schemas.openid.net/event/backchannel-logout", .obj [])])

/-- A client hears of the end of the session `sid`: by a logout token that is posted to its back channel URI, or, if it has none, by a
frame with its front channel URI. -/
def Hears (K : LogoutCtx) (reg : LogoutReg) (sid : String) (frames : List String) (posts : List (String × Str)) : Prop :=
  (∀ uri, reg.backUri = some uri → ∃ tok, (uri, tok) ∈ posts ∧ LogoutToken K reg sid tok) ∧
  (reg.backUri = none → ∀ uri, reg.frontUri = some uri → ∃ src, (∃ f ∈ frames, FrameOf src f) ∧
    (reg.frontSid = false → src = uri) ∧ (reg.frontSid = true → WithSession K uri sid src))

end OidcOp.Spec
