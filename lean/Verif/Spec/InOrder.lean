/-
Specification vocabulary for requests that are in order (C124).
-/
import Verif.Model.Provider
import Verif.Spec.Hints
import Verif.Spec.Login
import Verif.Spec.Pkce
import Verif.Spec.Scopes
import Verif.Spec.Uri

namespace OidcOp.Spec

/-- The response type is registered for the client, as a set; a client without response types has "code". -/
def MayAskFor (reg : ClientReg) (rt : List String) : Prop :=
  (reg.responseTypes = [] ∧ SameSet rt ["code"]) ∨ ∃ r ∈ reg.responseTypes, ∃ ws, Words r ws ∧ SameSet rt ws

/-- The redirect URI is one of those that the client has registered.  These differ in more than their query parameters, and the one
asked for has no fragment and nothing percent-encoded. -/
def MayGoTo (L : UriLib) (reg : ClientReg) (u : String) : Prop :=
  ∃ uris : List String, reg.redirectUris = some (uris.map (registeredForm L false)) ∧ u ∈ uris ∧
    (uris.map (fun x => (L.split x).1)).Nodup ∧ L.unquote u = u ∧ L.fragment u = ""

/-- The scopes can be asked for: if unknown scopes are refused there are scopes, all of them allowed for the client. -/
def ScopesInOrder (cfg : ScopeCfg) (client : String) (scope : Option (List String)) : Prop :=
  cfg.denyUnknown = true → ∃ sc, scope = some sc ∧ ∀ x ∈ sc, AllowedScope cfg client x

/-- A request sent by a client as its own, without a request URI, that keeps to what the client has registered and to what the
provider demands. -/
structure RequestInOrder (p : Prov) (client : String) (req : AuthzReq) : Prop where
  named : client ≠ ""
  plain : req.requestUri = none
  known : p.L.scopes.cdb.get? client ≠ none
  registered : ∃ reg u, p.clients.get? client = some reg ∧ MayAskFor reg req.responseType ∧ req.redirectUri = some u ∧ MayGoTo p.U reg u
  scopes : ScopesInOrder p.L.scopes client req.scope
  pkce : ∀ H P, p.pkce = some (H, P) → P.cdb.get? client ≠ none ∧
    ChallengeInOrder P client { req with codeChallengeMethod := some (req.codeChallengeMethod.getD "plain") }

/-- The request as the provider goes on with it: it names the client, and where PKCE is used it names a method. -/
def Taken (p : Prov) (client : String) (req : AuthzReq) : AuthzReq :=
  { req with
    clientId := some client
    codeChallengeMethod := if p.pkce.isSome then some (req.codeChallengeMethod.getD "plain") else req.codeChallengeMethod }

/-- The first of the broker's methods for the first of these contexts that it has a method for. -/
def FirstMethod (broker : List AuthnMethod) (acrs : List String) (m : AuthnMethod) : Prop :=
  (∃ pre post, acrs = pre ++ m.acr :: post ∧ ∀ a ∈ pre, ∀ m' ∈ broker, m'.acr ≠ a) ∧
    ∃ before after, broker = before ++ m :: after ∧ ∀ m' ∈ before, m'.acr ≠ m.acr

/-- The method for a request: the only one there is; the one for the contexts asked for; if none are asked for the one for the
contexts that the hints lead to; and if they lead to none the broker's first. -/
inductive MethodFor (broker : List AuthnMethod) (hint : List String) (req : AuthzReq) (m : AuthnMethod) : Prop where
  | only : broker = [m] → MethodFor broker hint req m
  | asked {acrs : List String} : AsksAcr req acrs → FirstMethod broker acrs m → MethodFor broker hint req m
  | hinted : AsksNoAcr req → FirstMethod broker hint m → MethodFor broker hint req m
  | first : AsksNoAcr req → hint = [] → broker.head? = some m → MethodFor broker hint req m

end OidcOp.Spec
