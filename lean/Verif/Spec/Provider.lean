/-
Specification vocabulary for the whole provider: pushed requests (C34, C35), and what was checked before a grant was made
(C68, C69).
-/
import Verif.Model.Provider
import Verif.Spec.Isolation
import Verif.Spec.Login
import Verif.Spec.Pkce
import Verif.Spec.Scopes
import Verif.Spec.Uri

namespace OidcOp.Spec

/-- The state after a history of the provider that starts with no sessions and no pushed requests. -/
def provHistory (p : Prov) (now : Int) (ops : List POp) : PState := provRun p { w := { now := now } } ops

/-- The URI is one of the client's redirect URIs, or the text of its only one. -/
def OwnRedirect (p : Prov) (c uri : String) : Prop :=
  ∃ cl regs, p.clients.get? c = some cl ∧ cl.redirectUris = some regs ∧
    ((∃ r ∈ regs, Matches p.U uri r) ∨
     (∃ b q, regs = [.pair b q] ∧ (uri = b ∧ q = [] ∨ uri = b ++ "?" ++ p.U.urlencode q)))

/-- The response type is one of the client's, in any order of its words. -/
def OwnResponseType (p : Prov) (c : String) (rt : List String) : Prop :=
  ∃ cl, p.clients.get? c = some cl ∧
    ((cl.responseTypes = [] ∧ SameSet rt ["code"]) ∨ ∃ r ∈ cl.responseTypes, ∃ ws, Words r ws ∧ SameSet rt ws)

/-- What is checked of a request against the registration of the client it names: the redirect URI is the client's own,
and with deny_unknown_scopes it may use all the scopes. -/
structure Vetted (p : Prov) (c : String) (req : AuthzReq) : Prop where
  client : req.clientId = some c
  redirect : ∃ uri, req.redirectUri = some uri ∧ OwnRedirect p c uri
  scopes : p.L.scopes.denyUnknown = true → ∃ sc, req.scope = some sc ∧ ∀ s ∈ sc, AllowedScope p.L.scopes c s

/-- What is checked against the registration of the client that sends the request: the response type is the client's own,
and PKCE, if it is used, is in order. -/
structure Presented (p : Prov) (client : String) (req : AuthzReq) : Prop where
  responseType : OwnResponseType p client req.responseType
  pkce : ∀ H P, p.pkce = some (H, P) → ChallengeInOrder P client req

/-- Requests come only from the client they name: there is no pushed authorization endpoint, and fetched request objects
do not change the client. -/
def NoDetour (p : Prov) : Prop :=
  p.hasPar = false ∧ ∀ client uri req r, p.fetch client uri req = .ok r → r.clientId = req.clientId

/-- Names that happen in a history of the provider.  Users' names and client ids can be used in session keys, and users'
names do not look like base64url, client ids or session ids. -/
structure Names (p : Prov) (U : String → Prop) : Prop where
  users : ∀ u, U u → CleanId u ∧ PlainName u
  clients : ∀ c, p.clients.has c = true → CleanId c ∧ ¬ U c
  sids : ∀ n u c g, (SKey.gra u c g).Good U → ¬ U (p.E.encSid n [u, c, g])

/-- The user who authenticates is in `U`, and the session ids in management operations are the provider's own. -/
def FairP (p : Prov) (U : String → Prop) : POp → Prop
  | .loggedIn _ user => U user
  | .revokeToken sid _ _ => SidFor p.E U sid
  | .revokeGrant sid => SidFor p.E U sid
  | .revokeClientSession sid => SidFor p.E U sid
  | .removeSession sid => ∃ n u c g, (SKey.gra u c g).Good U ∧ ¬ U c ∧ sid = p.E.encSid n [u, c, g]
  | _ => True

end OidcOp.Spec
