/-
Specification vocabulary for C99 and C100: what it is to authenticate by a method with a given name.
-/
import Verif.Model.EndpointAuth
import Verif.Spec.ClientAuthn
import Verif.Spec.Metadata

namespace OidcOp.Spec

/-- The name is "none", in any letters. -/
def NoneName (n : String) : Prop := n.toList.map Char.toLower = "none".toList

instance (n : String) : Decidable (NoneName n) := inferInstanceAs (Decidable (_ = _))

/-- The request shows that it is from the client, in the way that the name of a method stands for (OpenID Connect Core 9; "none" in
any letters is the method of those who only name themselves, "bearer_body" comes with a token and a name). -/
inductive ShownBy (C : AuthnCtx) (req : AuthnReq) (header : Option String) (client : String) : String → Prop where
  | basic (s : String) (h : BasicCredentials C header client s) (hs : HasSecret C.cdb client s) :
      ShownBy C req header client "client_secret_basic"
  | post (s : String) (h : PostCredentials req client s) (hs : HasSecret C.cdb client s) :
      ShownBy C req header client "client_secret_post"
  | secretJwt (t : String) (A : Assertion) (h : req.clientAssertion = some t) (hA : GoodAssertion C false t A client) :
      ShownBy C req header client "client_secret_jwt"
  | privateKeyJwt (t : String) (A : Assertion) (h : req.clientAssertion = some t) (hA : GoodAssertion C true t A client) :
      ShownBy C req header client "private_key_jwt"
  | requestParam (t : String) (A : Assertion) (h : req.request = some t) (hA : C.unpack t = some A) (hi : A.iss = some client) :
      ShownBy C req header client "request_param"
  | bearerBody (h : req.accessToken.isSome = true) (hc : req.clientId = some client) : ShownBy C req header client "bearer_body"
  | named (n : String) (hn : NoneName n) (hc : req.clientId = some client) : ShownBy C req header client n

/-- The request carries credentials for one method at most: a header, or a secret, or an assertion. -/
inductive OnlyFor (req : AuthnReq) (header : Option String) : String → Prop where
  | basic (h : ∃ t, header = some ("Basic " ++ t)) (h1 : req.clientSecret = none) (h2 : req.accessToken = none)
      (h3 : req.clientAssertion = none) (h4 : req.request = none) : OnlyFor req header "client_secret_basic"
  | post (h : header = none) (h2 : req.accessToken = none) (h3 : req.clientAssertion = none) (h4 : req.request = none) :
      OnlyFor req header "client_secret_post"
  | assertion (n : String) (hn : n = "private_key_jwt" ∨ n = "client_secret_jwt") (h : header = none) (h1 : req.clientSecret = none)
      (h2 : req.accessToken = none) (h4 : req.request = none) : OnlyFor req header n

end OidcOp.Spec
