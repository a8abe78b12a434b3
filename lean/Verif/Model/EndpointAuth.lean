/-
The methods of client authentication that an endpoint takes: `client_auth_setup` (client_authn.py), `Endpoint.__init__`
(endpoint.py) and the loop over the endpoints in `Server.__init__` (server.py).
-/
import Verif.Model.Metadata
import Verif.Model.ClientAuthn

namespace OidcOp

/-- `CLIENT_AUTHN_METHOD[item]`, client_authn.py:303-312.  Any other name is one for `importer` (client_authn.py:433-434): without a
class of one's own there it raises, which is not told apart here. -/
def methodNamed (item : String) : Except Exc CAuthn :=
  if item = "client_secret_basic" then .ok .basic
  else if item = "client_secret_post" then .ok .post
  else if item = "bearer_header" then .ok .bearerHeader
  else if item = "bearer_body" then .ok .bearerBody
  else if item = "client_secret_jwt" then .ok .secretJwt
  else if item = "private_key_jwt" then .ok .privateKeyJwt
  else if item = "request_param" then .ok .requestParam
  else .error (.other "ImportError")

/-- One item of `client_auth_setup`, client_authn.py:427-434.  What is neither None nor a string has no `lower`. -/
def setupOne : Json → Except Exc (Option CAuthn)
  | .null => .ok none
  | .str s => if s.toList.map Char.toLower = "none".toList then .ok none else (methodNamed s).map some
  | _ => .error .attributeError

/-- `client_auth_setup`, client_authn.py:423-436 -/
def setupAll : List Json → Except Exc (List (Option CAuthn))
  | [] => .ok []
  | v :: vs =>
    match setupOne v with
    | .error e => .error e
    | .ok m =>
      match setupAll vs with
      | .error e => .error e
      | .ok ms => .ok (m :: ms)

/-- `client_auth_setup` of a configured value. -/
def authSetup (v : Json) : Except Exc (List (Option CAuthn)) :=
  match elements v with
  | .error e => .error e
  | .ok l => setupAll l

/-- The methods that go with a class, endpoint.py:121-124 and server.py:106-111 -/
def classMethods (c : EndpClass) : Except Exc (List (Option CAuthn)) :=
  match (c.caps.getD []).get? "client_authn_method" with
  | some v => if v.truthy then authSetup v else .ok []
  | none => .ok []

/-- `client_authn_method` of an endpoint, endpoint.py:115-124, and again, with the same outcome, server.py:99-111 -/
def endpointMethods (c : EndpConf) : Except Exc (List (Option CAuthn)) :=
  match c.kwargs.get? "client_authn_method" with
  | none => classMethods c.cls
  | some v => if v.truthy then authSetup v else if v = .null then classMethods c.cls else .ok [none]

end OidcOp
