/-
The add-on that puts extra arguments into answers: oauth2/add_on/extra_args.py, with `construct` and `do_pre_construct` of
endpoint.py.
-/
import Verif.Model.Respond

namespace OidcOp

/-- The class of the arguments that an endpoint hands over for its answer: a message of one of the classes that the add-on knows, or
another message or a dictionary. -/
inductive ArgsKind where
  | authorization | accessToken | tokenExchange | introspection | openid | other
  deriving DecidableEq, Repr, Inhabited

/-- Which arguments belong to a class, oauth2/add_on/extra_args.py:21-32 -/
def ArgsKind.name : ArgsKind → Option String
  | .authorization => some "authorization"
  | .accessToken => some "accesstoken"
  | .tokenExchange => some "token_exchange"
  | .introspection => some "token_introspection"
  | .openid => some "userinfo"
  | .other => none

/-- The loop of `pre_construct`, oauth2/add_on/extra_args.py:34-37: from the names of arguments to attributes of the endpoint context;
`attr` is `getattr`, `none` for an attribute that is not there. -/
def addExtra (attr : String → Option Json) : Dict String → Dict Json → Except Exc (Dict Json)
  | [], m => .ok m
  | (arg, param) :: rest, m =>
    match attr param with
    | none => .error .attributeError
    | some v => addExtra attr rest (if v.truthy then m.set arg v else m)

/-- `pre_construct`, oauth2/add_on/extra_args.py:8-39 -/
def extraPre (extra : Option (Dict (Dict String))) (attr : String → Option Json) (kind : ArgsKind) (m : Dict Json) :
    Except Exc (Dict Json) :=
  match extra with
  | none => .ok m
  | some e => addExtra attr ((kind.name.bind e.get?).getD []) m

/-- `add_support`, oauth2/add_on/extra_args.py:42-51: the endpoints that get `pre_construct`, and what is stored in the endpoint
context; an endpoint that is not there is a KeyError, which stops the start. -/
def addExtraSupport (endpoints : List String) (kwargs : Dict (Dict String)) :
    Except Exc (List String × Option (Dict (Dict String))) :=
  if kwargs.keys.all (fun k => endpoints.contains k) then .ok (kwargs.keys, if kwargs.isEmpty then none else some kwargs)
  else .error .keyError

/-- What the endpoints hand over: messages for authorization (oauth2/authorization.py:727) and introspection
(oauth2/introspection.py:91), a registration response (oidc/registration.py:448), and dictionaries (oauth2/token.py:487,
oidc/provider_config.py:37). -/
def argsKind : String → ArgsKind
  | "authorization" => .authorization
  | "introspection" => .introspection
  | _ => .other

/-- `construct`, endpoint.py:276-299, of an endpoint with this add-on and no other. -/
def extraConstruct (hooks : List String × Option (Dict (Dict String))) (attr : String → Option Json) (name : String) (m : Dict Json) :
    Except Exc (Dict Json) :=
  if name ∈ hooks.1 then extraPre hooks.2 attr (argsKind name) m else .ok m

/-- The answer of an endpoint: `do_response`, endpoint.py:309-415. -/
def extraResponse (hooks : List String × Option (Dict (Dict String))) (attr : String → Option Json) (name : String) (a : AnswerArgs) :
    Except Exc HttpAnswer :=
  doResponse (answerStyle name) (extraConstruct hooks attr name) a

end OidcOp
