/-
The login page: what the authorization endpoint hands to the authentication method, what `UserPassJinja2` puts into the
form and what the application gets back when the form is submitted.
-/
import Verif.Base.Json
import Verif.Base.Dict
import Verif.Base.Exc
import Verif.Model.UserAuthn

namespace OidcOp

/-- What is used of cryptojwt's `JWT` and of the provider's key jar.  `Tok` is the type of serialized signed JWTs.
`holders` are the issuer ids that have keys in the key jar: the provider itself, and the clients (a client secret and a
client's "jwks" are put there when the client is registered).  `unpack` looks for the keys of the issuer that the payload
names, or of the provider if it names none. -/
structure FormLib (Tok : Type) where
  holders : List String
  sign : String → Dict Json → Tok
  unpack : Tok → Except Exc (Dict Json)
  unpack_sign : ∀ o p, o ∈ holders → p.get? "iss" = some (.str o) → unpack (sign o p) = .ok p
  authentic : ∀ t p, unpack t = .ok p →
    ∃ o ∈ holders, t = sign o p ∧ ∀ i, p.get? "iss" = some i → i = .str o

/-- How requests are written as a query and read again: `Message.to_urlencoded` and `from_urlencoded` of oidcmsg. -/
structure QueryLib where
  enc : Dict Json → String
  dec : String → Except Exc (Dict Json)

/-- One of the loops `if d.get(attr): args[attr] = d[attr]`, oauth2/authorization.py:253-255 and 257-259 -/
def copyTruthy (d : Dict Json) : List String → Dict Json → Dict Json
  | [], args => args
  | a :: rest, args =>
    match d.get? a with
    | some v => copyTruthy d rest (if v.truthy then args.set a v else args)
    | none => copyTruthy d rest args

/-- `authn_args_gather` on a `Message`, oauth2/authorization.py:222-261.  `reqUser` is the keyword argument "req_user", if
given.  An empty `cinfo` is skipped, which makes no difference. -/
def authnArgsGather (Q : QueryLib) (req : Dict Json) (acr : String) (cinfo : Dict Json) (reqUser : Option Json) :
    Except Exc (Dict Json) :=
  match req.get? "redirect_uri" with
  | none => .error .keyError
  | some ru =>
    let args : Dict Json := [("query", .str (Q.enc req)), ("authn_class_ref", .str acr), ("return_uri", ru)]
    let args := match reqUser with
      | some u => args.set "as_user" (.arr [u])
      | none => args
    let args := copyTruthy cinfo ["policy_uri", "logo_uri", "tos_uri"] args
    .ok (copyTruthy req ["ui_locales", "acr_values", "login_hint"] args)

/-- `create_signed_jwt`, user_authn/user.py:124-126: `JWT.pack` adds the issuer and the time to the payload. -/
def createSignedJwt {Tok : Type} (L : FormLib Tok) (issuer : String) (now : Int) (args : Dict Json) : Tok :=
  L.sign issuer ((args.set "iss" (.str issuer)).set "iat" (.num now))

/-- `UserPassJinja2.__init__`, user_authn/user.py:158-168: what the page shows if nothing is configured. -/
def pageDefaults : Dict Json :=
  [("page_header", .str "Log in"), ("user_label", .str "Username"), ("passwd_label", .str "Password"),
   ("submit_btn", .str "Log in"), ("tos_uri", .str ""), ("logo_uri", .str ""), ("policy_uri", .str ""),
   ("tos_label", .str ""), ("logo_label", .str ""), ("policy_label", .str "")]

/-- `self.kwargs.setdefault(…)` for each of those -/
def pageSettings (defaults kwargs : Dict Json) : Dict Json :=
  defaults.foldl (fun d p => if d.has p.1 then d else d.set p.1 p.2) kwargs

/-- `LABELS`, user_authn/user.py:134 -/
def pageLabel (uri : String) : Json :=
  if uri = "tos_uri" then .str "Terms of Service" else if uri = "policy_uri" then .str "Service policy" else .str ""

/-- One turn of the loop over "policy", "tos" and "logo", user_authn/user.py:185-193 -/
def showUri (args : Dict Json) (shown : Dict Json) (u l : String) : Dict Json :=
  match args.get? u with
  | some v => (shown.set u v).set l (pageLabel u)
  | none => shown

/-- What the template handler gets. -/
structure LoginForm (Tok : Type) where
  action : String
  token : Tok
  shown : Dict Json

/-- `UserPassJinja2.__call__`, user_authn/user.py:170-195.  `kwargs` is what is configured beyond the database and the
template.  `render(template, action=…, token=…, **kwargs)` cannot be called with an "action" or a "token" in `kwargs`. -/
def userPassCall {Tok : Type} (L : FormLib Tok) (issuer : String) (now : Int) (action : String) (kwargs args : Dict Json) :
    Except Exc (LoginForm Tok) :=
  let shown := pageSettings pageDefaults kwargs
  let shown := showUri args shown "policy_uri" "policy_label"
  let shown := showUri args shown "tos_uri" "tos_label"
  let shown := showUri args shown "logo_uri" "logo_label"
  if shown.has "action" || shown.has "token" then .error .typeError
  else .ok { action := action, token := createSignedJwt L issuer now args, shown := shown }

/-- What `create_session` is called with after a login. -/
structure PageLogin where
  request : Dict Json
  user : String
  acr : Json
  time : Json
  deriving DecidableEq, Repr

/-- What the user submits. -/
structure Submitted (Tok : Type) where
  username : String
  password : String
  token : Tok

/-- `verify` of the example provider up to the call of `create_session`, example/flask_op/views.py:104-123, with
`UserPassJinja2.verify` (user_authn/user.py:197-202) and `unpack_token` (86-87, 129-131).  A form without one of the three
fields gives a KeyError and is left out, and so is the check for an empty user name. -/
def verifyLogin {Tok : Type} (L : FormLib Tok) (Q : QueryLib) (db : Dict String) (f : Submitted Tok) : Except Exc PageLogin :=
  match userPassVerify db f.username f.password with
  | .error e => .error e
  | .ok user =>
    match L.unpack f.token with
    | .error e => .error e
    | .ok args =>
      match args.get? "query" with
      | some (.str q) =>
        match Q.dec q with
        | .error e => .error e
        | .ok req =>
          match args.get? "authn_class_ref", args.get? "iat" with
          | some acr, some t => .ok { request := req, user := user, acr := acr, time := t }
          | _, _ => .error .keyError
      | some _ => .error .typeError
      | none => .error .keyError

end OidcOp
