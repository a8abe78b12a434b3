/-
Model of how the token handlers are made from the configuration: `factory` and its helpers in token/handler.py,
`get_token_handler_args` in endpoint_context.py and the constructors of the handlers.
-/
import Verif.Model.TokenHandler
import Verif.Model.Metadata

namespace OidcOp

/-- `token_handler_args`.  Other members are ignored (the `**kwargs` of `factory`). -/
structure FactoryConf where
  code : Option (Dict Json) := none
  token : Option (Dict Json) := none
  refresh : Option (Dict Json) := none
  idToken : Option (Dict Json) := none
  jwksFile : String := ""
  jwksDef : Option (Dict Json) := none
  deriving DecidableEq, Repr, Inhabited

/-- What comes from elsewhere: `init_key_jar(key_defs, private_path, read_only)` of cryptojwt with, for a key id, the text of the
encryption key of type "oct" that it finds; `Crypt(password)`; the algorithms of cryptojwt; the file `private/token_jwks.json` in
the directory of the configuration; and the signing algorithms of ID tokens (see `Handler.idt`). -/
structure FactoryLib where
  jar : List Json → String → Bool → String → Option String
  cipher : String → Cipher
  crypto : CryptoAlgs
  defaultFile : String := "private/token_jwks.json"
  algOf : Dict String := []

/-- A token handler with the life time it was made with. -/
structure Made where
  handler : Handler
  lifetime : Int

/-- The name under which `default_token` knows the class (token/handler.py:134). -/
def defaultTokenName : String := "oidcop.token.DefaultToken"

/-- `default_token`, token/handler.py:133-137 -/
def isDefaultSpec (spec : Dict Json) : Bool :=
  match spec.get? "class" with
  | none => true
  | some v => decide (v = .str defaultTokenName)

/-- A file name in the configuration; others than strings count as missing. -/
def pathOf : Option Json → String
  | some (.str s) => s
  | _ => ""

/-- The file of the keys, token/handler.py:172-180 -/
def keyFile (defaultFile : String) (conf : FactoryConf) : String :=
  let given :=
    if conf.jwksFile ≠ "" then conf.jwksFile
    else pathOf ((conf.jwksDef.getD []).get? "private_path")
  if given = "" then defaultFile else given

/-- A definition of a key for one class, token/handler.py:186 -/
def keyDef (kid : String) : Json :=
  .obj [("type", .str "oct"), ("bytes", .num 24), ("use", .arr [.str "enc"]), ("kid", .str kid)]

/-- The definitions of the keys, token/handler.py:169-186.  "key_defs" that is not a list counts as missing. -/
def keyDefs (conf : FactoryConf) : List Json :=
  match (conf.jwksDef.getD []).get? "key_defs" with
  | some (.arr (d :: ds)) => d :: ds
  | _ =>
    [("code", conf.code), ("refresh", conf.refresh), ("token", conf.token)].filterMap (fun p =>
      match p.2 with
      | some spec => if isDefaultSpec spec then some (keyDef p.1) else none
      | none => none)

/-- "read_only" of the key definitions, token/handler.py:170, 176 -/
def keysReadOnly (conf : FactoryConf) : Bool := (((conf.jwksDef.getD []).get? "read_only").getD (.bool false)).truthy

/-- The key jar of `factory`, token/handler.py:188: the key for a key id. -/
def factoryKey (lib : FactoryLib) (conf : FactoryConf) (kid : String) : Option String :=
  lib.jar (keyDefs conf) (keyFile lib.defaultFile conf) (keysReadOnly conf) kid

/-- `_add_passwd`, token/handler.py:114-122.  "kwargs" that is not a dictionary makes the assignment raise TypeError. -/
def addPasswd (key : Option String) (spec : Dict Json) : Except Exc (Dict Json) :=
  match key with
  | none => .ok spec
  | some pw =>
    match spec.get? "kwargs" with
    | none => .ok (spec.set "password" (.str pw))
    | some (.obj kw) => .ok (spec.set "kwargs" (.obj (Dict.set kw "password" (.str pw))))
    | some _ => .error .typeError

/-- "lifetime" of the arguments of a handler.  A value that is not a number makes the handler raise TypeError when it is used;
here it does so at once. -/
def lifetimeArg (dflt : Int) (args : Dict Json) : Except Exc Int :=
  match args.get? "lifetime" with
  | none => .ok dflt
  | some (.num n) => .ok n
  | some _ => .error .typeError

/-- "password" as `Crypt` takes it, util.py:143-146: `.encode` of something that is not a string. -/
def passwordArg : Json → Except Exc String
  | .str p => .ok p
  | _ => .error .attributeError

/-- `DefaultToken(token_class, server_get, **args)`, token/__init__.py:36-45, 78-82: the password must be there. -/
def makeDefault (lib : FactoryLib) (cls : String) (args : Dict Json) : Except Exc Made :=
  match args.get? "password" with
  | none => .error .typeError
  | some v =>
    match lifetimeArg 300 args, passwordArg v with
    | .ok lt, .ok p => .ok ⟨.dflt (lib.cipher p) cls lt, lt⟩
    | .error e, _ => .error e
    | _, .error e => .error e

/-- `JWTToken(token_class, server_get, **args)`, token/jwt_token.py:16-42; its cipher is never used.  "alg" that is not a string
counts as missing. -/
def makeJwt (cls : String) (args : Dict Json) : Except Exc Made :=
  match lifetimeArg 1800 args, passwordArg ((args.get? "password").getD (.str "")) with
  | .ok lt, .ok _ =>
    .ok ⟨.jwt cls (match args.get? "alg" with | some (.str a) => a | _ => "ES256") lt, lt⟩
  | .error e, _ => .error e
  | _, .error e => .error e

/-- `IDToken(token_class, server_get, **args)`, token/id_token.py:119-131 -/
def makeIdt (lib : FactoryLib) (args : Dict Json) : Except Exc Made :=
  match lifetimeArg 300 args, constructEndpointInfo lib.crypto idTokenCaps (args.erase "lifetime") with
  | .ok lt, .ok _ => .ok ⟨.idt lib.algOf, lt⟩
  | .error e, _ => .error e
  | _, .error e => .error e

/-- The classes of handlers. -/
inductive HandlerKind where
  | dflt | jwt | idt
  deriving DecidableEq, Repr

/-- `importer(spec["class"])`, by the names that the documentation uses; other classes are not modelled. -/
def handlerKind : Json → Except Exc HandlerKind
  | .str s =>
    if s = defaultTokenName then .ok .dflt
    else if s = "oidcop.token.jwt_token.JWTToken" then .ok .jwt
    else if s = "oidcop.token.id_token.IDToken" then .ok .idt
    else .error (.other "ImportError")
  | _ => .error .typeError

/-- `cls(token_class=token_class, server_get=server_get, **args)`: an argument given twice is a TypeError. -/
def makeHandler (lib : FactoryLib) (kind : HandlerKind) (cls : String) (args : Dict Json) : Except Exc Made :=
  if args.has "token_class" || args.has "server_get" then .error .typeError
  else
    match kind with
    | .dflt => makeDefault lib cls args
    | .jwt => makeJwt cls args
    | .idt => makeIdt lib args

/-- An assignment into `_kwargs`, which may be None. -/
def kwSet (kw : Option (Dict Json)) (k : String) (v : Json) : Except Exc (Option (Dict Json)) :=
  match kw with
  | none => .error .typeError
  | some d => .ok (some (d.set k v))

/-- `spec.get("kwargs", {})`, token/handler.py:86; `none` is None. -/
def groupedArgs (spec : Dict Json) : Except Exc (Option (Dict Json)) :=
  match spec.get? "kwargs" with
  | none => .ok (some [])
  | some (.obj k) => .ok (some k)
  | some .null => .ok none
  | some _ => .error .typeError

/-- `_kwargs` with the life time, token/handler.py:86-90. -/
def specKwargs (spec : Dict Json) : Except Exc (Option (Dict Json)) :=
  match groupedArgs spec with
  | .error e => .error e
  | .ok kw =>
    match spec.get? "lifetime" with
    | none => .ok kw
    | some v => if v.truthy then kwSet kw "lifetime" v else .ok kw

/-- `init_token_handler`, token/handler.py:85-109 -/
def initHandler (lib : FactoryLib) (spec : Dict Json) (cls : String) : Except Exc Made :=
  match specKwargs spec with
  | .error e => .error e
  | .ok kw =>
    match spec.get? "class" with
    | none =>
      match (match spec.get? "password" with | none | some .null => Except.ok kw | some pw => kwSet kw "password" pw) with
      | .error e => .error e
      | .ok kw => makeHandler lib .dflt cls (kw.getD spec)
    | some c =>
      match handlerKind c with
      | .error e => .error e
      | .ok kind => makeHandler lib kind cls (kw.getD spec)

/-- One of the three classes in `factory`, token/handler.py:191-199. -/
def makeClass (lib : FactoryLib) (conf : FactoryConf) (kid cls : String) (spec : Dict Json) : Except Exc Made :=
  if isDefaultSpec spec then
    match addPasswd (factoryKey lib conf kid) spec with
    | .error e => .error e
    | .ok spec => initHandler lib spec cls
  else initHandler lib spec cls

/-- One entry of `args`, token/handler.py:191-202 -/
def withMade (hs : Dict Made) (cls : String) (spec : Option (Dict Json)) (make : Dict Json → Except Exc Made) :
    Except Exc (Dict Made) :=
  match spec with
  | none => .ok hs
  | some s => (make s).map (fun m => hs.set cls m)

/-- `factory`, token/handler.py:143-204, with `TokenHandler.__init__`, 26-43.  The entries "authorization_code" and
"access_token" that are None are left out. -/
def factory (lib : FactoryLib) (conf : FactoryConf) : Except Exc (Dict Made) :=
  match withMade [] "authorization_code" conf.code (makeClass lib conf "code" "authorization_code") with
  | .error e => .error e
  | .ok a =>
    match withMade a "access_token" conf.token (makeClass lib conf "token" "access_token") with
    | .error e => .error e
    | .ok b =>
      match withMade b "refresh_token" conf.refresh (makeClass lib conf "refresh" "refresh_token") with
      | .error e => .error e
      | .ok c => withMade c "id_token" conf.idToken (fun s => initHandler lib s "")

/-- `handler_order`, token/handler.py:35-43 -/
def handlerOrder (hs : Dict Made) : List String :=
  ["authorization_code", "access_token"] ++ ["refresh_token", "id_token"].filter (fun c => hs.has c)

/-- `get_token_handler_args`, endpoint_context.py:64-88, for a configuration without the setting. -/
def defaultFactoryConf : FactoryConf :=
  let key (kid : String) : Json :=
    .obj [("type", .str "oct"), ("bytes", .str "24"), ("use", .arr [.str "enc"]), ("kid", .str kid)]
  { code := some [("lifetime", .num 600)], token := some [("lifetime", .num 3600)], refresh := some [("lifetime", .num 86400)]
    jwksDef := some [("private_path", .str "private/token_jwks.json"),
      ("key_defs", .arr [key "code", key "token", key "refresh"]), ("read_only", .bool false)] }

end OidcOp
