/-
Model of token/__init__.py, token/handler.py, token/jwt_token.py and of `IDToken.info`.

Tokens and session ids are lists of characters here.  The cryptography is a parameter.
-/
import Verif.Model.Util
import Verif.Base.Dict
import Verif.Base.Json

namespace OidcOp

/-- `ALT_TOKEN_NAME`, token/__init__.py:18-23, with the KeyError branch of 38-41 -/
def altTokenName (cls : String) : String :=
  if cls = "authorization_code" then "A"
  else if cls = "access_token" then "T"
  else if cls = "refresh_token" then "R"
  else if cls = "id_token" then "I"
  else ""

/-- `is_expired`, token/__init__.py:26-32 -/
def isExpired (now exp : Int) : Bool := if exp < 0 then false else decide (now > exp)

/-- Signing and verification of cryptojwt with the provider's own keys, all handlers share the key jar.
`sign nonce alg payload` is one signed token, `unpack alg token` the verified payload (`JWT.unpack` with
`allowed_sign_algs=[alg]`), `peek` the payload without verification (`factory(token)`, `_jwt.jwt.payload()`). -/
structure JwtLib where
  sign : Nat → String → Dict Json → Str
  unpack : String → Str → Except Exc (Dict Json)
  peek : Str → Option (Dict Json)
  unpack_sign : ∀ n alg p, unpack alg (sign n alg p) = .ok p
  peek_sign : ∀ n alg p, peek (sign n alg p) = some p

/-- The dictionary that a handler's `info` returns, without the handler itself.  `cls` is absent in an answer of the ID
token handler. -/
structure TokInfo where
  sid : Option Str
  cls : Option String
  deriving DecidableEq, Repr, Inhabited

/-- A configured token handler. -/
inductive Handler where
  /-- `DefaultToken` with a password, token class and life time -/
  | dflt (C : Cipher) (cls : String) (lifetime : Int)
  /-- `JWTToken` -/
  | jwt (cls alg : String) (lifetime : Int)
  /-- `IDToken`; for each client the signing algorithm of its ID tokens -/
  | idt (algOf : Dict String)

/-- The exception classes that `get_handler` passes over, token/handler.py:74: KeyError, TokenException, Invalid,
AttributeError. -/
def skipped (e : Exc) : Bool :=
  e.isKeyError || e == .unknownToken || e == .wrongTokenClass || e == .attributeError ||
    e == .other "InvalidToken" || e == .other "Invalid"

/-- Text of an integer, Python `str(n)`. -/
def intStr (n : Int) : Str := if n < 0 then '-' :: natStr n.natAbs else natStr n.natAbs

/-- `token_class` argument of a handler call: the grant passes the payload as keyword arguments
(session/grant.py:344-346), so a payload entry of that name becomes the argument. -/
def classArg (payload : Dict Json) : Option Json :=
  match payload.get? "token_class" with
  | some v => if v.truthy then some v else none
  | none => none

/-- `DefaultToken.__call__`, token/__init__.py:84-113: `rnd` is the random string, `nonce` the randomness of the
encryption. -/
def defaultCall (C : Cipher) (cls : String) (lifetime : Int) (now : Int) (nonce : Nat) (rnd sid : Str)
    (payload : Dict Json) : Str :=
  let tokenClass := if (classArg payload).isNone && cls != "" then cls else "authorization_code"
  let exp := if lifetime ≥ 0 then intStr (now + lifetime) else "-1".toList
  cryptEncrypt C nonce (lvPack [rnd, tokenClass.toList, sid, exp])

/-- The payload that `JWT.pack` signs: iss, iat and, for a life time other than 0, exp are set last. -/
def packed (issuer : String) (now lifetime : Int) (payload : Dict Json) : Dict Json :=
  let p := (payload.set "iss" (.str issuer)).set "iat" (.num now)
  if lifetime = 0 then p else p.set "exp" (.num (now + lifetime))

/-- The payload that `JWTToken.__call__` signs, token/jwt_token.py:61-84; `rules` is "expires_in" of the usage rules, if
they are given and have one. -/
def jwtPayload (issuer cls : String) (lifetime : Int) (rules : Option Int) (now : Int) (sid : Str) (payload : Dict Json) :
    Dict Json :=
  let tokenClass : Json :=
    match classArg payload with
    | some v => v
    | none => if cls != "" then .str cls else .str "authorization_code"
  packed issuer now (rules.getD lifetime)
    (((payload.erase "token_class").set "sid" (.str (String.ofList sid))).set "token_class" tokenClass)

/-- `JWTToken.__call__`, token/jwt_token.py:49-86 -/
def jwtCall (L : JwtLib) (issuer cls alg : String) (lifetime : Int) (rules : Option Int) (now : Int) (nonce : Nat)
    (sid : Str) (payload : Dict Json) : Str :=
  L.sign nonce alg (jwtPayload issuer cls lifetime rules now sid payload)

/-- The handler call of `Grant.mint_token`, session/grant.py:344-346; the ID token handler is not modelled here (see
Model/Payload.lean). -/
def Handler.call (L : JwtLib) (issuer : String) (rules : Option Int) (now : Int) (nonce : Nat) (rnd sid : Str)
    (payload : Dict Json) : Handler → Option Str
  | .dflt C cls lt => some (defaultCall C cls lt now nonce rnd sid payload)
  | .jwt cls alg lt => some (jwtCall L issuer cls alg lt rules now nonce sid payload)
  | .idt _ => none

/-- `DefaultToken.info`, token/__init__.py:115-136 -/
def defaultInfo (C : Cipher) (cls : String) (token : Str) : Except Exc TokInfo :=
  match cryptDecrypt C token with
  | none => .error .unknownToken
  | some plain =>
    match lvUnpack plain with
    | .error e => .error e
    | .ok vals =>
      match vals[1]? with
      | none => .error .keyError
      | some c =>
        if c = cls.toList ∨ c = (altTokenName cls).toList then .ok { sid := vals[2]?, cls := some cls }
        else .error .wrongTokenClass

/-- A payload entry read as a string, for the session id. -/
def payloadSid : Json → Option Str
  | .str s => some s.toList
  | _ => none

/-- `JWTToken.info`, token/jwt_token.py:98-125; `get_payload` 88-96 is `L.unpack`.  An "exp" that is not a number makes
the comparison raise TypeError. -/
def jwtInfo (L : JwtLib) (cls alg : String) (now : Int) (token : Str) : Except Exc TokInfo :=
  match L.unpack alg token with
  | .error e => .error e
  | .ok p =>
    let c : Option Json :=
      match p.get? "ttype" with
      | some .null | none => p.get? "token_class"
      | some v => some v
    if c = some (.str cls) ∨ c = some (.str (altTokenName cls)) then
      match p.get? "exp" with
      | none => .error .keyError
      | some (.num exp) =>
        if isExpired now exp then .error .toOld
        else
          match p.get? "sid" with
          | none => .error .keyError
          | some s => .ok { sid := payloadSid s, cls := some cls }
      | some _ => .error .typeError
    else if (p.get? "token_class").isNone then .error .keyError
    else .error .wrongTokenClass

/-- `_payload["aud"][0]` and its use as a key of the client database, token/id_token.py:315-317: a list gives its first
element, a string its first character; an unhashable element raises TypeError, no element IndexError. -/
def audClient : Json → Except Exc String
  | .arr (.str c :: _) => .ok c
  | .arr [] => .error .indexError
  | .arr (.arr _ :: _) => .error .typeError
  | .arr (.obj _ :: _) => .error .typeError
  | .arr (_ :: _) => .error .keyError
  | .str s => match s.toList with
    | [] => .error .indexError
    | c :: _ => .ok (String.ofList [c])
  | .obj _ => .error .keyError
  | _ => .error .typeError

/-- `IDToken.info`, token/id_token.py:301-338. -/
def idtInfo (L : JwtLib) (algOf : Dict String) (now : Int) (token : Str) : Except Exc TokInfo :=
  match L.peek token with
  | none => .error (.other "InvalidToken")
  | some p =>
    match p.get? "aud" with
    | none => .error .keyError
    | some a =>
      match audClient a with
      | .error e => .error e
      | .ok client =>
        match algOf.get? client with
        | none => .error .keyError
        | some alg =>
          match L.unpack alg token with
          | .error e => .error e
          | .ok q =>
            match q.get? "exp" with
            | none => .error .keyError
            | some (.num exp) =>
              if isExpired now exp then .error .toOld
              else .ok { sid := match q.get? "sid" with | some s => payloadSid s | none => some [], cls := none }
            | some _ => .error .typeError

/-- `handler.info(token)` -/
def Handler.info (L : JwtLib) (now : Int) (token : Str) : Handler → Except Exc TokInfo
  | .dflt C cls _ => defaultInfo C cls token
  | .jwt cls alg _ => jwtInfo L cls alg now token
  | .idt algOf => idtInfo L algOf now token

/-- `TokenHandler.info` with `get_handler`, token/handler.py:52-81.  `handlers` is `self.handler`; a handler that is
configured as None raises AttributeError, an unknown name KeyError, both are passed over, and so is the absence of the name
here. -/
def handlerInfo (L : JwtLib) (now : Int) (handlers : Dict Handler) (token : Str) : List String → Except Exc TokInfo
  | [] => .error .unknownToken
  | typ :: rest =>
    match handlers.get? typ with
    | none => handlerInfo L now handlers token rest
    | some h =>
      match h.info L now token with
      | .ok r => .ok r
      | .error e => if skipped e then handlerInfo L now handlers token rest else .error e

end OidcOp
