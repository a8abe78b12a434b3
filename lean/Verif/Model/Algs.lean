/-
Which algorithms are used for what goes to a client: ID tokens (token/id_token.py), user info (oidc/userinfo.py) and logout
tokens (oidc/session.py).
-/
import Verif.Model.Registration
import Verif.Model.Payload

namespace OidcOp

/-- What `JWT` is told to do: to sign, to encrypt, and with what. -/
structure JwtArgs where
  sign : Bool := false
  encrypt : Bool := false
  signAlg : Option String := none
  encAlg : Option String := none
  encEnc : Option String := none
  deriving DecidableEq, Repr, Inhabited

/-- A member of a client's record that names an algorithm.  One that is no string is refused by the JWT library. -/
def algMember (ci : Cinfo) (name : String) : Except Exc (Option String) :=
  match ci.get? name with
  | none => .ok none
  | some (.json (.str a)) => .ok (some a)
  | some _ => .error .typeError

/-- `DEF_SIGN_ALG`, token/id_token.py:21-27 -/
def defSignAlg : Dict String :=
  [("id_token", "RS256"), ("userinfo", "RS256"), ("request_object", "RS256"), ("client_secret_jwt", "HS256"),
   ("private_key_jwt", "RS256")]

/-- token/id_token.py:68-84.  `jwx_def` is always empty (endpoint_context.py:230), so that line 69 raises KeyError. -/
def dfltSignAlg (pi : Dict (List String)) (ptype : String) : Except Exc String :=
  match defSignAlg.get? ptype with
  | none => .error .keyError
  | some d =>
    match pi.get? (ptype ++ "_signing_alg_values_supported") with
    | none => .ok d
    | some [] => .ok d
    | some (x :: r) => if (x :: r).contains d then .ok d else .ok x

/-- token/id_token.py:64-84 -/
def signAlgFor (pi : Dict (List String)) (ci : Cinfo) (ptype : String) : Except Exc String :=
  match algMember ci (ptype ++ "_signed_response_alg") with
  | .error e => .error e
  | .ok (some a) => .ok a
  | .ok none => dfltSignAlg pi ptype

/-- token/id_token.py:86-95 for "alg" and 97-105 for "enc" -/
def encParam (pi : Dict (List String)) (ci : Cinfo) (ptype which : String) : Except Exc (Option String) :=
  match algMember ci (ptype ++ "_encrypted_response_" ++ which) with
  | .error e => .error e
  | .ok (some a) => .ok (some a)
  | .ok none =>
    match pi.get? (ptype ++ "_encryption_" ++ which ++ "_values_supported") with
    | none => .ok none
    | some l => .ok l.head?

/-- `get_sign_and_encrypt_algorithms`, token/id_token.py:60-107, with `sign=True` -/
def signAndEncrypt (pi : Dict (List String)) (ci : Cinfo) (ptype : String) (encrypt : Bool) : Except Exc JwtArgs :=
  match signAlgFor pi ci ptype with
  | .error e => .error e
  | .ok a =>
    if encrypt then
      match encParam pi ci ptype "alg" with
      | .error e => .error e
      | .ok ea =>
        match encParam pi ci ptype "enc" with
        | .error e => .error e
        | .ok ee => .ok { sign := true, encrypt := true, signAlg := some a, encAlg := ea, encEnc := ee }
    else .ok { sign := true, signAlg := some a }

/-- What an ID token is made with, token/id_token.py:244-299: to encrypt or not is the keyword argument "encrypt" of the
handler, which `Grant.mint_token` (session/grant.py:344-346) fills from the payload. -/
def idtArgs (pi : Dict (List String)) (ci : Cinfo) (payload : Dict Json) : Except Exc JwtArgs :=
  signAndEncrypt pi ci "id_token" (((payload.get? "encrypt").map Json.truthy).getD false)

/-- The algorithms of all clients, as the ID token handler looks them up: `IdtCfg.algOf` for a client database. -/
def algTable (pi : Dict (List String)) (cdb : Dict Cinfo) : Dict String :=
  cdb.filterMap (fun p => match signAlgFor pi p.2 "id_token" with | .ok a => some (p.1, a) | .error _ => none)

/-- oidc/userinfo.py:78-84: both or nothing; "enc" is looked up first. -/
def userinfoEnc (ci : Cinfo) : Except Exc (Option (String × String)) :=
  match algMember ci "userinfo_encrypted_response_enc" with
  | .error e => .error e
  | .ok none => .ok none
  | .ok (some ee) =>
    match algMember ci "userinfo_encrypted_response_alg" with
    | .error e => .error e
    | .ok none => .ok none
    | .ok (some ea) => .ok (some (ea, ee))

/-- What user info is sent as, oidc/userinfo.py:67-103: `none` is plain JSON.  `sign_alg`, `enc_alg` and `enc_enc` are the
empty string where they are not used; here they are absent. -/
def userinfoArgs (ci : Cinfo) : Except Exc (Option JwtArgs) :=
  match algMember ci "userinfo_signed_response_alg" with
  | .error e => .error e
  | .ok sa =>
    match userinfoEnc ci with
    | .error e => .error e
    | .ok enc =>
      if sa.isSome || enc.isSome then
        .ok (some { sign := sa.isSome, encrypt := enc.isSome, signAlg := sa, encAlg := enc.map Prod.fst, encEnc := enc.map Prod.snd })
      else .ok none

/-- What a logout token is signed with, oidc/session.py:133-138 -/
def logoutAlg (pi : Dict (List String)) (ci : Cinfo) : Except Exc String :=
  match algMember ci "id_token_signed_response_alg" with
  | .error e => .error e
  | .ok (some a) => .ok a
  | .ok none =>
    match pi.get? "id_token_signing_alg_values_supported" with
    | none => .error .keyError
    | some [] => .error .indexError
    | some (x :: _) => .ok x

end OidcOp
