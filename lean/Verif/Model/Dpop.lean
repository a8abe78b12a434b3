/-
Model of oauth2/add_on/dpop.py, and of the provider with that add-on.
-/
import Verif.Model.World

namespace OidcOp

/-- What `post_parse_request` reads of `http_info`, oauth2/add_on/dpop.py:99-112: the headers, the URL and the method of the
HTTP request, as far as the web framework passes them on. -/
structure HttpInfo where
  headers : Option (Dict String) := none
  url : Option String := none
  method : Option String := none
  deriving DecidableEq, Repr, Inhabited

/-- What the JWS library does with proofs; keys are of any type.  The laws: JSON objects do not repeat member names, a
thumb print is not empty. -/
structure DpopLib where
  Key : Type
  /-- `cryptojwt.jws.jws.factory(text)` and `.jwt.headers`; `none` if the text is not a signed JWT -/
  factory : String → Option (Dict Json)
  /-- `key_from_jwk_dict(jwk)` and `deserialize()` -/
  keyOf : Json → Except Exc Key
  /-- `verify_compact(keys=[key], sigalg=alg)`: the claims, or an exception if the signature is not the key's -/
  verify : String → Key → Json → Except Exc (Dict Json)
  /-- `as_unicode(key.thumbprint("SHA-256"))` -/
  thumbprint : Key → String
  factory_nodup : ∀ {p hs}, factory p = some hs → hs.keys.Nodup
  verify_nodup : ∀ {p k a cs}, verify p k a = .ok cs → cs.keys.Nodup
  thumbprint_ne : ∀ k, thumbprint k ≠ ""

/-- `DPoPProof.verify_header`, oauth2/add_on/dpop.py:66-84.  `self[k] = v` is taken to store the value as it is (oidcmsg
may refuse a value of a wrong type).  `DPoPProof.verify` (47-52) is never called. -/
def dpopHeader (L : DpopLib) (p : String) : Except Exc (Option (Dict Json)) :=
  match L.factory p with
  | none => .ok none
  | some hs =>
    match hs.get? "jwk" with
    | none => .error (.other "Exception")
    | some jwk =>
      match L.keyOf jwk with
      | .error e => .error e
      | .ok k =>
        match hs.get? "alg" with
        | none => .error .keyError
        | some alg =>
          match L.verify p k alg with
          | .error e => .error e
          | .ok claims => .ok (some (hs.update claims))

/-- A member of the proof is compared with a member of `http_info`, oauth2/add_on/dpop.py:106-110. -/
def dpopSame (d : Dict Json) (k : String) (x : Option String) : Except Exc Unit :=
  match d.get? k with
  | none => .error .keyError
  | some v =>
    match x with
    | none => .error .keyError
    | some y => if v = .str y then .ok () else .error .valueError

/-- The key the request is bound to, oauth2/add_on/dpop.py:112-116: `_dpop.key` was never set, so the key is read from
`_dpop["jwk"]`. -/
def dpopKey (L : DpopLib) (d : Dict Json) : Except Exc String :=
  match d.get? "jwk" with
  | none => .error .keyError
  | some j =>
    match L.keyOf j with
    | .error e => .error e
    | .ok k => .ok (L.thumbprint k)

/-- The checks on a proof and the thumb print that comes out of them, oauth2/add_on/dpop.py:101-116. -/
def dpopCheck (L : DpopLib) (h : HttpInfo) : Except Exc String :=
  match h.headers with
  | none => .error .keyError
  | some hd =>
    match hd.get? "dpop" with
    | none => .error .keyError
    | some p =>
      match dpopHeader L p with
      | .error e => .error e
      | .ok none => .error .typeError
      | .ok (some d) =>
        match dpopSame d "htu" h.url with
        | .error e => .error e
        | .ok _ =>
          match dpopSame d "htm" h.method with
          | .error e => .error e
          | .ok _ => dpopKey L d

/-- `post_parse_request`, oauth2/add_on/dpop.py:87-118; `none` is `http_info` missing or empty. -/
def dpopParse (L : DpopLib) (http : Option HttpInfo) (req : TokenReq) : Except Exc PRes :=
  match http with
  | none => .ok (.req req)
  | some h =>
    match dpopCheck L h with
    | .error e => .error e
    | .ok j => .ok (.req { req with dpopJkt := some j })

/-- `do_post_parse_request` at the token endpoint with DPoP added, endpoint.py:235-243 and dpop.py:133-136: the endpoint's
own function first, then `post_parse_request` unless the result is an error. -/
def tokenParseD (E : Env) (L : DpopLib) (w : World) (client : String) (req : TokenReq) (http : Option HttpInfo) :
    Except Exc PRes × World :=
  match tokenParse E w client req with
  | (.ok (.req r), w') => (dpopParse L http r, w')
  | (res, w') => (res, w')

/-- One thing that happens to a provider with DPoP. -/
inductive DOp where
  /-- anything but a request to the token endpoint with HTTP information -/
  | plain (op : WOp)
  /-- `parse_request` at the token endpoint, with `http_info` -/
  | token (client : String) (req : TokenReq) (http : Option HttpInfo)

/-- One operation of a provider with DPoP: like `step`, but token requests go through `post_parse_request` as well. -/
def dstep (E : Env) (L : DpopLib) (w : World) : DOp → World
  | .plain op => step E w op
  | .token client req http =>
    match tokenParseD E L w client { req with clientId := some client } http with
    | (.ok (.req r), w') => { w' with pool := w'.pool ++ [r] }
    | (_, w') => w'

/-- The state after a history of a provider with DPoP. -/
def drun (E : Env) (L : DpopLib) (w : World) (ops : List DOp) : World := ops.foldl (dstep E L) w

/-- What `add_support` sets, oauth2/add_on/dpop.py:133-147: `dpop_enabled` and the advertised algorithms. -/
def TokenCfg.withDpop (c : TokenCfg) : TokenCfg := { c with dpopEnabled := true, dpopAdvertised := true }

end OidcOp
