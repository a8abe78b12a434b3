/-
Model of the URI verification of oauth2/authorization.py and of util.split_uri.
-/
import Verif.Base.Exc
import Verif.Base.Dict
import Verif.Base.Str

namespace OidcOp

/-- The parts of urllib.parse that are used.  `split` is `split_uri`, util.py:184-196, with an absent query as the empty
dictionary. -/
structure UriLib where
  unquote : String → String
  /-- `urlparse(uri).fragment` -/
  fragment : String → String
  split : String → String × Dict (List String)
  /-- `urlencode(query, doseq=True)` -/
  urlencode : Dict (List String) → String

/-- A registered URI: a string, or a base and a query dictionary. -/
inductive RegUri where
  | plain (s : String)
  | pair (base : String) (query : Dict (List String))
  deriving DecidableEq, Repr, Inhabited

/-- oauth2/authorization.py:137-141 -/
def RegUri.parts : RegUri → String × Dict (List String)
  | .plain s => (s, [])
  | .pair b q => (b, q)

/-- The values of `vals` are all among those of `key` in `q`, and the key is there: oauth2/authorization.py:150-156 and
164-169. -/
def valuesIn (q : Dict (List String)) (key : String) (vals : List String) : Bool :=
  match q.get? key with
  | none => false
  | some vs => vals.all (fun v => vs.contains v)

/-- The comparison of query parts, oauth2/authorization.py:145-169.  Every way to fail raises ValueError. -/
def queryCheck (query rquery : Dict (List String)) : Except Exc Unit :=
  if !rquery.isEmpty && query.isEmpty then .error .valueError
  else if !(rquery.all (fun p => valuesIn query p.1 p.2)) then .error .valueError
  else if !query.isEmpty && rquery.isEmpty then .error .valueError
  else if !(query.all (fun p => valuesIn rquery p.1 p.2)) then .error .valueError
  else .ok ()

/-- The loop over the registered URIs, oauth2/authorization.py:136-174. -/
def matchUris (base : String) (query : Dict (List String)) : List RegUri → Except Exc Unit
  | [] => .error (.other "RedirectURIError")
  | r :: rest => if base = r.parts.1 then queryCheck query r.parts.2 else matchUris base query rest

/-- `verify_uri`, oauth2/authorization.py:92-175.  `cid` is the client id of the request or the argument, `uri` the
member of the request, `regs` the client database: for each client the registered URIs of the type, if any. -/
def verifyUri (L : UriLib) (cdb : Dict (Option (List RegUri))) (cid : Option String) (uri : Option String) :
    Except Exc Unit :=
  match cid with
  | none | some "" => .error (.other "UnknownClient")
  | some c =>
    match uri with
    | none => .error .valueError
    | some u =>
      let ru := L.unquote u
      if L.fragment ru ≠ "" then .error (.other "URIError")
      else
        match cdb.get? c with
        | none => .error .keyError
        | some none => .error (.other "RedirectURIError")
        | some (some regs) => matchUris (L.split ru).1 (L.split ru).2 regs

/-- `join_query`, oauth2/authorization.py:178-188 -/
def joinQuery (L : UriLib) (base : String) (query : Dict (List String)) : String :=
  if query.isEmpty then base else base ++ "?" ++ L.urlencode query

/-- `get_uri`, oauth2/authorization.py:191-219.  `join_query(*spec)` of a registered string raises TypeError (a string of
two characters is left out). -/
def getUri (L : UriLib) (cdb : Dict (Option (List RegUri))) (cid : Option String) (uri : Option String) :
    Except Exc String :=
  match uri with
  | some u =>
    match verifyUri L cdb cid (some u) with
    | .ok _ => .ok u
    | .error e => .error e
  | none =>
    match cid with
    | none => .error .keyError
    | some c =>
      match cdb.get? c with
      | none => .error (.other "UnknownClient")
      | some none | some (some []) => .error (.other "ParameterError")
      | some (some [.plain _]) => .error .typeError
      | some (some [.pair b q]) => .ok (joinQuery L b q)
      | some (some _) => .error (.other "ParameterError")

/-- The registered form of a redirect URI, oidc/registration.py:311-318; `custom` is the custom scheme of a native
client. -/
def registeredForm (L : UriLib) (custom : Bool) (uri : String) : RegUri :=
  if custom then .pair uri [] else .pair (L.split uri).1 (L.split uri).2

/-- `verify_response_type`, oauth2/authorization.py:319-327: sets are compared, so lists by their members.  `registered`
is `cinfo.get("response_types", [])`, each a string of types separated by spaces. -/
def verifyResponseType (registered : List String) (rt : List String) : Bool :=
  let reg := registered.map (fun r => (pySplit [' '] r.toList).map String.ofList)
  let reg := if reg.isEmpty then [["code"]] else reg
  reg.any (fun s => s.all (fun x => rt.contains x) && rt.all (fun x => s.contains x))

/-! A concrete library for examples: URIs without percent-encoding in the query, with a scheme in lower case. -/

/-- A string split at the first occurrence of a character. -/
def cutAt (c : Char) (s : Str) : Str × Str :=
  match splitFirst c s with
  | some p => p
  | none => (s, [])

def hexVal (c : Char) : Option Nat :=
  if '0' ≤ c ∧ c ≤ '9' then some (c.toNat - 48)
  else if 'a' ≤ c ∧ c ≤ 'f' then some (c.toNat - 87)
  else if 'A' ≤ c ∧ c ≤ 'F' then some (c.toNat - 55)
  else none

/-- `unquote` for ASCII: `%xy` becomes a character, anything else stays. -/
def unquoteStr : Str → Str
  | '%' :: x :: y :: r =>
    match hexVal x, hexVal y with
    | some a, some b => Char.ofNat (16 * a + b) :: unquoteStr r
    | _, _ => '%' :: unquoteStr (x :: y :: r)
  | c :: r => c :: unquoteStr r
  | [] => []
  termination_by s => s.length

/-- `parse_qs` without percent-decoding: fields without a value are dropped, values of one name are collected. -/
def parseQs (s : Str) : Dict (List String) :=
  (pySplit ['&'] s).foldl (fun d f =>
    match splitFirst '=' f with
    | some (k, v) =>
      if v.isEmpty then d
      else d.set (String.ofList k) ((d.get? (String.ofList k)).getD [] ++ [String.ofList v])
    | none => d) []

def simpleUri : UriLib where
  unquote s := String.ofList (unquoteStr s.toList)
  fragment s := String.ofList (cutAt '#' s.toList).2
  split s :=
    let p := cutAt '?' (cutAt '#' s.toList).1
    (String.ofList p.1, if p.2.isEmpty then [] else parseQs p.2)
  urlencode q := String.ofList (pyJoin ['&'] (q.flatMap (fun p => p.2.map (fun v => p.1.toList ++ '=' :: v.toList))))

end OidcOp
