/-
Model of construct.py: what an endpoint publishes about itself.
-/
import Verif.Base.PyEq
import Verif.Base.Dict

namespace OidcOp

/-- What the crypto library supports: the keys of `SIGNER_ALGS` and the two lists in `jwe.SUPPORTED`. -/
structure CryptoAlgs where
  sign : List String
  alg : List String
  enc : List String
  deriving DecidableEq, Repr, Inhabited

/-- `ALG_SORT_ORDER[alg[0:2]]`, construct.py:9, 16 -/
def algRank (alg : String) : Except Exc Nat :=
  match alg.toList.take 2 with
  | ['R', 'S'] => .ok 0
  | ['E', 'S'] => .ok 1
  | ['H', 'S'] => .ok 2
  | ['P', 'S'] => .ok 3
  | ['n', 'o'] => .ok 4
  | _ => .error .keyError

/-- `sort_sign_alg`, construct.py:15-28 -/
def sortSignAlg (a b : String) : Except Exc Int :=
  match algRank a, algRank b with
  | .ok m, .ok n =>
    if m < n then .ok (-1)
    else if m > n then .ok 1
    else if a < b then .ok (-1)
    else if a > b then .ok 1
    else .ok 0
  | _, _ => .error .keyError

/-- Insertion into a list that is in order. -/
def insertAlg (x : String) : List String → List String
  | [] => [x]
  | y :: ys => if sortSignAlg x y = .ok 1 then y :: insertAlg x ys else x :: y :: ys

/-- `sorted(algs, key=cmp_to_key(sort_sign_alg))`, construct.py:36.  The comparison is a total order, so any sorting gives
the same list.  In a list of two or more every element is compared, so one that is not known makes it fail. -/
def sortedAlgs (algs : List String) : Except Exc (List String) :=
  match algs with
  | [] => .ok []
  | [a] => .ok [a]
  | _ =>
    if algs.all (fun a => match algRank a with | .ok _ => true | .error _ => false) then
      .ok (algs.foldr insertAlg [])
    else .error .keyError

/-- The kinds of attributes that hold algorithms. -/
inductive AlgKind where
  | signing
  | encAlg
  | encEnc
  deriving DecidableEq, Repr, Inhabited

/-- construct.py:53-58 -/
def algKind (attr : String) : Option AlgKind :=
  if isInfix "signing_alg_values_supported".toList attr.toList then some .signing
  else if isInfix "encryption_alg_values_supported".toList attr.toList then some .encAlg
  else if isInfix "encryption_enc_values_supported".toList attr.toList then some .encEnc
  else none

/-- `assign_algorithms`, construct.py:31-40 -/
def assignAlgorithms (lib : CryptoAlgs) : AlgKind → Except Exc (List String)
  | .signing => sortedAlgs lib.sign
  | .encAlg => .ok lib.alg
  | .encEnc => .ok lib.enc

/-- `WEAK_ALGS`, construct.py:10 -/
def weakAlgs : List String := ["RSA1_5", "none"]

/-- The values in something that is iterated over; what cannot be is a TypeError. -/
def elements : Json → Except Exc (List Json)
  | .arr l => .ok l
  | .str s => .ok (s.toList.map (fun c => .str (String.ofList [c])))
  | .obj d => .ok (d.map (fun p => .str p.1))
  | _ => .error .typeError

/-- `permitted.issuperset(set(proposal))`: values that cannot be hashed are a TypeError. -/
def withinPermitted (permitted : List String) (proposal : Json) : Except Exc Bool :=
  match elements proposal with
  | .error e => .error e
  | .ok l =>
    if l.any (fun v => !v.hashable) then .error .typeError
    else .ok (l.all (fun v => permitted.any (fun a => decide (v = .str a))))

/-- A configured value, construct.py:48-65 -/
def proposed (lib : CryptoAlgs) (attr : String) (proposal : Json) : Except Exc Json :=
  match algKind attr with
  | none => .ok proposal
  | some k =>
    match assignAlgorithms lib k with
    | .error e => .error e
    | .ok [] => .ok proposal
    | .ok permitted =>
      match withinPermitted permitted proposal with
      | .error e => .error e
      | .ok true => .ok proposal
      | .ok false => .error .valueError

/-- The value of an attribute that is not configured, construct.py:66-77; `none`: the attribute is not set. -/
def defaultFor (lib : CryptoAlgs) (attr : String) (default : Json) : Except Exc (Option Json) :=
  if default ≠ .null then .ok (some default)
  else
    match algKind attr with
    | none => .ok none
    | some .signing =>
      match assignAlgorithms lib .signing with
      | .error e => .error e
      | .ok l => .ok (some (.arr ((l.erase "none").map .str)))
    | some .encAlg => .ok (some (.arr ((lib.alg.filter (fun a => decide (a ∉ weakAlgs))).map .str)))
    | some .encEnc => .ok (some (.arr (lib.enc.map .str)))

/-- `sub` occurs in the text, and `sub'` after it. -/
def infixThen (sub sub' : List Char) : List Char → Bool
  | [] => sub.isEmpty && sub'.isEmpty
  | c :: cs => (sub.isPrefixOf (c :: cs) && isInfix sub' ((c :: cs).drop sub.length)) || infixThen sub sub' cs

/-- The look for weak algorithms, construct.py:79-85: it logs, and fails if there is nothing to look at.  Names of
attributes have no line breaks. -/
def weakCheck (attr : String) (value : Option Json) : Except Exc Unit :=
  if infixThen "alg".toList "_values_supported".toList attr.toList ||
      infixThen "enc".toList "_values_supported".toList attr.toList then
    match value with
    | none => .error .keyError
    | some v =>
      match elements v with
      | .ok _ => .ok ()
      | .error e => .error e
  else .ok ()

/-- One attribute, construct.py:47-85 -/
def endpointAttr (lib : CryptoAlgs) (kwargs : Dict Json) (attr : String) (default : Json) : Except Exc (Option Json) :=
  let value : Except Exc (Option Json) := match kwargs.get? attr with
    | some proposal =>
      match proposed lib attr proposal with
      | .ok v => .ok (some v)
      | .error e => .error e
    | none => defaultFor lib attr default
  match value with
  | .error e => .error e
  | .ok v =>
    match weakCheck attr v with
    | .ok _ => .ok v
    | .error e => .error e

/-- The loop of `construct_endpoint_info`, construct.py:46-85 -/
def endpointInfoLoop (lib : CryptoAlgs) (kwargs : Dict Json) : Dict Json → Dict Json → Except Exc (Dict Json)
  | [], info => .ok info
  | (attr, d) :: rest, info =>
    match endpointAttr lib kwargs attr d with
    | .error e => .error e
    | .ok none => endpointInfoLoop lib kwargs rest info
    | .ok (some v) => endpointInfoLoop lib kwargs rest (info.set attr v)

/-- `construct_endpoint_info`, construct.py:43-86, for default capabilities that are not None. -/
def constructEndpointInfo (lib : CryptoAlgs) (caps kwargs : Dict Json) : Except Exc (Dict Json) :=
  endpointInfoLoop lib kwargs caps []

end OidcOp
