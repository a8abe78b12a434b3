/-
`Endpoint.do_response` in general (endpoint.py:309-415), the one of the user info endpoint (oidc/userinfo.py:52-109) and the one of the
WebFinger endpoint (oidc/discovery.py:17-36).
-/
import Verif.Model.Delivery
import Verif.Model.Algs

namespace OidcOp

/-- An HTTP header. -/
abbrev Header := String × String

/-- `OAUTH2_NOCACHE_HEADERS`, util.py:21 -/
def nocacheHeaders : List Header := [("Pragma", "no-cache"), ("Cache-Control", "no-store")]

/-- `set_content_type`, endpoint.py:65-71 -/
def setContentType (headers : List Header) (ct : String) : List Header :=
  if ("Content-type", ct) ∈ headers then headers
  else headers.filter (fun h => decide (h.1 ≠ "Content-type")) ++ [("Content-type", ct)]

/-- Where and how an endpoint answers: `response_placement` and `response_format`, endpoint.py:90-91, 103-113 -/
structure AnswerStyle where
  placement : String := "body"
  format : String := "json"
  deriving DecidableEq, Repr, Inhabited

/-- The keyword arguments of `do_response`; `none` where one is not passed.  `message` is "response_msg"; `args` the arguments of the
response, `none` for `None`. -/
structure AnswerArgs where
  error : String := ""
  args : Option (Dict Json) := none
  errorDescription : Option Json := none
  errorUri : Option Json := none
  state : Option Json := none
  message : Option String := none
  placement : Option String := none
  contentType : Option String := none
  fragmentEnc : Bool := false
  returnType : Option (List String) := none
  returnUri : Option String := none
  headers : Option (List Header) := none
  cookie : Option (List String) := none
  code : Option Int := none
  deriving DecidableEq, Repr, Inhabited

/-- The body of an answer: nothing (`None`), a message as JSON, JOSE or form parameters, a text, or a URL with parameters. -/
inductive Body where
  | empty
  | json (m : Dict Json)
  | jose (m : Dict Json)
  | form (m : Dict Json)
  | text (s : String)
  | url (uri : String) (fragment : Bool) (m : Dict Json)
  deriving DecidableEq, Repr, Inhabited

/-- What `do_response` returns. -/
structure HttpAnswer where
  body : Body := .empty
  headers : List Header := []
  placement : Option String := none
  cookie : Option (List String) := none
  code : Option Int := none
  deriving DecidableEq, Repr, Inhabited

/-- A member of an error message. -/
def errorMember (name : String) : Option Json → Dict Json
  | none => []
  | some v => [(name, v)]

/-- `_response` for an error, endpoint.py:331-335 -/
def errorMessage (a : AnswerArgs) : Dict Json :=
  [("error", .str a.error)] ++ errorMember "error_description" a.errorDescription ++ errorMember "error_uri" a.errorUri ++
    errorMember "state" a.state

/-- The content type and the body of a message, endpoint.py:352-385: if a content type is passed there is no body. -/
def placeMessage (st : AnswerStyle) (a : AnswerArgs) (m : Dict Json) : Except Exc (Body × String) :=
  match a.contentType with
  | some ct => .ok (.empty, ct)
  | none =>
    if st.placement = "body" then
      if st.format = "json" then .ok (.json m, "application/json; charset=utf-8")
      else if st.format = "jws" ∨ st.format = "jwe" ∨ st.format = "jose" then .ok (.jose m, "application/jose; charset=utf-8")
      else .ok (.form m, "application/x-www-form-urlencoded")
    else if st.placement = "url" then
      match a.returnUri with
      | none => .error .keyError
      | some u =>
        .ok (.url u (inFragment { fragmentEnc := some a.fragmentEnc, returnType := a.returnType }) m, "application/x-www-form-urlencoded")
    else .error .valueError

/-- The content type and the body of a ready message, endpoint.py:336-348 -/
def placeText (st : AnswerStyle) (a : AnswerArgs) (s : String) : Body × String :=
  (.text s, a.contentType.getD
    (if st.format = "json" then "application/json"
     else if st.format = "jws" ∨ st.format = "jwe" ∨ st.format = "jose" then "application/jose"
     else "application/x-www-form-urlencoded"))

/-- The headers, endpoint.py:387-401; an empty content type is none. -/
def answerHeaders (a : AnswerArgs) (ct : String) : List Header :=
  (if ct = "" then a.headers.getD []
   else match a.headers with
    | some h => setContentType h ct
    | none => [("Content-type", ct)]) ++ nocacheHeaders

/-- `Endpoint.do_response`, endpoint.py:309-415; `info` is `response_info`, the construction of the message from the arguments. -/
def doResponse (st : AnswerStyle) (info : Dict Json → Except Exc (Dict Json)) (a : AnswerArgs) : Except Exc HttpAnswer :=
  let finish (b : Body × String) (placement : Option String) : HttpAnswer :=
    { body := b.1, headers := answerHeaders a b.2, placement := placement, cookie := a.cookie, code := a.code }
  if a.error ≠ "" then
    match placeMessage st a (errorMessage a) with
    | .error e => .error e
    | .ok b => .ok (finish b none)
  else
    match a.message with
    | some s => .ok (finish (placeText st a s) (truthyStr a.placement))
    | none =>
      match info (a.args.getD []) with
      | .error e => .error e
      | .ok m =>
        match placeMessage st a m with
        | .error e => .error e
        | .ok b => .ok (finish b none)

/-- `UserInfo.do_response`, oidc/userinfo.py:52-109.  `ci` is the client's record, `none` where there is none; `pack` is
`JWT.pack`.  Cookies and response codes are not passed on. -/
def userinfoResponse (st : AnswerStyle) (info : Dict Json → Except Exc (Dict Json)) (pack : JwtArgs → Dict Json → Except Exc String)
    (client : String) (ci : Option Cinfo) (a : AnswerArgs) : Except Exc HttpAnswer :=
  if a.error ≠ "" then doResponse st info a
  else if client = "" then .error (.other "MissingValue")
  else
    match ci with
    | none => .error .keyError
    | some ci =>
      match userinfoArgs ci with
      | .error e => .error e
      | .ok none =>
        match a.args with
        | none => .error .attributeError
        | some m => .ok { body := .json m, headers := [("Content-type", "application/json")] ++ nocacheHeaders }
      | .ok (some j) =>
        match pack j (a.args.getD []) with
        | .error e => .error e
        | .ok s => .ok { body := .text s, headers := [("Content-type", "application/jwt")] ++ nocacheHeaders }

/-- `Discovery.process_request` and `Discovery.do_response`, oidc/discovery.py:17-42, for a request that names `resource`. -/
def discoveryResponse (issuer resource : String) : HttpAnswer :=
  { body := .json [("subject", .str resource),
      ("links", .arr [.obj [("href", .str issuer), ("rel", .str "http://openid.net/specs/connect/1.0/issuer")]])]
    headers := [("Content-type", "application/json")] }

/-- The endpoints of the repository and how they answer: oauth2/authorization.py:283-284, oidc/authorization.py:74-75,
oauth2/token.py:368-369, oidc/token.py:362-363, oidc/userinfo.py:26-27, oauth2/introspection.py:20, oidc/registration.py:142,
oidc/read_registration.py:15, oidc/session.py:80-81, oauth2/pushed_authorization.py:14-15, oidc/provider_config.py:14 -/
def answerStyle : String → AnswerStyle
  | "authorization" => { placement := "url", format := "urlencoded" }
  | "session" => { placement := "url", format := "urlencoded" }
  | _ => {}

end OidcOp
