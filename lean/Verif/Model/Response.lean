/-
Where an authorization response is put: response_mode (oauth2/authorization.py:658-704), the url placement of do_response
(endpoint.py:309-415), and the form of a form_post response (oauth2/authorization.py:62-84).
-/
import Verif.Model.Authz

namespace OidcOp

/-- Where the parameters of an answer go. -/
inductive Placement where
  | query
  | fragment
  | body
  deriving DecidableEq, Repr, Inhabited

/-- `response_mode` as `post_authentication` calls it, oauth2/authorization.py:658-704, with the url placement of
`do_response`, endpoint.py:371-385: without a response mode the answer goes to the fragment if `fragment_enc` is true and to
the query otherwise; `InvalidRequest` for a mode that does not fit or is unknown. -/
def responsePlace (mode : Option String) (fragEnc : Bool) : Except Exc Placement :=
  match mode with
  | none => .ok (if fragEnc then .fragment else .query)
  | some m =>
    if m = "form_post" then .ok .body
    else if m = "fragment" then (if fragEnc then .ok .fragment else .error (.other "InvalidRequest"))
    else if m = "query" then (if fragEnc then .error (.other "InvalidRequest") else .ok .query)
    else .error (.other "InvalidRequest")

/-- An answer of the authorization endpoint after `post_authentication` and `do_response`, with its place. -/
inductive Answer where
  | err (code desc : String) (place : Placement)
  | resp (r : AuthzResp) (place : Placement)
  deriving DecidableEq, Repr, Inhabited

/-- The end of `post_authentication`, oauth2/authorization.py:862-876, when the redirect URI has been accepted: a response
mode that does not fit replaces the answer by an error, which keeps the `fragment_enc` of the answer. -/
def answerOf (mode : Option String) : ARes → Answer
  | .err c d f =>
    match responsePlace mode f with
    | .ok p => .err c d p
    | .error _ => .err "invalid_request" "wrong response_mode" (if f then .fragment else .query)
  | .resp r f =>
    match responsePlace mode f with
    | .ok p => .resp r p
    | .error _ => .err "invalid_request" "wrong response_mode" (if f then .fragment else .query)

/-- One element of the form, oauth2/authorization.py:79-83: `format` puts name and value in as they are. -/
def inputField (name value : String) : String :=
  "<input type=\"hidden\" name=\"" ++ name ++ "\" value=\"" ++ value ++ "\"/>"

/-- `inputs`, oauth2/authorization.py:75-84; a list-valued scope is joined by the caller of this definition. -/
def inputs (args : List (String × String)) : String :=
  "\n".intercalate (args.map (fun p => inputField p.1 p.2))

/-- `FORM_POST.format(inputs=..., action=...)`, oauth2/authorization.py:62-72 -/
def formPost (args : List (String × String)) (action : String) : String :=
  "<html>\n  <head>\n    <title>Submit This Form</title>\n  </head>\n" ++
  "  <body onload=\"javascript:document.forms[0].submit()\">\n    <form method=\"post\" action=\"" ++ action ++
  "\">\n        " ++ inputs args ++ "\n    </form>\n  </body>\n</html>"

end OidcOp
