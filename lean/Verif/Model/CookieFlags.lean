/-
The attributes of cookies: the end of `CookieHandler.make_cookie_content` (cookie_handler.py), `new_cookie` (endpoint_context.py) and
`kill_cookies` (oidc/session.py).
-/
import Verif.Model.Cookie
import Verif.Base.Dict
import Verif.Base.Json

namespace OidcOp

/-- The default of `flags`, cookie_handler.py:81-88 -/
def defaultFlags : Dict Json := [("samesite", .str "None"), ("httponly", .bool true), ("secure", .bool true)]

/-- The default of `name`, cookie_handler.py:72-77 -/
def defaultCookieNames : Dict String :=
  [("session", "oidc_op"), ("register", "oidc_op_reg"), ("session_management", "oidc_op_sman")]

/-- A cookie handler with its names and flags, cookie_handler.py:34-88 -/
structure CookieHandler where
  conf : CookieConf
  names : Dict String := defaultCookieNames
  flags : Dict Json := defaultFlags

/-- The date in the past, cookie_handler.py:230 -/
def pastDate : String := "Thu, 01 Jan 1970 00:00:00 GMT;"

/-- The dictionary before the flags, cookie_handler.py:227-232; `epoch_in_a_while` of oidcmsg gives seconds since 1970. -/
def cookieBase (c : CookieData) (now : Nat) (maxAge : Int) : Dict Json :=
  let d : Dict Json := [("name", .str (String.ofList c.name)), ("value", .str (String.ofList c.value))]
  if maxAge = -1 then d.set "expires" (.str pastDate)
  else if maxAge ≠ 0 then d.set "max-age" (.num (now + maxAge))
  else d

/-- `make_cookie_content` with its dictionary, cookie_handler.py:193-237 -/
def cookieContent (K : CookieHandler) (nonce now : Nat) (name value typ ts : Str) (maxAge : Int) : Dict Json :=
  (cookieBase (makeCookie K.conf nonce now name value typ ts) now maxAge).update K.flags

/-- `new_cookie`, endpoint_context.py:243-247; `text` is the JSON of the arguments. -/
def newCookie (K : CookieHandler) (nonce now : Nat) (name text : Str) (maxAge : Int) : Dict Json :=
  cookieContent K nonce now name text [] [] maxAge

/-- `kill_cookies`, oidc/session.py:427-434 -/
def killCookies (K : CookieHandler) (nonce now : Nat) : Except Exc (List (Dict Json)) :=
  match K.names.get? "session_management" with
  | none => .error .keyError
  | some m =>
    match K.names.get? "session" with
    | none => .error .keyError
    | some s => .ok [cookieContent K nonce now m.toList [] [] [] (-1), cookieContent K nonce now s.toList [] [] [] (-1)]

end OidcOp
