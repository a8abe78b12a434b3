/-
Model of oidc/session.py: the end session endpoint, front and back channel logout.
-/
import Verif.Model.World
import Verif.Model.Uri
import Verif.Model.TokenHandler

namespace OidcOp

/-- The members of a client record that logout reads. -/
structure LogoutReg where
  clientId : Option String := none
  backUri : Option String := none
  frontUri : Option String := none
  /-- `frontchannel_logout_session_required` -/
  frontSid : Bool := false
  /-- `id_token_signed_response_alg` -/
  alg : Option String := none
  /-- `post_logout_redirect_uris` -/
  postUris : Option (List RegUri) := none
  deriving DecidableEq, Repr, Inhabited

/-- The end session endpoint and its context.  `sidOf` is the attribute `session_id` of a token (session/grant.py:331,
session/token.py:88); `noQuery` is `urlparse(uri)._replace(query="").geturl()`; `signFails` says for which algorithms there is no key;
`dfltAlg` is the first of `id_token_signing_alg_values_supported`. -/
structure LogoutCtx where
  E : Env
  L : UriLib
  J : JwtLib
  clients : Dict LogoutReg
  issuer : String
  dfltAlg : String
  signingAlg : String
  verifyUrl : String
  postPath : String
  sidOf : Token → String
  noQuery : String → String
  signFails : String → Option Exc

/-- The body of the loop of `last_issued_token_of_type`, session/grant.py:396-401 -/
def laterOf (c : TokenClass) (res : Option Token) (t : Token) : Option Token :=
  if t.cls = c then
    match res with
    | none => some t
    | some r => if r.issuedAt < t.issuedAt then some t else some r
  else res

/-- `Grant.last_issued_token_of_type`, session/grant.py:394-402: of the tokens issued latest the first one. -/
def lastIssued (c : TokenClass) (ts : List Token) : Option Token := ts.foldl (laterOf c) none

/-- `do_front_channel_logout_iframe`, oidc/session.py:36-73 -/
def frontIframe (K : LogoutCtx) (reg : LogoutReg) (sid : String) : Option String :=
  match reg.frontUri with
  | none => none
  | some uri =>
    if reg.frontSid then
      let q : Dict (List String) := [("iss", [K.issuer]), ("sid", [sid])]
      if '?' ∈ uri.toList then
        some ("<iframe src=\"" ++ K.noQuery uri ++ "?" ++ K.L.urlencode ((K.L.split uri).2.update q) ++ "\">")
      else some ("<iframe src=\"" ++ uri ++ "?" ++ K.L.urlencode q ++ "\">")
    else some ("<iframe src=\"" ++ uri ++ "\">")

/-- BACK_CHANNEL_LOGOUT_EVENT of oidcmsg -/
def backChannelEvent : String := "http://schemas.openid.net/event/backchannel-logout"

/-- `JWT.pack(payload, recv)`, with the provider as issuer and a life time of a day.  The claims iss, iat, exp and aud are set over the
payload's. -/
def packFor (K : LogoutCtx) (now : Int) (recv : String) (payload : Dict Json) : Dict Json :=
  (packed K.issuer now 86400 payload).set "aud" (.arr [.str recv])

/-- `do_back_channel_logout`, oidc/session.py:110-142 -/
def backChannel (K : LogoutCtx) (now : Int) (n : Nat) (reg : LogoutReg) (sid : String) : Except Exc (Option (String × Str)) :=
  match reg.backUri with
  | none => .ok none
  | some uri =>
    let alg := reg.alg.getD K.dfltAlg
    match reg.clientId with
    | none => .error .keyError
    | some cid =>
      match K.signFails alg with
      | some e => .error e
      | none => .ok (some (uri, K.J.sign n alg (packFor K now cid
          [("sid", .str sid), ("events", .obj [(backChannelEvent, .obj [])])])))

/-- How a client is told: the logout URI and the logout token to post there, or an iframe for the user's browser. -/
inductive Notice where
  | back (uri : String) (token : Str)
  | front (iframe : String)
  deriving DecidableEq, Repr

/-- The choice between back and front channel for a client record: oidc/session.py:171-201 and 233-241. -/
def notice (K : LogoutCtx) (now : Int) (n : Nat) (reg : LogoutReg) (sid : String) : Except Exc (Option Notice) :=
  match reg.backUri with
  | some _ =>
    match backChannel K now n reg sid with
    | .error e => .error e
    | .ok none => .ok none
    | .ok (some (u, t)) => .ok (some (.back u t))
  | none =>
    match frontIframe K reg sid with
    | none => .ok none
    | some f => .ok (some (.front f))

/-- The inner loop over a client's grants: the session id of the last ID token of the first grant that has one and an
authentication event.  oidc/session.py:173-184 and 187-201 -/
def idTokenSid (K : LogoutCtx) (st : Store) (u c : String) : List String → Except Exc (Option String)
  | [] => .ok none
  | g :: gs =>
    match dbGet ⟨u, some c, some g⟩ st with
    | .error e => .error e
    | .ok r =>
      match st.obj r with
      | some (.grant gr) =>
        match gr.authnEvent with
        | none => idTokenSid K st u c gs
        | some _ =>
          match lastIssued .idToken gr.issuedToken with
          | none => idTokenSid K st u c gs
          | some t => .ok (some (K.sidOf t))
      | _ => .error .attributeError

/-- What the outer loop does with one client of the user: the session id to revoke and the notice, if any.
oidc/session.py:169-201 -/
def clientLogout (K : LogoutCtx) (w : World) (u c : String) : Except Exc (Option (String × Option Notice)) :=
  match K.clients.get? c with
  | none => .error .keyError
  | some reg =>
    if reg.backUri.isNone && reg.frontUri.isNone then .ok none
    else
      match dbGet ⟨u, some c, none⟩ w.st with
      | .error e => .error e
      | .ok r =>
        match w.st.obj r with
        | some (.info ci) =>
          match idTokenSid K w.st u c ci.subordinate with
          | .error e => .error e
          | .ok none => .ok none
          | .ok (some sid) =>
            match notice K w.now w.n reg sid with
            | .error e => .error e
            | .ok x => .ok (some (sid, x))
        | _ => .error .attributeError

/-- The outer loop, oidc/session.py:169-201: the clients with a session to revoke. -/
def clientLogouts (K : LogoutCtx) (w : World) (u : String) : List String → Except Exc (List (String × String × Option Notice))
  | [] => .ok []
  | c :: cs =>
    match clientLogout K w u c with
    | .error e => .error e
    | .ok x =>
      match clientLogouts K w u cs with
      | .error e => .error e
      | .ok l =>
        match x with
        | none => .ok l
        | some (sid, nt) => .ok ((c, sid, nt) :: l)

/-- `SessionManager.revoke_client_session`, session/manager.py:356-377, with its exceptions. -/
def revokeClientSessionE (E : Env) (sid : String) : SE Store Unit := fun st =>
  match E.decrypt sid with
  | .error e => (.error e, st)
  | .ok [u, c] => revokeClientSession u c st
  | .ok [u, c, _] => revokeClientSession u c st
  | .ok _ => (.error .valueError, st)

/-- `clean_sessions`, oidc/session.py:144-148 -/
def cleanSessions (E : Env) : List String → SE Store Unit
  | [] => fun st => (.ok (), st)
  | sid :: sids => fun st =>
    match revokeClientSessionE E sid st with
    | (.error e, st') => (.error e, st')
    | (.ok _, st') => cleanSessions E sids st'

/-- `get_session_info(sid, user_session_info=True, client_session_info=True, grant=True)`, session/manager.py:439-453: the user
and the user's clients. -/
def userSession (E : Env) (st : Store) (sid : String) : Except Exc (String × List String) :=
  match E.decrypt sid with
  | .error e => .error e
  | .ok [u, c, g] =>
    match dbGet ⟨u, none, none⟩ st, dbGet ⟨u, some c, none⟩ st, dbGet ⟨u, some c, some g⟩ st with
    | .ok r, .ok _, .ok _ =>
      match st.obj r with
      | some (.info ui) => .ok (u, ui.subordinate)
      | _ => .error .attributeError
    | .error e, _, _ => .error e
    | _, .error e, _ => .error e
    | _, _, .error e => .error e
  | .ok _ => .error .valueError

/-- The clients and how they are to be told. -/
def notices (l : List (String × String × Option Notice)) : List (String × Notice) :=
  l.filterMap (fun x => x.2.2.map (fun n => (x.1, n)))

/-- `logout_all_clients`, oidc/session.py:150-210 -/
def logoutAll (K : LogoutCtx) (sid : String) (w : World) : Except Exc (List (String × Notice)) × World :=
  match userSession K.E w.st sid with
  | .error e => (.error e, w)
  | .ok (u, cs) =>
    match clientLogouts K w u cs with
    | .error e => (.error e, w)
    | .ok l =>
      match cleanSessions K.E (l.map (fun x => x.2.1)) w.st with
      | (.error e, st') => (.error e, { w with st := st' })
      | (.ok _, st') => (.ok (notices l), { w with st := st', n := w.n + 1 })

/-- `logout_from_client`, oidc/session.py:226-244 -/
def logoutOne (K : LogoutCtx) (sid : String) (w : World) : Except Exc (List (String × Notice)) × World :=
  match sessionOf K.E w.st sid with
  | .error e => (.error e, w)
  | .ok s =>
    match K.clients.get? s.client with
    | none => (.error .keyError, w)
    | some reg =>
      match notice K w.now w.n reg sid with
      | .error e => (.error e, w)
      | .ok nt =>
        match cleanSessions K.E [sid] w.st with
        | (.error e, st') => (.error e, { w with st := st' })
        | (.ok _, st') => (.ok (notices [(s.client, sid, nt)]), { w with st := st', n := w.n + 1 })

/-- The posts of the logout tokens, oidc/session.py:407-423: `http` is the outcome of a post, a status or an exception.  The
status is only logged.  The second component lists what was posted and where. -/
def sendNotices (http : String → Str → Except Exc Nat) : List (String × Notice) → Except Exc Unit × List (String × Str)
  | [] => (.ok (), [])
  | (_, .front _) :: l => sendNotices http l
  | (_, .back u t) :: l =>
    match http u t with
    | .error e => (.error e, [(u, t)])
    | .ok _ => ((sendNotices http l).1, (u, t) :: (sendNotices http l).2)

/-- `do_verified_logout`, oidc/session.py:396-425: the iframes for the browser, and what was posted. -/
def logoutAndTell (K : LogoutCtx) (http : String → Str → Except Exc Nat) (alla : Bool) (sid : String) (w : World) :
    (Except Exc (List String) × World) × List (String × Str) :=
  match (if alla then logoutAll K sid w else logoutOne K sid w) with
  | (.error e, w') => ((.error e, w'), [])
  | (.ok l, w') =>
    match sendNotices http l with
    | (.error e, posts) => ((.error e, w'), posts)
    | (.ok _, posts) =>
      ((.ok (l.filterMap (fun x => match x.2 with | .front f => some f | .back _ _ => none)), w'), posts)

/-- `do_verified_logout`, oidc/session.py:396-425: the iframes for the browser. -/
def verifiedLogout (K : LogoutCtx) (http : String → Str → Except Exc Nat) (alla : Bool) (sid : String) (w : World) :
    Except Exc (List String) × World := (logoutAndTell K http alla sid w).1

/-- `unpack_signed_jwt`, oidc/session.py:212-224, without `sig_alg`: only the signature is verified. -/
def unpackSigned (K : LogoutCtx) (tok : Str) : Except Exc (Dict Json) :=
  match K.J.peek tok with
  | none => .error .valueError
  | some _ => K.J.unpack K.signingAlg tok

/-- The view behind the logout page, example/flask_op/views.py:327-353: `do_verified_logout(alla=alla, **info)` with the verified
content of `sjwt`.  A content without "sid" is a TypeError, as is one with "alla"; a session id that is no string cannot be
decrypted. -/
def rpLogout (K : LogoutCtx) (http : String → Str → Except Exc Nat) (alla : Bool) (sjwt : Str) (w : World) :
    Except Exc (List String) × World :=
  match unpackSigned K sjwt with
  | .error e => (.error e, w)
  | .ok info =>
    match info.get? "sid", info.get? "alla" with
    | some (.str sid), none => verifiedLogout K http alla sid w
    | some _, none => (.error .typeError, w)
    | _, _ => (.error .typeError, w)

/-- The verified claims of an `id_token_hint`. -/
structure Hint where
  aud : List String
  sub : String
  deriving DecidableEq, Repr

/-- An end session request, parsed and verified (oidc/session.py:351-394). -/
structure EndReq where
  clientId : Option String := none
  postUri : Option String := none
  hint : Option Hint := none
  state : Option String := none
  deriving DecidableEq, Repr

/-- The session cookie of the request: none (or no cookies at all), one that does not verify, or one with a JSON
value, of which the member "sid" is read. -/
inductive LogoutCookie where
  | missing
  | bad
  | value (sid : Option String)
  deriving DecidableEq, Repr

/-- The part of `process_request` that finds the session, oidc/session.py:266-290 -/
def cookieSession (K : LogoutCtx) (st : Store) : LogoutCookie → Except Exc Sess
  | .missing => .error .valueError
  | .bad => .error (.other "InvalidRequest")
  | .value none => .error .valueError
  | .value (some sid) =>
    match sessionOf K.E st sid with
    | .error e => if e.isKeyError then .error .valueError else .error e
    | .ok s => .ok s

/-- The registered post logout redirect URIs by client. -/
def LogoutCtx.postUris (K : LogoutCtx) : Dict (Option (List RegUri)) := K.clients.map (fun x => (x.1, x.2.postUris))

/-- oidc/session.py:313-316 -/
def defaultPostUri (K : LogoutCtx) : String :=
  if K.issuer.toList.getLast? = some '/' then K.issuer ++ K.postPath else K.issuer ++ "/" ++ K.postPath

/-- The check of the hint against the session, oidc/session.py:292-303 -/
def hintCheck (s : Sess) : Option Hint → Except Exc Unit
  | none => .ok ()
  | some h =>
    if s.client ∉ h.aud then .error .valueError
    else if h.sub ≠ s.grant.sub then .error .valueError
    else .ok ()

/-- The post logout redirect URI, oidc/session.py:310-336.  `verify_uri` takes the client id from the request, if it has
one, oauth2/authorization.py:109. -/
def postUri (K : LogoutCtx) (req : EndReq) (client : String) : Except Exc String :=
  match req.postUri with
  | none => .ok (defaultPostUri K)
  | some u =>
    match verifyUri K.L K.postUris (some (req.clientId.getD client)) (some u) with
    | .error e => .error e
    | .ok _ =>
      match req.state with
      | none => .ok u
      | some st => .ok (u ++ "?" ++ K.L.urlencode [("state", [st])])

/-- The payload of the confirmation, oidc/session.py:327-336 -/
def endPayload (req : EndReq) (sid uri : String) : Dict Json :=
  match req.postUri, req.state with
  | some _, some st => [("sid", .str sid), ("state", .str st), ("redirect_uri", .str uri)]
  | _, _ => [("sid", .str sid), ("redirect_uri", .str uri)]

/-- `process_request`, oidc/session.py:246-349: the signed confirmation that the location carries as `sjwt`. -/
def endSession (K : LogoutCtx) (req : EndReq) (cookie : LogoutCookie) (w : World) : Except Exc Str :=
  if req.postUri.isSome && req.hint.isNone then .error (.other "InvalidRequest")
  else
    match cookieSession K w.st cookie with
    | .error e => .error e
    | .ok s =>
      match hintCheck s req.hint with
      | .error e => .error e
      | .ok _ =>
        match postUri K req s.client with
        | .error e => .error e
        | .ok uri =>
          match K.signFails K.signingAlg with
          | some e => .error e
          | none => .ok (K.J.sign w.n K.signingAlg (packFor K w.now K.issuer (endPayload req s.sid uri)))

end OidcOp
