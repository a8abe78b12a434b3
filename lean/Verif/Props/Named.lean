/-
C106: what the code does with the ID token that it looks for under a misspelt name.
C91: introspection without a token.
-/
import Verif.Props.Hints
import Verif.Props.ResourceHttp

namespace OidcOp
open Spec

/-- C106, for the name under which the code looks for the ID token (`it_token_hint`, which is no parameter of a request).  A
verified ID token under this name decides for whom the request is answered without a login page: for its subject and nobody
else; one whose "sub" is something else than a string and not empty stands for nobody. -/
theorem C106_misspelt_partial (L : LoginCfg) (H : HintCfg) (E : Env) (w w' : World) (req : AuthzReq) (h : Hints)
    (cookies : List SessionCookie) (claims : Dict Json) (x : Json) (sid user : String) (k : Option SessionCookie)
    (hv : h.verified.get? "it_token_hint" = some claims) (hs : claims.get? "sub" = some x) (hx : x.truthy = true)
    (hr : processOidc L H E w req h cookies = (.ok (.part2 sid user k), w')) : x = .str user := by
  have hp : proposedUser h = some (match x with | .str s => some s | _ => none) := by
    unfold proposedUser
    rw [hv]
    simp only [hs]
    cases x with
    | str s =>
      have : s ≠ "" := by rintro rfl; simp [Json.truthy] at hx
      simp [this]
    | _ => simp [hx]
  unfold processOidc at hr
  split at hr
  · cases hr
  · unfold doRequestUser at hr
    rw [hp] at hr
    obtain ⟨-, m, w1, -, h2, -⟩ := processAuthz_part2 hr
    have hu := setupAuth_user h2
    cases x with
    | str s => cases hu; rfl
    | _ => cases hu

/-- C91.  A request for introspection without a token is told so, by whomever it is sent who is let in, and tells nothing of
any token. -/
theorem C91_introspection_without_token (E : Env) (A : TokenAuth) (db : Option UserDb) (issuer : String)
    (extra : String → Dict Json) (username : Bool) (w : World) (seen : List String) (h : ResHttp) (info : Dict Json)
    (hn : h.token = none) (ha : (introspectHttp E A db issuer extra username w seen h).1 = .ok info) :
    info.get? "error" = some (.str "invalid_request") ∧ ∀ key, key ≠ "error" → info.get? key = none := by
  unfold introspectHttp at ha
  split at ha
  · cases ha
  · rw [hn] at ha
    cases ha
    refine ⟨by rfl, fun key hk => ?_⟩
    simp [Dict.get?, Ne.symm hk]

end OidcOp

namespace OidcOp.Ex
open OidcOp Spec

/-- The hypotheses of C106_misspelt_partial: the user "d" is answered for with an ID token that names them, and with one that
names someone else they are asked to log in. -/
example :
    (processOidc hintLogin hintCfg E (signedIn 10) (authzReq "c1")
      { verified := [("it_token_hint", [("sub", .str "d")])] } [cookie]).1 =
      .ok (.part2 (sid "c1" 0) "d" (some { sid := sid "c1" 0, timestamp := 1010 })) ∧
    (processOidc hintLogin hintCfg E (signedIn 10) (authzReq "c1")
      { verified := [("it_token_hint", [("sub", .str "another")])] } [cookie]).1 =
      .ok (.loginPage { acr := "password" }) := by
  decide +kernel

/-- The hypotheses of C91_introspection_without_token: a client with its secret and no token. -/
example : (introspectHttp EC (tauth [some .post]) (some people) "https://op" (fun _ => []) false
      (provHistory { prov with E := EC } 1000 session).w []
      { authn := { clientId := some "c1", clientSecret := some "s1" } }).1 =
    .ok [("error", .str "invalid_request")] := by decide +kernel

end OidcOp.Ex
