/-
Concrete registrations: they meet the hypotheses of the theorems on registration, and refute C53, C54 and C55.
-/
import Verif.Props.Registration

namespace OidcOp
open Spec

namespace Ex

/-- "scheme" of "scheme:rest" -/
def schemeOf (u : String) : String := String.ofList (cutAt ':' u.toList).1

/-- "host:port" of "scheme://host:port/path" -/
def netlocOf (u : String) : String := String.ofList (cutAt '/' ((cutAt ':' u.toList).2.drop 2)).1

def regLib : RegLib where
  toUriLib := simpleUri
  scheme := schemeOf
  hostname u := some (String.ofList (cutAt ':' (netlocOf u).toList).1)
  netloc := netlocOf
  query u := String.ofList (cutAt '?' (cutAt '#' u.toList).1).2
  verify r := if (r.map (·.1)).Nodup ∧ r.has "redirect_uris" then .ok r else .error "invalid_configuration_request"
  verify_nodup := by
    intro r r' h
    split at h
    · rename_i hn
      cases h
      exact hn.1
    · cases h
  fetch _ := none
  keyType a := if a = "none" then "none" else if a = "HS256" then "oct" else "RSA"
  hasKey a := a = "RS256"
  jwksOk _ := true

def regConf : RegConf where
  lib := regLib
  providerInfo :=
    [("response_types_supported", ["code", "id_token token"]), ("id_token_signing_alg_values_supported", ["RS256", "PS256"]),
     ("grant_types_supported", ["authorization_code"])]
  readPath := some "https://op/read"
  respParams := ["client_id", "client_secret", "redirect_uris", "response_types", "client_name"]

/-- There is one client already. -/
def reg0 : RegState := { cdb := [("rp0", [("client_id", .json (.str "rp0")), ("client_name", .json (.str "old"))])] }

/-- The generator draws the id of the client there is before it draws a free one. -/
def regDraw : RegDraw := { ids := ["rp0", "rp1"], salt := "salt", token := "rat", secret := "s3cret", now := 1000 }

def regReq : Dict Json :=
  [("redirect_uris", .arr [.str "https://rp/cb?x=1", .str "https://rp/other"]), ("client_name", .str "my"),
   ("client_id", .str "rp0"), ("response_types", .arr [.str "token id_token"]), ("id_token_signed_response_alg", .str "PS256")]

def reg1 : RegState := ((register regConf true true regDraw regReq reg0).getD (.error "", {})).2

def regArgs : Dict Json :=
  [("client_id", .str "rp1"), ("client_secret", .str "s3cret"), ("client_name", .str "my"),
   ("response_types", .arr [.str "token id_token"]),
   ("redirect_uris", .arr [.str "https://rp/cb?x=1", .str "https://rp/other"])]

theorem reg1_eq : register regConf true true regDraw regReq reg0 = some (.ok regArgs, reg1) := by decide +kernel

/-- The request asked for the id of the client there is: it gets another, and the record of the first stays. -/
example : (∃ cid, regArgs.get? "client_id" = some (.str cid) ∧ reg0.cdb.get? cid = none ∧
      ∃ ci, reg1.cdb.get? cid = some ci ∧ ci.get? "client_id" = some (.json (.str cid))) ∧
    reg1.cdb.get? "rp0" = reg0.cdb.get? "rp0" :=
  ⟨C52_fresh_id regConf true regDraw regReq regArgs reg0 reg1 (by decide) reg1_eq,
   (C52_others_untouched regConf true regDraw regReq reg0 reg1 _ reg1_eq "rp0" _ rfl).1.trans rfl⟩

/-- A second draw in a later call. -/
def regDraw2 : RegDraw := { ids := ["rp1", "rp0", "rp2"], salt := "salt", token := "rat2", secret := "s2", now := 1010 }

def regCalls : List RegCall := [⟨regDraw, regReq⟩, ⟨regDraw2, regReq⟩]

/-- Three clients in the end, the first as in the beginning. -/
example : (regHistory regConf reg0 regCalls).cdb.keys = ["rp0", "rp1", "rp2"] ∧
    (regHistory regConf reg0 regCalls).cdb.get? "rp0" = some [("client_id", .json (.str "rp0")), ("client_name", .json (.str "old"))] :=
  ⟨by decide +kernel, (C52_history regConf reg0 regCalls "rp0" _ rfl).1⟩

example : (register regConf true true regDraw regReq reg0).isSome :=
  C52_ends regConf true regDraw regReq reg0 ⟨"rp1", by decide, by decide +kernel⟩

/-- A response type that the provider does not support. -/
example : (register regConf true true regDraw [("redirect_uris", .arr []), ("response_types", .arr [.str "token"])] reg0) =
    some (.error "invalid_request", reg0) := by decide +kernel

/-- A redirect URI that is not allowed: the request is refused… -/
def regBad : Dict Json :=
  [("redirect_uris", .arr [.str "http://rp/cb"]), ("response_types", .arr [.str "id_token token"])]

def regLeft : RegState := ((register regConf true true regDraw regBad reg0).getD (.error "", {})).2

theorem regLeft_eq : register regConf true true regDraw regBad reg0 = some (.error "invalid_redirect_uri", regLeft) := by
  decide +kernel

/-- … but there is one more client in the database, with a secret.  C53 is false. -/
theorem C53_refuted : ¬ ∀ (C : RegConf) (d : RegDraw) (req : Dict Json) (s s' : RegState) (e : String),
    register C true true d req s = some (.error e, s') → s'.cdb = s.cdb := by
  intro h
  have := h regConf regDraw regBad reg0 regLeft _ regLeft_eq
  revert this
  decide +kernel

example : (regLeft.cdb.get? "rp1").bind (fun c => c.get? "client_secret") = some (.json (.str "s3cret")) := by decide +kernel

/-- The part of C53 that holds, on this case: no redirect URI of the new client passes. -/
example : regLeft = reg0 ∨ ∃ cid, reg0.cdb.get? cid = none ∧
    (∀ c, c ≠ cid → regLeft.cdb.get? c = reg0.cdb.get? c) ∧
    (∃ ci, regLeft.cdb.get? cid = some ci ∧ ∀ k, ci.get? k = (givenByProvider regConf true regDraw cid k).map .json) ∧
    ∀ L uri, verifyUri L (redirectUrisOf regLeft) (some cid) uri ≠ .ok () :=
  C53_leftover_unusable_partial regConf true regDraw regBad reg0 regLeft _ regLeft_eq

/-- A request that brings its own secret, scopes and usage rules. -/
def regGreedy : Dict Json :=
  [("redirect_uris", .arr [.str "https://rp/cb"]), ("response_types", .arr [.str "code"]),
   ("client_secret", .str "known"), ("client_secret_expires_at", .num 0), ("allowed_scopes", .arr [.str "admin"]),
   ("token_usage_rules", .obj [("access_token", .obj [("expires_in", .num 99999999)])]), ("pkce_essential", .bool false)]

def reg2 : RegState := ((register regConf true true regDraw regGreedy reg0).getD (.error "", {})).2

def regArgs2 : Dict Json :=
  (match (register regConf true true regDraw regGreedy reg0) with | some (.ok a, _) => a | _ => [])

theorem reg2_eq : register regConf true true regDraw regGreedy reg0 = some (.ok regArgs2, reg2) := by decide +kernel

/-- C54 is false: all of it is in the client's record. -/
theorem C54_refuted : ¬ ∀ (C : RegConf) (d : RegDraw) (req args : Dict Json) (s s' : RegState) (cid : String) (ci : Cinfo),
    register C true true d req s = some (.ok args, s') → s.cdb.get? cid = none → s'.cdb.get? cid = some ci →
    ∀ k ∈ ["client_secret", "client_secret_expires_at", "allowed_scopes", "token_usage_rules", "pkce_essential"],
      ci.get? k = (givenByProvider C true d cid k).map .json := by
  intro h
  have := h regConf regDraw regGreedy regArgs2 reg0 reg2 "rp1" ((reg2.cdb.get? "rp1").getD []) reg2_eq
    (by decide +kernel) (by decide +kernel) "allowed_scopes" (by decide)
  revert this
  decide +kernel

example : ∃ cid ci, reg0.cdb.get? cid = none ∧ reg2.cdb.get? cid = some ci ∧
    ci.get? "allowed_scopes" = some (.json (.arr [.str "admin"])) :=
  C54_any_parameter_refuted regConf true regDraw regGreedy regGreedy regArgs2 reg0 reg2 (by decide +kernel) reg2_eq
    "allowed_scopes" _ (by decide +kernel) (by decide)

/-- What the request of `reg1` did not name is the provider's. -/
example : ∃ cid ci, reg0.cdb.get? cid = none ∧ reg1.cdb.get? cid = some ci ∧
    ci.get? "client_secret" = some (.json (.str "s3cret")) := by
  obtain ⟨cid, ci, h1, h2, h3⟩ :=
    C54_unnamed_partial regConf true regDraw regReq regReq regArgs reg0 reg1 (by decide +kernel) reg1_eq
  exact ⟨cid, ci, h1, h2, h3 "client_secret" (by decide +kernel) (.inl (by decide +kernel))⟩

example : ∃ cid ci, reg0.cdb.get? cid = none ∧ reg1.cdb.get? cid = some ci ∧ ci.get? "client_id" = some (.json (.str cid)) ∧
    ∀ j, ci.get? "redirect_uris" ≠ some (.json j) :=
  C54_id_partial regConf true regDraw regReq regArgs reg0 reg1 reg1_eq

/-- A web client: an http URI passes only for the code flow, a fragment never. -/
example : verifyRedirectUris regLib [("response_types", .arr [.str "code"])] ["http://rp/cb?x=1"] =
      .ok [.pair "http://rp/cb" [("x", ["1"])]] ∧
    verifyRedirectUris regLib [] ["http://rp/cb?x=1"] = .error "invalid_redirect_uri" ∧
    verifyRedirectUris regLib [] ["https://rp/cb#f"] = .error "invalid_redirect_uri" := by decide +kernel

example : WebUri regLib true "http://rp/cb?x=1" := ⟨.inr ⟨rfl, by decide +kernel⟩, by decide +kernel⟩

def nativeReq : Dict Json := [("application_type", .str "native")]

/-- A native client. -/
example : verifyRedirectUris regLib nativeReq ["myapp:/cb", "http://localhost:80/cb"] =
      .ok [.pair "myapp:/cb" [], .pair "http://localhost:80/cb" []] ∧
    verifyRedirectUris regLib nativeReq ["https://rp/cb"] = .error "invalid_redirect_uri" ∧
    verifyRedirectUris regLib nativeReq ["http://rp/cb"] = .error "invalid_redirect_uri" := by decide +kernel

example : NativeUri regLib "myapp:/cb" ∧ NativeUri regLib "http://localhost:80/cb" :=
  ⟨.inl (by decide +kernel), .inr (by decide +kernel)⟩

/-- C55 is false for native clients: a URI with a fragment is accepted. -/
theorem C55_native_fragment_refuted : ¬ ∀ (L : RegLib) (req : Dict Json) (us : List String) (rs : List RegUri),
    verifyRedirectUris L req us = .ok rs → ∀ u ∈ us, L.fragment u = "" := by
  intro h
  have := h regLib nativeReq ["http://localhost/cb#frag", "myapp:/cb#frag"]
    [.pair "http://localhost/cb" [], .pair "myapp:/cb#frag" []] (by decide +kernel) "myapp:/cb#frag" (by decide)
  revert this
  decide +kernel

/-- From registration to authorization: the URI with its query is accepted. -/
example : verifyUri simpleUri (redirectUrisOf reg1) (some "rp1") (some "https://rp/cb?x=1") = .ok () ∧
    verifyUri simpleUri (redirectUrisOf reg1) (some "rp1") (some "https://rp/cb") ≠ .ok () := by decide +kernel

example : ∃ cid, reg0.cdb.get? cid = none ∧ ∀ L uri, verifyUri L (redirectUrisOf reg1) (some cid) (some uri) = .ok () →
    ∃ (us : List String) (u : String), regReq.get? "redirect_uris" = some (.arr (us.map .str)) ∧ u ∈ us ∧
      (∀ x ∈ us, WebUri regLib (CodeOnly regReq) x) ∧ Matches L uri (.pair (regLib.split u).1 (regLib.split u).2) :=
  C55_web_registered regConf true regDraw regReq regReq regArgs reg0 reg1 (by decide +kernel) (.inl (by decide +kernel)) reg1_eq

/-- Preferences: the order of the words of a response type does not matter, an algorithm has to be in the list. -/
example : matchClientRequest regConf.providerInfo regReq = .ok () ∧
    matchClientRequest regConf.providerInfo [("id_token_signed_response_alg", .str "ES256")] = .error "invalid_request" ∧
    matchClientRequest regConf.providerInfo [("response_types", .arr [.str "code", .str "code token"])] = .error "invalid_request" ∧
    matchClientRequest regConf.providerInfo [("grant_types", .arr [.str "authorization_code", .str "x"])] =
      .error "invalid_request" := by decide +kernel

example : WithinCapabilities regConf.providerInfo regReq := (C56_match_exact _ _).1 (by decide +kernel)

/-- The record of a new client, after two registrations; the algorithm for which there is no key has been dropped. -/
example : ((regHistory regConf reg0 regCalls).cdb.get? "rp1").bind (fun c => c.get? "response_types") =
      some (.json (.arr [.str "token id_token"])) ∧
    ((regHistory regConf reg0 regCalls).cdb.get? "rp1").bind (fun c => c.get? "id_token_signed_response_alg") = none := by
  decide +kernel

example : ∃ cid, regArgs.get? "client_id" = some (.str cid) ∧
    readRecord regConf (regHistory regConf reg1 [⟨regDraw2, regReq⟩, ⟨regDraw2, regBad⟩]) cid = .ok regArgs :=
  C70_read_what_was_answered regConf regDraw regReq regArgs reg0 reg1 _ (by decide) reg1_eq

/-- A registration access token of another client, after two registrations. -/
example : (regHistory regConf { reg0 with tokens := [("old", "other")] } regCalls).tokens.get? "old" = some "other" :=
  C52_access_tokens_history regConf _ regCalls "old" "other" (by decide) (by decide)

end Ex

end OidcOp
