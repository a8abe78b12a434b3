/-
C107: concrete configurations, the default configuration, and where the property fails.
-/
import Verif.Props.TokenFactory
import Verif.Props.TokenHandlerExamples
import Verif.Props.Construct

namespace OidcOp
open Spec

/-- Settings with which a class is made. -/
theorem makeClass_lifetime {lib : FactoryLib} {conf : FactoryConf} {kid cls k : String} {lt : Int} (h0 : lt ≠ 0)
    (hk : factoryKey lib conf kid = some k) :
    makeClass lib conf kid cls [("lifetime", .num lt)] = .ok ⟨.dflt (lib.cipher k) cls lt, lt⟩ := by
  have ht : (Json.num lt).truthy = true := by simp [Json.truthy, h0]
  have h1 : isDefaultSpec [("lifetime", .num lt)] = true := rfl
  unfold makeClass
  rw [if_pos h1, hk]
  have h2 : addPasswd (some k) [("lifetime", .num lt)] = .ok [("lifetime", .num lt), ("password", .str k)] := rfl
  have h3 : specKwargs [("lifetime", .num lt), ("password", .str k)] = .ok (some [("lifetime", .num lt)]) := by
    have : groupedArgs [("lifetime", .num lt), ("password", .str k)] = .ok (some []) := rfl
    unfold specKwargs
    rw [this]
    have : Dict.get? [("lifetime", Json.num lt), ("password", .str k)] "lifetime" = some (.num lt) := rfl
    simp only [this, ht]
    rfl
  rw [h2]
  simp only [initHandler, h3]
  rfl

/-- C107, for a configuration without settings for tokens: codes live 600 seconds, access tokens 3600 and refresh tokens 86400,
each encrypted with a key of its own, if the key file has the keys. -/
theorem C107_default_partial (lib : FactoryLib) (kc kt kr : String)
    (hk : ∀ n k, (n, k) ∈ [("code", kc), ("token", kt), ("refresh", kr)] → factoryKey lib defaultFactoryConf n = some k) :
    ∃ hs, factory lib defaultFactoryConf = .ok hs ∧ handlersOf hs =
      [("authorization_code", .dflt (lib.cipher kc) "authorization_code" 600),
       ("access_token", .dflt (lib.cipher kt) "access_token" 3600),
       ("refresh_token", .dflt (lib.cipher kr) "refresh_token" 86400)] := by
  have h1 := makeClass_lifetime (lib := lib) (conf := defaultFactoryConf) (cls := "authorization_code") (lt := 600)
    (by decide) (hk "code" kc (by simp))
  have h2 := makeClass_lifetime (lib := lib) (conf := defaultFactoryConf) (cls := "access_token") (lt := 3600)
    (by decide) (hk "token" kt (by simp))
  have h3 := makeClass_lifetime (lib := lib) (conf := defaultFactoryConf) (cls := "refresh_token") (lt := 86400)
    (by decide) (hk "refresh" kr (by simp))
  have c1 : defaultFactoryConf.code = some [("lifetime", .num 600)] := rfl
  have c2 : defaultFactoryConf.token = some [("lifetime", .num 3600)] := rfl
  have c3 : defaultFactoryConf.refresh = some [("lifetime", .num 86400)] := rfl
  have c4 : defaultFactoryConf.idToken = none := rfl
  unfold factory
  rw [c1, c2, c3, c4]
  simp only [withMade, h1, h2, h3, Except.map]
  exact ⟨_, rfl, rfl⟩

namespace Ex

/-- The key file has the keys that are defined; keys are called by their ids. -/
def factoryLib : FactoryLib where
  jar defs _ _ kid := if defs.any (fun d => match d with | .obj o => decide (Dict.get? o "kid" = some (.str kid)) | _ => false)
    then some kid else none
  cipher p := cipher (p.toList.headD 'x')
  crypto := cryptoLib
  algOf := [("c1", "RS256")]

/-- The settings of the documentation: encrypted codes, signed access and refresh tokens, ID tokens. -/
def docConf : FactoryConf where
  code := some [("kwargs", .obj [("lifetime", .num 600)])]
  token := some [("class", .str "oidcop.token.jwt_token.JWTToken"),
    ("kwargs", .obj [("lifetime", .num 3600), ("alg", .str "RS256"), ("aud", .arr [.str "https://rs"])])]
  refresh := some [("class", .str "oidcop.token.jwt_token.JWTToken"), ("lifetime", .num 86400)]
  idToken := some [("class", .str "oidcop.token.id_token.IDToken"), ("kwargs", .obj [("lifetime", .num 900)])]

/-- What can be seen of a handler: its class, its algorithm or an encryption, and its life times. -/
structure Seen where
  name : String
  cls : String
  alg : Str
  own : Int
  lifetime : Int
  deriving DecidableEq

def seen (hs : Dict Made) : List Seen :=
  hs.map (fun p => match p.2.handler with
    | .dflt C cls lt => ⟨p.1, cls, C.enc 0 [], lt, p.2.lifetime⟩
    | .jwt cls alg lt => ⟨p.1, cls, alg.toList, lt, p.2.lifetime⟩
    | .idt _ => ⟨p.1, "", [], 0, p.2.lifetime⟩)

example : (factory factoryLib docConf).map seen = .ok
    [⟨"authorization_code", "authorization_code", "Ec".toList, 600, 600⟩,
     ⟨"access_token", "access_token", "RS256".toList, 3600, 3600⟩,
     ⟨"refresh_token", "refresh_token", "ES256".toList, 86400, 86400⟩, ⟨"id_token", "", [], 0, 900⟩] := by
  decide +kernel

theorem started {conf : FactoryConf} {l : List Seen}
    (h : (factory factoryLib conf).map seen = .ok l) : ∃ hs, factory factoryLib conf = .ok hs ∧ seen hs = l := by
  cases hf : factory factoryLib conf with
  | error e => rw [hf] at h; cases h
  | ok hs => rw [hf] at h; cases h; exact ⟨hs, rfl, rfl⟩

/-- The hypotheses of `C107_as_configured`. -/
example : Usual docConf := by
  constructor
  · intro n s h
    unfold settingsOf at h
    split at h
    · cases h
      exact ⟨.inr ⟨_, rfl⟩, .inl (.inl (by decide))⟩
    · cases h
      exact ⟨.inr ⟨_, rfl⟩, .inr rfl⟩
    · cases h
      exact ⟨.inl (by decide), .inr rfl⟩
    · cases h
  · intro s h
    cases h
    exact ⟨.inr ⟨_, rfl⟩, by decide⟩

/-- The life times of `C107_made`: grouped, at the top, and the default. -/
example : Lifetime [("kwargs", .obj [("lifetime", .num 600)])] 300 600 ∧ Lifetime [("lifetime", .num 86400)] 1800 86400 ∧
    Lifetime [("kwargs", .obj [("lifetime", .num 600)]), ("lifetime", .num 60)] 300 60 ∧ Lifetime [] 300 300 :=
  ⟨.kwargs (.inl (by decide)) (by decide), .top (by decide) (by decide), .top (by decide) (by decide),
   .default (.inl (by decide)) (by decide)⟩

/-- The keys of the default configuration. -/
example : ∀ n k, (n, k) ∈ [("code", "code"), ("token", "token"), ("refresh", "refresh")] →
    factoryKey factoryLib defaultFactoryConf n = some k := by
  intro n k h
  simp only [List.mem_cons, Prod.mk.injEq, List.not_mem_nil, or_false] at h
  rcases h with ⟨rfl, rfl⟩ | ⟨rfl, rfl⟩ | ⟨rfl, rfl⟩ <;> decide +kernel

/-- C107 is false of the code for a configuration without settings for tokens: there is no handler for ID tokens
(endpoint_context.py:70-86). -/
theorem C107_default_id_token_refuted :
    ¬ (∀ (lib : FactoryLib) (hs : Dict Made), factory lib defaultFactoryConf = .ok hs → hs.has "id_token" = true) := by
  intro h
  obtain ⟨hs, h1, h2⟩ := started (conf := defaultFactoryConf) (l :=
    [⟨"authorization_code", "authorization_code", "Ec".toList, 600, 600⟩,
     ⟨"access_token", "access_token", "Et".toList, 3600, 3600⟩,
     ⟨"refresh_token", "refresh_token", "Er".toList, 86400, 86400⟩]) (by decide +kernel)
  have := (factory_ok h1).2.1 rfl
  have h3 := h factoryLib hs h1
  unfold Dict.has at h3
  rw [this] at h3
  cases h3

/-- C107 is false of the code for settings that name the class they would have anyway: the provider does not start, because the
key is put where it is not looked for (token/handler.py:92-100, 119-122). -/
theorem C107_named_class_refuted :
    ¬ (∀ (lib : FactoryLib) (s : Dict Json) (hs : Dict Made), factory lib { code := some s } = .ok hs →
      s.get? "class" = none →
      ∃ hs', factory lib { code := some (s.set "class" (.str "oidcop.token.DefaultToken")) } = .ok hs') := by
  intro h
  obtain ⟨hs, h1, -⟩ := started (conf := { code := some [("lifetime", .num 600)] }) (l :=
    [⟨"authorization_code", "authorization_code", "Ec".toList, 600, 600⟩]) (by decide +kernel)
  obtain ⟨hs', h2⟩ := h factoryLib _ hs h1 (by decide)
  have : (factory factoryLib { code := some (Dict.set [("lifetime", Json.num 600)] "class" (.str "oidcop.token.DefaultToken")) }).map
      seen = .error .typeError := by decide +kernel
  rw [h2] at this
  cases this

/-- C107 is false of the code for passwords among the settings: the key of the key file, which is made if there is none, is used
instead. -/
theorem C107_password_refuted :
    ¬ (∀ (lib : FactoryLib) (s : Dict Json) (hs : Dict Made) (p : String), factory lib { code := some s } = .ok hs →
      PasswordIn s p → ∃ lt, (hs.get? "authorization_code").map Made.handler =
        some (.dflt (lib.cipher p) "authorization_code" lt)) := by
  intro h
  obtain ⟨hs, h1, h2⟩ := started (conf := { code := some [("kwargs", .obj [("password", .str "mine")])] }) (l :=
    [⟨"authorization_code", "authorization_code", "Ec".toList, 300, 300⟩]) (by decide +kernel)
  obtain ⟨lt, h3⟩ := h factoryLib _ hs "mine" h1 (.inr (by decide))
  match hs, h2 with
  | [(n, m)], h2 =>
    have hn : n = "authorization_code" := by
      refine Classical.byContradiction (fun hne => ?_)
      simp only [Dict.get?_cons, if_neg hne, Dict.get?_nil, Option.map_none] at h3
      cases h3
    simp only [hn, Dict.get?_cons, if_true, Option.map_some, Option.some.injEq] at h3
    simp only [seen, List.map_cons, List.map_nil, h3, List.cons.injEq, Seen.mk.injEq, and_true] at h2
    exact absurd h2.2.2.1 (by decide)

/-- The same password at the top of the settings is used if there are grouped settings as well. -/
example : (factory factoryLib { code := some [("password", .str "mine")] }).map seen =
      .ok [⟨"authorization_code", "authorization_code", "Ec".toList, 300, 300⟩] ∧
    (factory factoryLib { code := some [("password", .str "mine"), ("kwargs", .obj [])] }).map seen =
      .ok [⟨"authorization_code", "authorization_code", "Em".toList, 300, 300⟩] := by
  decide +kernel

end Ex
end OidcOp
