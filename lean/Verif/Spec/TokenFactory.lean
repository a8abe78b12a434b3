/-
Specification vocabulary for C107: what the configuration says about tokens.
-/
import Verif.Model.TokenFactory
import Verif.Spec.TokenHandler

namespace OidcOp.Spec

/-- The names of the classes of tokens in the configuration and their names elsewhere. -/
def tokenSettings : List (String × String) :=
  [("code", "authorization_code"), ("token", "access_token"), ("refresh", "refresh_token")]

/-- The settings for a class of tokens. -/
def settingsOf (conf : FactoryConf) : String → Option (Dict Json)
  | "code" => conf.code
  | "token" => conf.token
  | "refresh" => conf.refresh
  | _ => none

/-- The settings grouped under "kwargs". -/
def kwargsOf (s : Dict Json) : Dict Json :=
  match s.get? "kwargs" with
  | some (.obj k) => k
  | _ => []

/-- "kwargs", if it is there, is a dictionary. -/
def Grouped (s : Dict Json) : Prop := s.get? "kwargs" = none ∨ ∃ k, s.get? "kwargs" = some (.obj k)

/-- Encrypted tokens: no class is named, or `DefaultToken`. -/
def Encrypted (s : Dict Json) : Prop := s.get? "class" = none ∨ s.get? "class" = some (.str "oidcop.token.DefaultToken")

/-- Signed tokens. -/
def Signed (s : Dict Json) : Prop := s.get? "class" = some (.str "oidcop.token.jwt_token.JWTToken")

/-- No life time at the top of the settings; 0 is none. -/
def NoTopLifetime (s : Dict Json) : Prop := s.get? "lifetime" = none ∨ s.get? "lifetime" = some (.num 0)

/-- The life time that the settings say: at the top, or else grouped with the others, or else the default. -/
inductive Lifetime (s : Dict Json) (dflt : Int) : Int → Prop where
  | top {n : Int} : s.get? "lifetime" = some (.num n) → n ≠ 0 → Lifetime s dflt n
  | kwargs {n : Int} : NoTopLifetime s → (kwargsOf s).get? "lifetime" = some (.num n) → Lifetime s dflt n
  | default : NoTopLifetime s → (kwargsOf s).get? "lifetime" = none → Lifetime s dflt dflt

/-- A password is among the settings. -/
def PasswordIn (s : Dict Json) (p : String) : Prop :=
  s.get? "password" = some (.str p) ∨ (kwargsOf s).get? "password" = some (.str p)

/-- The classes of handlers are those that the property speaks of, and the ID token handler makes ID tokens. -/
structure Usual (conf : FactoryConf) : Prop where
  kinds : ∀ n s, settingsOf conf n = some s → Grouped s ∧ (Encrypted s ∨ Signed s)
  idToken : ∀ s, conf.idToken = some s → Grouped s ∧ s.get? "class" = some (.str "oidcop.token.id_token.IDToken")

/-- A member of the definition of the key jar in the configuration. -/
def jarSays (conf : FactoryConf) (k : String) : Option Json := conf.jwksDef.bind (·.get? k)

/-- Where the keys for tokens come from.  The file is the one that the configuration names, or else the one that its definition of the
key jar names, or else the default one.  The keys are those of the definition, or else one for each class of encrypted tokens that is
configured, under the name of its settings, and no others.  They are not written to the file if the definition says so. -/
structure KeysFrom (lib : FactoryLib) (conf : FactoryConf) (defs : List Json) (file : String) (readOnly : Bool) : Prop where
  named : conf.jwksFile ≠ "" → file = conf.jwksFile
  path : conf.jwksFile = "" → ∀ p, p ≠ "" → jarSays conf "private_path" = some (.str p) → file = p
  dflt : conf.jwksFile = "" → (∀ p, jarSays conf "private_path" = some (.str p) → p = "") → file = lib.defaultFile
  given : ∀ d ds, jarSays conf "key_defs" = some (.arr (d :: ds)) → defs = d :: ds
  own : (∀ d ds, jarSays conf "key_defs" ≠ some (.arr (d :: ds))) → defs.Nodup ∧ ∀ x, x ∈ defs ↔
    ∃ n s, settingsOf conf n = some s ∧ Encrypted s ∧
      x = .obj [("type", .str "oct"), ("bytes", .num 24), ("use", .arr [.str "enc"]), ("kid", .str n)]
  readOnly : readOnly = true ↔ ∃ v, jarSays conf "read_only" = some v ∧ v.truthy = true

/-- The handlers without their life times. -/
def handlersOf (hs : Dict Made) : Dict Handler := hs.map (fun p => (p.1, p.2.handler))

end OidcOp.Spec
