/-
Exceptions as values and the state-and-exception monad.

Python does not roll back mutations when an exception is raised, hence `SE` returns the state in both
outcomes.
-/
namespace OidcOp

/-- The Python exception classes that the modelled code raises or lets through.
Sources: session/database.py:26-35, session/token.py:8, token/exception.py, exception.py. -/
inductive Exc where
  | keyError            -- builtin KeyError
  | noSuchClientSession -- session/database.py:26 (subclass of KeyError)
  | noSuchGrant         -- session/database.py:30 (subclass of KeyError)
  | valueError          -- builtin ValueError
  | typeError
  | attributeError
  | indexError
  | unknownToken        -- token/exception.py
  | wrongTokenClass     -- token/exception.py
  | toOld               -- exception.py
  | mintingNotAllowed   -- session/token.py:8
  | jweException        -- cryptojwt JWEException
  | noSuitableSigningKeys -- cryptojwt
  | recursionError      -- Python stack exhausted by unbounded recursion
  | other (name : String)
  deriving DecidableEq, Repr, Inhabited

/-- `except KeyError` also catches the two subclasses of session/database.py:26-31. -/
def Exc.isKeyError : Exc → Bool
  | .keyError | .noSuchClientSession | .noSuchGrant => true
  | _ => false

deriving instance DecidableEq for Except

/-- A computation that reads and changes a state `σ` and returns a value or raises.
The state survives an exception, as in Python. -/
def SE (σ : Type) (α : Type) : Type := σ → Except Exc α × σ

namespace SE
variable {σ α β : Type}

def pure' (a : α) : SE σ α := fun s => (.ok a, s)

def bind' (m : SE σ α) (f : α → SE σ β) : SE σ β := fun s =>
  match m s with
  | (.ok a, s') => f a s'
  | (.error e, s') => (.error e, s')

instance : Monad (SE σ) where
  pure := pure'
  bind := bind'

/-- `raise e` -/
def raise (e : Exc) : SE σ α := fun s => (.error e, s)

/-- read the state -/
def get : SE σ σ := fun s => (.ok s, s)

/-- change the state -/
def modify (f : σ → σ) : SE σ Unit := fun s => (.ok (), f s)

/-- lift a pure computation that may raise -/
def ofExcept (x : Except Exc α) : SE σ α := fun s => (x, s)

/-- `try: m except e if p e: h e` -/
def tryExcept (m : SE σ α) (p : Exc → Bool) (h : Exc → SE σ α) : SE σ α := fun s =>
  match m s with
  | (.ok a, s') => (.ok a, s')
  | (.error e, s') => if p e then h e s' else (.error e, s')

theorem pure_apply (a : α) (s : σ) : (pure a : SE σ α) s = (.ok a, s) := rfl

theorem bind_apply (m : SE σ α) (f : α → SE σ β) (s : σ) :
    (m >>= f) s = match m s with
      | (.ok a, s') => f a s'
      | (.error e, s') => (.error e, s') := rfl

@[simp] theorem raise_apply (e : Exc) (s : σ) : (raise e : SE σ α) s = (.error e, s) := rfl
@[simp] theorem get_apply (s : σ) : (get : SE σ σ) s = (.ok s, s) := rfl
@[simp] theorem modify_apply (f : σ → σ) (s : σ) : modify f s = (.ok (), f s) := rfl
@[simp] theorem ofExcept_apply (x : Except Exc α) (s : σ) : ofExcept x s = (x, s) := rfl

end SE
end OidcOp
