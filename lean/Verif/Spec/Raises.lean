import Verif.Model.Client

/-!
# Exceptions that calls raise (specification)
-/

namespace Spec

/-- Every exception that `f` can raise satisfies `P`. -/
def Raises {α : Type} (P : Err → Prop) (f : M α) : Prop := ∀ w e, (f w).1 = .error e → P e

/-- The same for a generator. -/
def RaisesGen {β : Type} (P : Err → Prop) (g : World → (List β × Except Err Unit) × World) : Prop := ∀ w e, (g w).1.2 = .error e → P e

/-- `TimeoutError` and the library's own exceptions (`pyown/exceptions.py`). -/
def Announced : Err → Prop
  | .timeoutError | .invalidSession | .responseError | .invalidAuthentication | .invalidMessage _ | .invalidTag _ => True
  | _ => False

/-- What the exchange itself can raise: not in a session for commands, no answer in time, a refusal. -/
def Unanswered : Err → Prop
  | .timeoutError | .invalidSession | .responseError => True
  | _ => False

/-- And those of Python that reading a number or a date from a text can raise. -/
def Expected (e : Err) : Prop := Announced e ∨ e = .valueError ∨ e = .indexError ∨ e = .overflowError

end Spec

/-- Every exception of a computation satisfies `P`. -/
def Fails {α : Type} (P : Err → Prop) (x : Except Err α) : Prop := ∀ e, x = .error e → P e
