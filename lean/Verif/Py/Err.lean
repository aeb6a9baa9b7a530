/-!
# Python exceptions as values

One constructor per exception class raised by the library (`pyown/exceptions.py:15-98`) or let through from the
standard library.  Messages that only serve logging are dropped; the data fields a caller can read
(`InvalidMessage.message`, `InvalidTag.tag`) are kept.
-/

/-- Python `str`, as the list of its code points. -/
abbrev Str := List Char

open Lean in
/-- `cs!"abc"` is the list of characters `['a', 'b', 'c']`. -/
macro:max "cs!" s:str : term => do
  let cs := s.getString.toList.toArray.map fun c => (Syntax.mkCharLit c : TSyntax `char)
  `(([$[$cs:char],*] : List Char))

/-- Exceptions. -/
inductive Err where
  /-- `pyown/exceptions.py:51-66` -/
  | invalidMessage (message : Str)
  /-- `pyown/exceptions.py:69-80` -/
  | invalidTag (tag : Str)
  /-- `pyown/exceptions.py:83-86` -/
  | invalidSession
  /-- `pyown/exceptions.py:89-92` -/
  | invalidAuthentication
  /-- `pyown/exceptions.py:95-98` -/
  | responseError
  /-- builtin `ValueError` -/
  | valueError
  /-- builtin `UnicodeDecodeError`/`UnicodeEncodeError` (subclasses of `ValueError`) -/
  | unicodeError
  /-- builtin `KeyError` -/
  | keyError
  /-- builtin `IndexError` -/
  | indexError
  /-- builtin `TypeError` -/
  | typeError
  /-- builtin `AttributeError` -/
  | attributeError
  /-- builtin `TimeoutError` -/
  | timeoutError
  /-- `asyncio.InvalidStateError` -/
  | invalidStateError
  /-- builtin `RuntimeError` -/
  | runtimeError
  /-- builtin `NotImplementedError` -/
  | notImplementedError
  /-- builtin `OverflowError` -/
  | overflowError
  deriving DecidableEq, Repr

deriving instance DecidableEq for Except

/-! Computation rules for the exception monad. -/

section
variable {α β : Type}
@[simp] theorem ok_bind (a : α) (f : α → Except Err β) : ((Except.ok a : Except Err α) >>= f) = f a := rfl
@[simp] theorem error_bind (e : Err) (f : α → Except Err β) :
    ((Except.error e : Except Err α) >>= f) = .error e := rfl
@[simp] theorem except_pure (a : α) : (pure a : Except Err α) = .ok a := rfl
@[simp] theorem except_throw (e : Err) : (throw e : Except Err α) = .error e := rfl
@[simp] theorem except_fmap_ok (f : α → β) (a : α) : f <$> (Except.ok a : Except Err α) = .ok (f a) := rfl
@[simp] theorem except_fmap_error (f : α → β) (e : Err) : f <$> (Except.error e : Except Err α) = .error e := rfl
@[simp] theorem except_map_ok (f : α → β) (a : α) : (Except.ok a : Except Err α).map f = .ok (f a) := rfl
@[simp] theorem except_map_error (f : α → β) (e : Err) : (Except.error e : Except Err α).map f = .error e := rfl
end
