import Verif.Py.Err

/-!
# Python string operations used by the library

Every definition is a total function by structural recursion.  `sep`arators are specialised to the two shapes the
library uses: a single character (`"*"`, `"#"`) and a pair of characters (`"##"`).
-/

namespace Py

/-- `str.isspace` on one character: the characters removed by `str.strip()` (CPython 3.11, Unicode 14). -/
def isSpace (c : Char) : Bool :=
  let n := c.toNat
  (9 ≤ n && n ≤ 13) || (28 ≤ n && n ≤ 32) || n == 0x85 || n == 0xa0 || n == 0x1680 ||
  (0x2000 ≤ n && n ≤ 0x200a) || n == 0x2028 || n == 0x2029 || n == 0x202f || n == 0x205f || n == 0x3000

/-- `str.lstrip()` -/
def lstrip (s : Str) : Str := s.dropWhile isSpace

/-- `str.rstrip()` -/
def rstrip (s : Str) : Str := (s.reverse.dropWhile isSpace).reverse

/-- `str.strip()` -/
def strip (s : Str) : Str := rstrip (lstrip s)

/-- `s.startswith(p)` -/
def startsWith : Str → Str → Bool
  | _, [] => true
  | [], _ :: _ => false
  | c :: s, d :: p => c == d && startsWith s p

/-- `s.removeprefix(p)` -/
def removePrefix (s p : Str) : Str := if startsWith s p then s.drop p.length else s

/-- `s.endswith(p)` -/
def endsWith (s p : Str) : Bool := startsWith s.reverse p.reverse

/-- `s.removesuffix(p)` -/
def removeSuffix (s p : Str) : Str := if endsWith s p then s.take (s.length - p.length) else s

/-- Put a character in front of the first piece of a split. -/
def consHead (c : Char) : List Str → List Str
  | [] => [[c]]
  | h :: t => (c :: h) :: t

/-- `s.split(sep)` for a one-character separator: always at least one piece. -/
def split1 (sep : Char) : Str → List Str
  | [] => [[]]
  | c :: s => if c = sep then [] :: split1 sep s else consHead c (split1 sep s)

/-- `s.split(sep)` for the two-character separator `ab`: leftmost, non-overlapping. -/
def split2 (a b : Char) : Str → List Str
  | [] => [[]]
  | [c] => [[c]]
  | c :: d :: s => if c = a ∧ d = b then [] :: split2 a b s else consHead c (split2 a b (d :: s))

/-- `s.count(sub)` for the two-character `sub = ab`: leftmost, non-overlapping occurrences. -/
def count2 (a b : Char) : Str → Nat
  | [] => 0
  | [_] => 0
  | c :: d :: s => if c = a ∧ d = b then count2 a b s + 1 else count2 a b (d :: s)

/-- `sep.join(pieces)` -/
def join (sep : Str) : List Str → Str
  | [] => []
  | [p] => p
  | p :: q :: ps => p ++ sep ++ join sep (q :: ps)

/-- A Python subscript `xs[i]` with `i ≥ 0`: `IndexError` when out of range. -/
def index {α : Type} (xs : List α) (i : Nat) : Except Err α :=
  match xs[i]? with
  | some x => .ok x
  | none => .error .indexError

/-- Decimal digit characters `0-9`. -/
def isDigit (c : Char) : Bool := '0' ≤ c && c ≤ '9'

end Py
