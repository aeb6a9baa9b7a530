import Verif.Py.Regex

/-!
# Backtracking

The matching strategy of CPython's `re` (`Modules/_sre/sre_lib.h`), with the number of character tests it makes.  Repetitions
are greedy; a repetition whose last round matched the empty text goes on with the rest of the pattern
(`SRE_OP_MAX_UNTIL`, test of `last_ptr`); there is no memory of failed attempts.  Compared with CPython, the position of
groups is not recorded, and a test costs one whatever it compares.
-/

namespace Py
namespace Re

/-- Outcome of an attempt: success, and number of character tests. -/
abbrev Res := Bool × Nat

/-- Try the first, then the second. -/
def orElse (a b : Res) : Res := if a.1 then a else (b.1, a.2 + b.2)

/-- Rounds of a greedy repetition from `s`: one more round, else the rest of the pattern. -/
def loop (body : Str → (Str → Res) → Res) : Nat → Str → (Str → Res) → Res
  | 0, s, k => k s
  | n + 1, s, k => orElse (body s fun t => if t.length < s.length then loop body n t k else k t) (k s)

/-- Match `r` at the beginning of the text, then the rest of the pattern `k`. -/
def run : Re → Str → (Str → Res) → Res
  | empty, _, _ => (false, 0)
  | eps, s, k => k s
  | cls p, s, k =>
    match s with
    | [] => (false, 1)
    | c :: s => if p c then ((k s).1, (k s).2 + 1) else (false, 1)
  | seq a b, s, k => run a s fun t => run b t k
  | alt a b, s, k => orElse (run a s k) (run b s k)
  | star a, s, k => loop (run a) (s.length + 1) s k

/-- `$` -/
def atEnd (s : Str) : Res := (decide (s = [] ∨ s = ['\n']), 1)

/-- `re.compile("^" + r + "$").match(s)` -/
def search (r : Re) (s : Str) : Res := run r s atEnd

end Re
end Py
