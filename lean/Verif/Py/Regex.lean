import Verif.Py.Str

/-!
# Regular expressions

AST for the subset of Python `re` syntax used by the library: literal characters, character classes, grouping,
alternation-free sequences, `*`, `+`, `?`, and the anchors `^ … $`.  The matcher is by Brzozowski derivatives and
is proved equal to the denotation `Lang` in this file, so the model does not depend on the matching strategy.
-/

namespace Py

/-- Regular expressions over characters. -/
inductive Re where
  | empty
  | eps
  | cls (p : Char → Bool)
  | seq (a b : Re)
  | alt (a b : Re)
  | star (a : Re)

namespace Re

/-- A literal character. -/
def chr (c : Char) : Re := cls (· == c)
/-- `a+` -/
def plus (a : Re) : Re := seq a (star a)
/-- `a?` -/
def opt (a : Re) : Re := alt a eps

/-- Denotation of a regular expression: the strings it matches in full. -/
inductive Lang : Re → Str → Prop
  | eps : Lang eps []
  | cls {p c} : p c = true → Lang (cls p) [c]
  | seq {a b s t} : Lang a s → Lang b t → Lang (seq a b) (s ++ t)
  | altL {a b s} : Lang a s → Lang (alt a b) s
  | altR {a b s} : Lang b s → Lang (alt a b) s
  | starNil {a} : Lang (star a) []
  | starCons {a s t} : Lang a s → Lang (star a) t → Lang (star a) (s ++ t)

/-- Does it match the empty string? -/
def nullable : Re → Bool
  | empty => false
  | eps => true
  | cls _ => false
  | seq a b => nullable a && nullable b
  | alt a b => nullable a || nullable b
  | star _ => true

/-- Derivative with respect to a character. -/
def deriv (c : Char) : Re → Re
  | empty => empty
  | eps => empty
  | cls p => if p c then eps else empty
  | seq a b => if nullable a then alt (seq (deriv c a) b) (deriv c b) else seq (deriv c a) b
  | alt a b => alt (deriv c a) (deriv c b)
  | star a => seq (deriv c a) (star a)

/-- Full match by derivatives. -/
def accepts (r : Re) : Str → Bool
  | [] => nullable r
  | c :: s => accepts (deriv c r) s

/-- `re.compile("^" + r + "$").match(s) is not None`: `$` also matches before a final newline. -/
def pyMatch (r : Re) (s : Str) : Bool :=
  accepts r s || (match s.getLast? with
    | some '\n' => accepts r s.dropLast
    | _ => false)

theorem nullable_iff (r : Re) : nullable r = true ↔ Lang r [] := by
  induction r with
  | empty => simp [nullable]; intro h; cases h
  | eps => simp [nullable]; exact .eps
  | cls p =>
    simp only [nullable]
    constructor
    · intro h; cases h
    · intro h; cases h
  | seq a b iha ihb =>
    simp only [nullable, Bool.and_eq_true, iha, ihb]
    constructor
    · rintro ⟨h1, h2⟩; exact .seq (s := []) (t := []) h1 h2
    · intro h
      generalize hs : ([] : Str) = s at h
      cases h with
      | seq h1 h2 =>
        have := List.append_eq_nil_iff.mp hs.symm
        obtain ⟨rfl, rfl⟩ := this
        exact ⟨h1, h2⟩
  | alt a b iha ihb =>
    simp only [nullable, Bool.or_eq_true, iha, ihb]
    constructor
    · rintro (h | h)
      · exact .altL h
      · exact .altR h
    · intro h
      cases h with
      | altL h => exact .inl h
      | altR h => exact .inr h
  | star a _ => simp [nullable]; exact .starNil

theorem deriv_iff (c : Char) (r : Re) : ∀ s, Lang (deriv c r) s ↔ Lang r (c :: s) := by
  induction r with
  | empty => intro s; simp only [deriv]; constructor <;> (intro h; cases h)
  | eps => intro s; simp only [deriv]; constructor <;> (intro h; cases h)
  | cls p =>
    intro s
    simp only [deriv]
    constructor
    · intro h
      by_cases hp : p c = true
      · simp [hp] at h; cases h; exact .cls hp
      · simp [hp] at h; cases h
    · intro h
      cases h with
      | cls hp => simp [hp]; exact .eps
  | seq a b iha ihb =>
    intro s
    have key : Lang (seq a b) (c :: s) ↔
        Lang (seq (deriv c a) b) s ∨ (Lang a [] ∧ Lang (deriv c b) s) := by
      constructor
      · intro h
        generalize hs : c :: s = w at h
        cases h with
        | seq h1 h2 =>
          rename_i u v
          cases u with
          | nil =>
            simp at hs; subst hs
            exact .inr ⟨h1, (ihb s).mpr h2⟩
          | cons d u =>
            simp at hs
            obtain ⟨rfl, rfl⟩ := hs
            exact .inl (.seq ((iha u).mpr h1) h2)
      · rintro (h | ⟨h1, h2⟩)
        · cases h with
          | seq h1 h2 => exact .seq (s := c :: _) ((iha _).mp h1) h2
        · exact .seq (s := []) h1 ((ihb s).mp h2)
    rw [key]
    simp only [deriv]
    by_cases hn : nullable a = true
    · rw [if_pos hn]
      have hn' := (nullable_iff a).mp hn
      constructor
      · intro h
        cases h with
        | altL h => exact .inl h
        | altR h => exact .inr ⟨hn', h⟩
      · rintro (h | ⟨_, h⟩)
        · exact .altL h
        · exact .altR h
    · rw [if_neg hn]
      have hn' : ¬ Lang a [] := fun h => hn ((nullable_iff a).mpr h)
      constructor
      · exact .inl
      · rintro (h | ⟨h, _⟩)
        · exact h
        · exact absurd h hn'
  | alt a b iha ihb =>
    intro s
    simp only [deriv]
    constructor
    · intro h
      cases h with
      | altL h => exact .altL ((iha s).mp h)
      | altR h => exact .altR ((ihb s).mp h)
    · intro h
      cases h with
      | altL h => exact .altL ((iha s).mpr h)
      | altR h => exact .altR ((ihb s).mpr h)
  | star a iha =>
    intro s
    simp only [deriv]
    constructor
    · intro h
      cases h with
      | seq h1 h2 => exact .starCons (s := c :: _) ((iha _).mp h1) h2
    · intro h
      generalize hr : star a = r at h
      generalize hs : c :: s = w at h
      induction h with
      | starNil => cases hs
      | @starCons a' u v h1 h2 _ ih2 =>
        cases hr
        cases u with
        | nil => exact ih2 rfl (by simpa using hs)
        | cons d u =>
          simp at hs
          obtain ⟨rfl, rfl⟩ := hs
          exact .seq ((iha u).mpr h1) h2
      | _ => cases hr

/-- The matcher decides the denotation. -/
theorem accepts_iff (r : Re) (s : Str) : accepts r s = true ↔ Lang r s := by
  induction s generalizing r with
  | nil => exact nullable_iff r
  | cons c s ih => simp only [accepts]; rw [ih, deriv_iff]

end Re
end Py
