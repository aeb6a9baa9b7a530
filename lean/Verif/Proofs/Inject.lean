import Verif.Spec.Inject
import Mathlib.Data.List.Infix

/-!
# Lemmas about the first frame in a text
-/

namespace Spec

theorem hasHH_cons {c : Char} {s : Str} (h : HasHH (c :: s)) : (c = '#' ∧ ∃ t, s = '#' :: t) ∨ HasHH s := by
  obtain ⟨u, v, e⟩ := h
  cases u with
  | nil =>
    simp at e
    exact .inl ⟨e.1, v, e.2⟩
  | cons d u =>
    simp only [List.cons_append, List.cons.injEq] at e
    exact .inr ⟨u, v, e.2⟩

theorem hasHH_of_cons {c : Char} {s : Str} (h : HasHH s) : HasHH (c :: s) := by
  obtain ⟨u, v, rfl⟩ := h
  exact ⟨c :: u, v, rfl⟩

/-- Where the first `##` of a text that ends with one is. -/
theorem first_hh (s : Str) : ∃ a rest, s ++ cs!"##" = a ++ cs!"##" ++ rest ∧ a <+: s ∧ ¬ HasHH (a ++ cs!"#") ∧
    (¬ HasHH (s ++ cs!"#") → a = s ∧ rest = []) ∧ (∀ c ∈ rest, c ∈ s ∨ c = '#') := by
  have short : ¬ HasHH cs!"#" := fun h => by
    rcases hasHH_cons h with ⟨_, t, h⟩ | ⟨u, v, h⟩
    · cases h
    · cases u <;> cases h
  induction s with
  | nil => exact ⟨[], [], rfl, List.prefix_rfl, short, fun _ => ⟨rfl, rfl⟩, by simp⟩
  | cons c s ih =>
    by_cases hc : c = '#' ∧ ∃ t, s = '#' :: t
    · obtain ⟨rfl, t, rfl⟩ := hc
      refine ⟨[], t ++ cs!"##", by simp, List.nil_prefix, short, fun h => absurd ⟨[], t ++ cs!"#", by simp⟩ h, ?_⟩
      intro c hc
      rcases List.mem_append.1 hc with h | h
      · exact .inl (by simp [h])
      · exact .inr (by simpa using h)
    · obtain ⟨a, rest, h1, h2, h3, h4, h5⟩ := ih
      by_cases hs : c = '#' ∧ s = []
      · obtain ⟨rfl, rfl⟩ := hs
        exact ⟨[], cs!"#", rfl, List.nil_prefix, short, fun h => absurd ⟨[], [], rfl⟩ h, by simp⟩
      · refine ⟨c :: a, rest, by rw [List.cons_append, h1]; rfl, by simpa using h2, fun h => ?_, fun h => ?_, fun d hd => ?_⟩
        · rcases hasHH_cons h with ⟨rfl, t, ht⟩ | h
          · cases a with
            | nil =>
              obtain ⟨u, rfl⟩ := h2
              rw [List.nil_append] at h1 hc hs
              cases u with
              | nil => exact hs ⟨rfl, rfl⟩
              | cons d u =>
                have hd : d = '#' := by
                  have := congrArg List.head? h1
                  simpa using this
                exact hc ⟨rfl, u, by rw [hd]⟩
            | cons d a =>
              have hd : d = '#' := by
                have := congrArg List.head? ht
                simpa using this
              obtain ⟨u, rfl⟩ := h2
              exact hc ⟨rfl, _, by rw [List.cons_append, hd]⟩
          · exact h3 h
        · obtain ⟨rfl, rfl⟩ := h4 fun h' => h (hasHH_of_cons h')
          exact ⟨rfl, rfl⟩
        · rcases h5 d hd with h | h
          · exact .inl (List.mem_cons_of_mem _ h)
          · exact .inr h

theorem hasHH_digits {p s : Str} (hp : ∀ c ∈ p, c ≠ '#') (h : HasHH (p ++ s)) : HasHH s := by
  induction p with
  | nil => exact h
  | cons c p ih =>
    rcases hasHH_cons h with ⟨rfl, _⟩ | h
    · exact absurd rfl (hp _ List.mem_cons_self)
    · exact ih (fun d hd => hp d (List.mem_cons_of_mem _ hd)) h

/-- A command with an address at its end is read as the same command at a prefix of the address, and nothing else. -/
theorem first_normal {who what s : Str} (h1 : Digits who) (h2 : Digits what) (hs : TagText s) :
    ∃ a rest, a <+: s ∧ FirstFrame (frame [who, what, s]) (frame [who, what, a]) rest ∧ NoFrame rest ∧
      (¬ HasHH (s ++ cs!"#") → a = s ∧ rest = []) := by
  obtain ⟨a, rest, e1, e2, e3, e4, e5⟩ := first_hh s
  have eq : ∀ x, frame [who, what, x] = ('*' :: who ++ '*' :: what ++ ['*']) ++ (x ++ cs!"##") := by
    intro x; simp [frame, body]
  have nd : ∀ {t : Str}, Digits t → ∀ c ∈ t, c ≠ '#' := by
    intro t ht c hc e
    have := ht c hc
    rw [e] at this
    exact absurd this (by decide)
  refine ⟨a, rest, e2, ⟨?_, ('*' :: who ++ '*' :: what ++ ['*']) ++ a, by rw [eq]; simp, fun h => e3 ?_⟩, ?_, e4⟩
  · rw [eq, eq, e1]; simp
  · rw [List.append_assoc] at h
    refine hasHH_digits (fun c hc => ?_) h
    simp only [List.cons_append, List.mem_cons, List.mem_append, List.not_mem_nil, or_false] at hc
    rcases hc with rfl | (hc | (rfl | hc)) | rfl
    · decide
    · exact nd h1 c hc
    · decide
    · exact nd h2 c hc
    · decide
  · intro h
    rcases e5 _ h with h | h
    · have := hs _ h
      revert this
      unfold TagChar
      decide
    · exact absurd h (by decide)

end Spec
