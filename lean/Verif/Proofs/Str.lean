import Verif.Py.Int
import Mathlib.Tactic.Common
import Mathlib.Data.List.TakeWhile

/-! # Lemmas about Python string operations -/

namespace Py

/-! ### strip -/

theorem dropWhile_append_of_all {p : Char → Bool} {w s : Str} (h : ∀ c ∈ w, p c = true) :
    (w ++ s).dropWhile p = s.dropWhile p := by
  induction w with
  | nil => rfl
  | cons c w ih =>
    have hc := h c (by simp)
    simp only [List.cons_append, List.dropWhile_cons, hc, if_true]
    exact ih (fun c hc => h c (by simp [hc]))

theorem exists_ws_lstrip (s : Str) : ∃ w, (∀ c ∈ w, isSpace c = true) ∧ s = w ++ lstrip s := by
  refine ⟨s.takeWhile isSpace, ?_, ?_⟩
  · intro c hc; exact List.mem_takeWhile_imp hc
  · simp [lstrip]

theorem exists_ws_rstrip (s : Str) : ∃ w, (∀ c ∈ w, isSpace c = true) ∧ s = rstrip s ++ w := by
  refine ⟨(s.reverse.takeWhile isSpace).reverse, ?_, ?_⟩
  · intro c hc
    exact List.mem_takeWhile_imp (List.mem_reverse.mp hc)
  · simp only [rstrip]
    rw [← List.reverse_append, List.takeWhile_append_dropWhile, List.reverse_reverse]

/-- A string is its stripped version with whitespace on both sides. -/
theorem exists_ws_strip (s : Str) :
    ∃ u v, (∀ c ∈ u, isSpace c = true) ∧ (∀ c ∈ v, isSpace c = true) ∧ s = u ++ strip s ++ v := by
  obtain ⟨u, hu, h1⟩ := exists_ws_lstrip s
  obtain ⟨v, hv, h2⟩ := exists_ws_rstrip (lstrip s)
  refine ⟨u, v, hu, hv, ?_⟩
  rw [strip, List.append_assoc, ← h2]; exact h1

theorem lstrip_append_ws {w s : Str} (h : ∀ c ∈ w, isSpace c = true) : lstrip (w ++ s) = lstrip s :=
  dropWhile_append_of_all h

theorem rstrip_append_ws {w s : Str} (h : ∀ c ∈ w, isSpace c = true) : rstrip (s ++ w) = rstrip s := by
  simp only [rstrip, List.reverse_append]
  rw [dropWhile_append_of_all]
  intro c hc; exact h c (List.mem_reverse.mp hc)

theorem rstrip_all_ws {w : Str} (h : ∀ c ∈ w, isSpace c = true) : rstrip w = [] := by
  have := rstrip_append_ws (w := w) (s := []) h
  simpa [rstrip] using this

theorem lstrip_eq_self {s : Str} (h : ∀ c, s.head? = some c → isSpace c = false) : lstrip s = s := by
  cases s with
  | nil => rfl
  | cons c s => simp [lstrip, h c rfl]

theorem rstrip_eq_self {s : Str} (h : ∀ c, s.getLast? = some c → isSpace c = false) : rstrip s = s := by
  have : lstrip s.reverse = s.reverse := by
    apply lstrip_eq_self
    intro c hc
    apply h
    rwa [List.head?_reverse] at hc
  simp only [rstrip]
  rw [show s.reverse.dropWhile isSpace = lstrip s.reverse from rfl, this, List.reverse_reverse]

theorem strip_eq_self {s : Str} (h1 : ∀ c, s.head? = some c → isSpace c = false)
    (h2 : ∀ c, s.getLast? = some c → isSpace c = false) : strip s = s := by
  rw [strip, lstrip_eq_self h1, rstrip_eq_self h2]

theorem lstrip_append_of_ne {s w : Str} (h : lstrip s ≠ []) : lstrip (s ++ w) = lstrip s ++ w := by
  induction s with
  | nil => simp [lstrip] at h
  | cons c s ih =>
    by_cases hc : isSpace c = true
    · have e1 : lstrip (c :: s) = lstrip s := by simp [lstrip, hc]
      have e2 : lstrip (c :: s ++ w) = lstrip (s ++ w) := by simp [lstrip, hc]
      rw [e1] at h ⊢; rw [e2]; exact ih h
    · simp [lstrip, hc]

theorem lstrip_eq_nil {s : Str} (h : lstrip s = []) : ∀ c ∈ s, isSpace c = true := by
  obtain ⟨w, hw, e⟩ := exists_ws_lstrip s
  rw [h, List.append_nil] at e
  rw [e]; exact hw

/-- Padding with whitespace does not change the stripped string. -/
theorem strip_pad {u s v : Str} (hu : ∀ c ∈ u, isSpace c = true) (hv : ∀ c ∈ v, isSpace c = true) :
    strip (u ++ s ++ v) = strip s := by
  rw [strip, List.append_assoc, lstrip_append_ws hu]
  by_cases h : lstrip s = []
  · have hs := lstrip_eq_nil h
    have : lstrip (s ++ v) = [] := by
      rw [lstrip_append_ws hs]
      have := dropWhile_append_of_all (p := isSpace) (w := v) (s := []) hv
      simpa [lstrip] using this
    rw [this, strip, h]
  · rw [lstrip_append_of_ne h, rstrip_append_ws hv, strip]

theorem strip_head {s : Str} (c : Char) (h : (strip s).head? = some c) : isSpace c = false := by
  have h1 : ∃ t, lstrip s = strip s ++ t := by
    obtain ⟨v, _, e⟩ := exists_ws_rstrip (lstrip s)
    exact ⟨v, e⟩
  obtain ⟨t, ht⟩ := h1
  have h2 : (lstrip s).head? = some c := by
    rw [ht]
    cases hs : strip s with
    | nil => rw [hs] at h; simp at h
    | cons d r => rw [hs] at h; simpa using h
  by_contra hc
  have hc' : isSpace c = true := by simpa using hc
  have : ∀ x : Str, (lstrip x).head? ≠ some c := by
    intro x
    induction x with
    | nil => simp [lstrip]
    | cons d x ih =>
      by_cases hd : isSpace d = true
      · simpa [lstrip, hd] using ih
      · simp [lstrip, hd]
        rintro rfl; exact hd hc'
  exact this s h2

theorem rstrip_getLast {s : Str} (c : Char) (h : (rstrip s).getLast? = some c) : isSpace c = false := by
  simp only [rstrip, List.getLast?_reverse] at h
  have : ∀ x : Str, (x.dropWhile isSpace).head? = some c → isSpace c = false := by
    intro x
    induction x with
    | nil => simp
    | cons d x ih =>
      by_cases hd : isSpace d = true
      · simpa [hd] using ih
      · simp [hd]
        rintro rfl; simpa using hd
  exact this _ h

theorem strip_getLast {s : Str} (c : Char) (h : (strip s).getLast? = some c) : isSpace c = false :=
  rstrip_getLast c h

/-- `strip` is idempotent. -/
theorem strip_strip (s : Str) : strip (strip s) = strip s :=
  strip_eq_self (fun c h => strip_head c h) (fun c h => strip_getLast c h)

/-! ### prefixes and suffixes -/

theorem startsWith_iff (s p : Str) : startsWith s p = true ↔ ∃ t, s = p ++ t := by
  induction p generalizing s with
  | nil => simp [startsWith]
  | cons d p ih =>
    cases s with
    | nil => simp [startsWith]
    | cons c s =>
      simp only [startsWith, Bool.and_eq_true, beq_iff_eq, ih]
      constructor
      · rintro ⟨rfl, t, rfl⟩; exact ⟨t, rfl⟩
      · rintro ⟨t, h⟩; simp at h; exact ⟨h.1, t, h.2⟩

theorem removePrefix_append (p s : Str) : removePrefix (p ++ s) p = s := by
  have : startsWith (p ++ s) p = true := (startsWith_iff _ _).mpr ⟨s, rfl⟩
  simp [removePrefix, this]

theorem removePrefix_of_not {s p : Str} (h : ¬ ∃ t, s = p ++ t) : removePrefix s p = s := by
  have : startsWith s p = false := by
    rw [← Bool.not_eq_true, startsWith_iff]; exact h
  simp [removePrefix, this]

theorem endsWith_iff (s p : Str) : endsWith s p = true ↔ ∃ t, s = t ++ p := by
  rw [endsWith, startsWith_iff]
  constructor
  · rintro ⟨t, h⟩
    refine ⟨t.reverse, ?_⟩
    have := congrArg List.reverse h
    simpa using this
  · rintro ⟨t, rfl⟩
    exact ⟨t.reverse, by simp⟩

theorem removeSuffix_append (s p : Str) : removeSuffix (s ++ p) p = s := by
  have : endsWith (s ++ p) p = true := (endsWith_iff _ _).mpr ⟨s, rfl⟩
  simp [removeSuffix, this]

/-! ### split1 / join -/

theorem split1_ne_nil (c : Char) (s : Str) : split1 c s ≠ [] := by
  induction s with
  | nil => simp [split1]
  | cons d s ih =>
    by_cases h : d = c
    · simp [split1, h]
    · simp only [split1, if_neg h]
      cases hs : split1 c s <;> simp [consHead]

theorem split1_append_sep {c : Char} {p s : Str} (h : c ∉ p) : split1 c (p ++ c :: s) = p :: split1 c s := by
  induction p with
  | nil => simp [split1]
  | cons d p ih =>
    have hd : d ≠ c := fun e => h (by simp [e])
    have hp : c ∉ p := fun e => h (by simp [e])
    simp [split1, hd, ih hp, consHead]

theorem split1_of_not_mem {c : Char} {p : Str} (h : c ∉ p) : split1 c p = [p] := by
  induction p with
  | nil => rfl
  | cons d p ih =>
    have hd : d ≠ c := fun e => h (by simp [e])
    have hp : c ∉ p := fun e => h (by simp [e])
    simp [split1, hd, ih hp, consHead]

/-- Splitting a join gives the pieces back. -/
theorem split1_join {c : Char} {ps : List Str} (hne : ps ≠ []) (h : ∀ p ∈ ps, c ∉ p) :
    split1 c (join [c] ps) = ps := by
  induction ps with
  | nil => exact absurd rfl hne
  | cons p ps ih =>
    cases ps with
    | nil => simpa [join] using split1_of_not_mem (h p (by simp))
    | cons q ps =>
      have : join [c] (p :: q :: ps) = p ++ c :: join [c] (q :: ps) := by simp [join]
      rw [this, split1_append_sep (h p (by simp)), ih (by simp) (fun x hx => h x (by simp [hx]))]

theorem join_cons_of_ne {sep p : Str} {ps : List Str} (h : ps ≠ []) :
    join sep (p :: ps) = p ++ sep ++ join sep ps := by
  cases ps with
  | nil => exact absurd rfl h
  | cons q ps => rfl

theorem join_consHead {c : Char} {sep : Str} {ps : List Str} (h : ps ≠ []) :
    join sep (consHead c ps) = c :: join sep ps := by
  cases ps with
  | nil => exact absurd rfl h
  | cons q ps => cases ps <;> simp [consHead, join]

/-- Joining a split gives the string back. -/
theorem join_split1 (c : Char) (s : Str) : join [c] (split1 c s) = s := by
  induction s with
  | nil => rfl
  | cons d s ih =>
    by_cases h : d = c
    · subst h
      simp only [split1, if_true]
      rw [join_cons_of_ne (split1_ne_nil _ _), ih]; rfl
    · simp only [split1, if_neg h]
      rw [join_consHead (split1_ne_nil _ _), ih]

theorem not_mem_of_mem_split1 {c : Char} {s p : Str} (h : p ∈ split1 c s) : c ∉ p := by
  induction s generalizing p with
  | nil => simp [split1] at h; simp [h]
  | cons d s ih =>
    by_cases hd : d = c
    · simp only [split1, if_pos hd, List.mem_cons] at h
      rcases h with rfl | h
      · simp
      · exact ih h
    · simp only [split1, if_neg hd] at h
      cases hs : split1 c s with
      | nil => exact absurd hs (split1_ne_nil _ _)
      | cons q qs =>
        rw [hs] at h ih
        simp only [consHead, List.mem_cons] at h
        rcases h with rfl | h
        · intro hc
          rcases List.mem_cons.mp hc with e | hc
          · exact hd e.symm
          · exact ih (by simp) hc
        · exact ih (by simp [h])

theorem mem_of_mem_split1 {c : Char} {s p : Str} (h : p ∈ split1 c s) : ∀ x ∈ p, x ∈ s := by
  induction s generalizing p with
  | nil => simp [split1] at h; simp [h]
  | cons d s ih =>
    intro x hx
    by_cases hd : d = c
    · simp only [split1, if_pos hd, List.mem_cons] at h
      rcases h with rfl | h
      · simp at hx
      · exact List.mem_cons_of_mem _ (ih h x hx)
    · simp only [split1, if_neg hd] at h
      cases hs : split1 c s with
      | nil => exact absurd hs (split1_ne_nil _ _)
      | cons q qs =>
        rw [hs] at h ih
        simp only [consHead, List.mem_cons] at h
        rcases h with rfl | h
        · rcases List.mem_cons.mp hx with e | hx
          · simp [e]
          · exact List.mem_cons_of_mem _ (ih (by simp) x hx)
        · exact List.mem_cons_of_mem _ (ih (by simp [h]) x hx)

theorem mem_join {sep : Str} {ps : List Str} {x : Char} (h : x ∈ join sep ps) :
    x ∈ sep ∨ ∃ p ∈ ps, x ∈ p := by
  induction ps with
  | nil => simp [join] at h
  | cons p ps ih =>
    cases ps with
    | nil => exact .inr ⟨p, by simp, by simpa [join] using h⟩
    | cons q ps =>
      simp only [join, List.mem_append] at h
      rcases h with (h | h) | h
      · exact .inr ⟨p, by simp, h⟩
      · exact .inl h
      · rcases ih h with h | ⟨r, hr, h⟩
        · exact .inl h
        · exact .inr ⟨r, by simp [hr], h⟩

/-! ### count2 -/

theorem count2_append_left {a b : Char} {w s : Str} (h : a ∉ w) : count2 a b (w ++ s) = count2 a b s := by
  induction w with
  | nil => rfl
  | cons c w ih =>
    have hc : c ≠ a := fun e => h (by simp [e])
    have hw : a ∉ w := fun e => h (by simp [e])
    rw [← ih hw]
    cases hx : w ++ s with
    | nil => simp [hx, count2]
    | cons d r => simp [hx, count2, hc]

theorem count2_append_right {a b : Char} {w s : Str} (h1 : a ∉ w) (h2 : b ∉ w) :
    count2 a b (s ++ w) = count2 a b s := by
  fun_induction count2 a b s with
  | case1 =>
    have := count2_append_left (b := b) (s := []) h1
    simpa [count2] using this
  | case2 c =>
    cases w with
    | nil => simp [count2]
    | cons d w =>
      have hd : d ≠ b := fun e => h2 (by simp [e])
      simp only [List.cons_append, List.nil_append, count2, hd, and_false, if_false]
      have := count2_append_left (b := b) (s := []) h1
      simpa [count2] using this
  | case3 c d s h ih => simp [count2, h, ih]
  | case4 c d s h ih => simp [count2, h]; simpa using ih

theorem isSpace_hash : isSpace '#' = false := by decide
theorem isSpace_star : isSpace '*' = false := by decide

theorem count2_strip (s : Str) : count2 '#' '#' (strip s) = count2 '#' '#' s := by
  obtain ⟨u, v, hu, hv, e⟩ := exists_ws_strip s
  have hu' : '#' ∉ u := fun h => by have := hu _ h; rw [isSpace_hash] at this; cases this
  have hv' : '#' ∉ v := fun h => by have := hv _ h; rw [isSpace_hash] at this; cases this
  conv => rhs; rw [e]
  rw [List.append_assoc, count2_append_left hu', count2_append_right hv' hv']

end Py
