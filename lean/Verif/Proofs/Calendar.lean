import Verif.Spec.Calendar
import Mathlib.Tactic.IntervalCases
import Mathlib.Tactic.Ring

/-!
# Helper lemmas about the calendar
-/

open Py Spec

theorem isLeap_iff (y : Nat) : isLeap y = true ↔ Leap y := by
  unfold isLeap Leap
  simp only [Bool.and_eq_true, beq_iff_eq, Bool.or_eq_true, bne_iff_ne, ne_eq]
  omega

theorem daysInMonth_eq {y m : Nat} (h1 : 1 ≤ m) (h2 : m ≤ 12) : daysInMonth y m = monthLength y m := by
  unfold daysInMonth monthLength
  by_cases hl : isLeap y = true
  · have := (isLeap_iff y).1 hl
    interval_cases m <;> simp [hl, this]
  · have : ¬ Leap y := fun h => hl ((isLeap_iff y).2 h)
    interval_cases m <;> simp [hl, this]

theorem valid_iff (d : Date) : d.Valid ↔ IsDate d ∧ d.year ≤ 9999 := by
  unfold Date.Valid IsDate
  constructor
  · rintro ⟨h1, h2, h3, h4, h5, h6⟩
    rw [daysInMonth_eq h3 h4] at h6
    exact ⟨⟨h1, h3, h4, h5, h6⟩, h2⟩
  · rintro ⟨⟨h1, h3, h4, h5, h6⟩, h2⟩
    rw [← daysInMonth_eq h3 h4] at h6
    exact ⟨h1, h2, h3, h4, h5, h6⟩

theorem daysBeforeMonth_succ {y m : Nat} (h1 : 1 ≤ m) (h2 : m < 12) :
    daysBeforeMonth y (m + 1) = daysBeforeMonth y m + monthLength y m := by
  unfold daysBeforeMonth monthLength
  by_cases hl : isLeap y = true
  · have := (isLeap_iff y).1 hl
    interval_cases m <;> simp [hl, this]
  · have : ¬ Leap y := fun h => hl ((isLeap_iff y).2 h)
    interval_cases m <;> simp [hl, this]

theorem daysBeforeYear_succ {y : Nat} (h : 1 ≤ y) :
    daysBeforeYear (y + 1) = daysBeforeYear y + daysBeforeMonth y 12 + 31 := by
  have : daysBeforeMonth y 12 = 334 + if isLeap y then 1 else 0 := by simp [daysBeforeMonth]
  rw [this]
  unfold daysBeforeYear
  by_cases hl : isLeap y = true
  · have hL := (isLeap_iff y).1 hl
    rw [if_pos hl]
    unfold Leap at hL
    omega
  · have hL : ¬ Leap y := fun h => hl ((isLeap_iff y).2 h)
    rw [if_neg hl]
    unfold Leap at hL
    omega

theorem ordinal_tomorrow {d : Date} (h : IsDate d) : (tomorrow d).toOrdinal = d.toOrdinal + 1 := by
  obtain ⟨y, m, k⟩ := d
  obtain ⟨h1, h2, h3, h4, h5⟩ := h
  simp only at h1 h2 h3 h4 h5
  unfold tomorrow Date.toOrdinal
  simp only
  split_ifs with ha hb
  · simp only; omega
  · simp only
    rw [daysBeforeMonth_succ h2 hb]
    omega
  · simp only
    have hm : m = 12 := by omega
    subst hm
    have h31 : monthLength y 12 = 31 := by simp [monthLength]
    rw [h31] at h5 ha
    rw [daysBeforeYear_succ h1]
    have : daysBeforeMonth (y + 1) 1 = 0 := by simp [daysBeforeMonth]
    omega

theorem isDate_tomorrow {d : Date} (h : IsDate d) : IsDate (tomorrow d) := by
  obtain ⟨y, m, k⟩ := d
  obtain ⟨h1, h2, h3, h4, h5⟩ := h
  simp only at h1 h2 h3 h4 h5
  unfold tomorrow
  simp only
  have len : ∀ y m, 1 ≤ monthLength y m := by intro y m; unfold monthLength; split_ifs <;> omega
  split_ifs with ha hb
  · exact ⟨h1, h2, h3, by simp, by simp only; omega⟩
  · exact ⟨h1, by simp, by simp only; omega, by simp, by simp only; exact len _ _⟩
  · exact ⟨by simp, by simp, by simp, by simp, by simp only; exact len _ _⟩

/-- Every date is some day after the first one. -/
theorem reach {d : Date} (h : IsDate d) : ∃ n, (tomorrow^[n]) ⟨1, 1, 1⟩ = d := by
  have step : ∀ {a b : Date}, (∃ n, (tomorrow^[n]) ⟨1, 1, 1⟩ = a) → tomorrow a = b →
      ∃ n, (tomorrow^[n]) ⟨1, 1, 1⟩ = b := by
    rintro a b ⟨n, hn⟩ hb
    exact ⟨n + 1, by rw [Function.iterate_succ_apply', hn, hb]⟩
  have days : ∀ (y m : Nat), (∃ n, (tomorrow^[n]) ⟨1, 1, 1⟩ = ⟨y, m, 1⟩) →
      ∀ k, k + 1 ≤ monthLength y m → ∃ n, (tomorrow^[n]) ⟨1, 1, 1⟩ = ⟨y, m, k + 1⟩ := by
    intro y m h0 k
    induction k with
    | zero => intro _; exact h0
    | succ k ih =>
      intro hk
      refine step (ih (by omega)) ?_
      unfold tomorrow
      simp only
      rw [if_pos (by omega)]
  have len : ∀ y m, 1 ≤ monthLength y m := by intro y m; unfold monthLength; split_ifs <;> omega
  have months : ∀ (y : Nat), (∃ n, (tomorrow^[n]) ⟨1, 1, 1⟩ = ⟨y, 1, 1⟩) →
      ∀ m, m + 1 ≤ 12 → ∃ n, (tomorrow^[n]) ⟨1, 1, 1⟩ = ⟨y, m + 1, 1⟩ := by
    intro y h0 m
    induction m with
    | zero => intro _; exact h0
    | succ m ih =>
      intro hm
      have hl := len y (m + 1)
      refine step (days y (m + 1) (ih (by omega)) (monthLength y (m + 1) - 1) (by omega)) ?_
      unfold tomorrow
      simp only
      rw [if_neg (by omega), if_pos (by omega)]
  have years : ∀ y, ∃ n, (tomorrow^[n]) ⟨1, 1, 1⟩ = ⟨y + 1, 1, 1⟩ := by
    intro y
    induction y with
    | zero => exact ⟨0, rfl⟩
    | succ y ih =>
      have h31 : monthLength (y + 1) 12 = 31 := by simp [monthLength]
      refine step (days (y + 1) 12 (months (y + 1) ih 11 (by omega)) 30 (by omega)) ?_
      unfold tomorrow
      simp only
      rw [if_neg (by omega), if_neg (by omega)]
  obtain ⟨y, m, k⟩ := d
  obtain ⟨h1, h2, h3, h4, h5⟩ := h
  simp only at h1 h2 h3 h4 h5
  obtain ⟨y, rfl⟩ : ∃ y', y = y' + 1 := ⟨y - 1, by omega⟩
  obtain ⟨m, rfl⟩ : ∃ m', m = m' + 1 := ⟨m - 1, by omega⟩
  obtain ⟨k, rfl⟩ : ∃ k', k = k' + 1 := ⟨k - 1, by omega⟩
  exact days _ _ (months _ (years y) m (by omega)) k h5

theorem isDate_iterate (n : Nat) : IsDate ((tomorrow^[n]) ⟨1, 1, 1⟩) := by
  induction n with
  | zero => exact ⟨by simp, by simp, by simp, by simp, by decide⟩
  | succ n ih => rw [Function.iterate_succ_apply']; exact isDate_tomorrow ih

/-- The day of the week, Sunday is 0, from the ordinal. -/
def sunday0 (d : Date) : Nat := (d.weekday + 1) % 7

theorem sunday0_tomorrow {d : Date} (h : IsDate d) : sunday0 (tomorrow d) = (sunday0 d + 1) % 7 := by
  unfold sunday0 Date.weekday
  rw [ordinal_tomorrow h]
  omega

theorem dayOfWeek_eq {d : Date} {k : Nat} (h : DayOfWeek d k) : k = sunday0 d := by
  induction h with
  | anchor => decide
  | forward hd _ ih => rw [sunday0_tomorrow hd, ih]
  | @backward d k hd hk _ ih =>
    rw [sunday0_tomorrow hd] at ih
    have : sunday0 d < 7 := by unfold sunday0; omega
    omega

theorem dayOfWeek_all {d : Date} (h : IsDate d) : DayOfWeek d (sunday0 d) := by
  have fwd : ∀ {d : Date}, IsDate d → DayOfWeek d (sunday0 d) → DayOfWeek (tomorrow d) (sunday0 (tomorrow d)) := by
    intro d hd h
    rw [sunday0_tomorrow hd]
    exact .forward hd h
  have bwd : ∀ {d : Date}, IsDate d → DayOfWeek (tomorrow d) (sunday0 (tomorrow d)) → DayOfWeek d (sunday0 d) := by
    intro d hd h
    rw [sunday0_tomorrow hd] at h
    exact .backward hd (by unfold sunday0; omega) h
  obtain ⟨n0, hn0⟩ := reach (d := ⟨2000, 1, 1⟩) ⟨by simp, by simp, by simp, by simp, by decide⟩
  have down : ∀ n, DayOfWeek ((tomorrow^[n]) ⟨1, 1, 1⟩) (sunday0 ((tomorrow^[n]) ⟨1, 1, 1⟩)) →
      DayOfWeek ⟨1, 1, 1⟩ (sunday0 ⟨1, 1, 1⟩) := by
    intro n
    induction n with
    | zero => exact id
    | succ n ih =>
      intro h
      rw [Function.iterate_succ_apply'] at h
      exact ih (bwd (isDate_iterate n) h)
  have first : DayOfWeek ⟨1, 1, 1⟩ (sunday0 ⟨1, 1, 1⟩) := by
    refine down n0 ?_
    rw [hn0]
    exact .anchor
  obtain ⟨n, rfl⟩ := reach h
  clear h hn0
  induction n with
  | zero => exact first
  | succ n ih =>
    rw [Function.iterate_succ_apply']
    exact fwd (isDate_iterate n) ih
