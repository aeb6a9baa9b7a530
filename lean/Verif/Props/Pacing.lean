import Verif.Model.Timed
import Mathlib.Tactic.Ring
import Mathlib.Tactic.ByContra

/-!
# The pace of sending (C108)
-/

open Timed

namespace Spec

/-- The message of a call made at `at_` with this delay is written at `u`, when the transport is congested at the times `locked`. -/
def WrittenAt (locked : Nat → Bool) (delay at_ u : Nat) : Prop := ∃ fuel, writeTime locked delay at_ fuel = some u

/-- Two messages are written at least `delay` apart. -/
def Apart (delay u v : Nat) : Prop := u + delay ≤ v ∨ v + delay ≤ u

end Spec

open Spec

/-- C108 is refuted: however long the delay, two messages sent when the transport is not congested are written when they are sent, so
two calls made at the same time write at the same time. -/
theorem C108_refuted (locked : Nat → Bool) (delay t t' : Nat) (h : locked t = false) (h' : locked t' = false) :
    WrittenAt locked delay t t ∧ WrittenAt locked delay t' t' ∧ (t' < t + delay → t < t' + delay → ¬ Apart delay t t') :=
  ⟨⟨1, by simp [writeTime, h]⟩, ⟨1, by simp [writeTime, h']⟩, fun h1 h2 h3 => by unfold Apart at h3; omega⟩

/-- C108: when a message is written, exactly: the first time the congestion is found over, looking at it once per delay. -/
theorem C108_when_partial (locked : Nat → Bool) (delay t u : Nat) :
    WrittenAt locked delay t u ↔ ∃ k, u = t + k * delay ∧ locked u = false ∧ ∀ j < k, locked (t + j * delay) = true := by
  constructor
  · rintro ⟨fuel, h⟩
    induction fuel generalizing t with
    | zero => cases h
    | succ fuel ih =>
      unfold writeTime at h
      split_ifs at h with hl
      · obtain ⟨k, h1, h2, h3⟩ := ih _ h
        refine ⟨k + 1, by rw [h1]; ring, h2, ?_⟩
        intro j hj
        cases j with
        | zero => simpa using hl
        | succ j =>
          have := h3 j (by omega)
          rwa [show t + delay + j * delay = t + (j + 1) * delay by ring] at this
      · cases h
        exact ⟨0, by simp, by simpa using hl, by simp⟩
  · rintro ⟨k, rfl, h2, h3⟩
    refine ⟨k + 1, ?_⟩
    induction k generalizing t with
    | zero => simp only [Nat.zero_mul, Nat.add_zero] at h2; simp [writeTime, h2]
    | succ k ih =>
      have h0 := h3 0 (by omega)
      rw [Nat.zero_mul, Nat.add_zero] at h0
      rw [writeTime, if_pos h0]
      have := ih (t + delay) (by rwa [show t + delay + k * delay = t + (k + 1) * delay by ring])
        (fun j hj => by
          have := h3 (j + 1) (by omega)
          rwa [show t + delay + j * delay = t + (j + 1) * delay by ring])
      rw [this]
      congr 1
      ring

/-- C108: a message is written once. -/
theorem C108_once_partial (locked : Nat → Bool) (delay t u v : Nat) (hu : WrittenAt locked delay t u)
    (hv : WrittenAt locked delay t v) : u = v := by
  obtain ⟨k, rfl, h2, h3⟩ := (C108_when_partial _ _ _ _).1 hu
  obtain ⟨k', rfl, h2', h3'⟩ := (C108_when_partial _ _ _ _).1 hv
  rcases Nat.lt_trichotomy k k' with h | rfl | h
  · rw [h3' k h] at h2; cases h2
  · rfl
  · rw [h3 k' h] at h2'; cases h2'

/-- C108: when congestion ends for good, the message is written less than one delay later (or at once, if it is sent later). -/
theorem C108_soon_partial (locked : Nat → Bool) (delay t over : Nat) (hd : 0 < delay) (h : ∀ n, over ≤ n → locked n = false) :
    ∃ u, WrittenAt locked delay t u ∧ t ≤ u ∧ (u = t ∨ u < over + delay) := by
  have hex : ∃ k, locked (t + k * delay) = false := ⟨over, h _ (le_trans (Nat.le_mul_of_pos_right over hd) (Nat.le_add_left _ _))⟩
  refine ⟨t + Nat.find hex * delay, (C108_when_partial _ _ _ _).2 ⟨_, rfl, Nat.find_spec hex, fun j hj => ?_⟩, by omega, ?_⟩
  · simpa using Nat.find_min hex hj
  · rcases hk : Nat.find hex with _ | k
    · left; simp
    · right
      have hm := Nat.find_min hex (m := k) (by omega)
      have : t + k * delay < over := by
        by_contra hc
        exact hm (h _ (by omega))
      rw [show (k + 1) * delay = k * delay + delay by ring]
      omega

/-- C108: but congestion that ends again and again, always between two looks, holds the message back for ever. -/
theorem C108_starved_partial (delay t : Nat) (hd : 1 < delay) : ∃ locked : Nat → Bool,
    (∀ n, ∃ m, n ≤ m ∧ locked m = false) ∧ ∀ u, ¬ WrittenAt locked delay t u := by
  refine ⟨fun n => decide (n % delay = t % delay), fun n => ?_, fun u hu => ?_⟩
  · by_cases hn : n % delay = t % delay
    · refine ⟨n + 1, by omega, ?_⟩
      simp only [decide_eq_false_iff_not]
      intro h1
      have h2 : (n + 1) % delay = n % delay := by rw [h1, hn]
      have h3 := Nat.sub_mod_eq_zero_of_mod_eq h2
      rw [Nat.add_sub_cancel_left, Nat.mod_eq_of_lt hd] at h3
      omega
    · exact ⟨n, le_refl _, by simpa using hn⟩
  · obtain ⟨k, rfl, h2, _⟩ := (C108_when_partial _ _ _ _).1 hu
    simp at h2

/-- Two messages sent at once; and one sent during a congestion of 250 ms, written at the third look. -/
example : WrittenAt (fun _ => false) 100 0 0 ∧ ¬ Apart 100 0 0 ∧ WrittenAt (fun n => decide (n < 250)) 100 0 300 :=
  ⟨⟨1, rfl⟩, by unfold Apart; omega, ⟨4, by simp [writeTime]⟩⟩
