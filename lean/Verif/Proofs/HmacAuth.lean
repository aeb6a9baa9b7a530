import Verif.Model.HmacAuth
import Verif.Spec.HexText
import Verif.Proofs.Int
import Mathlib.Tactic.IntervalCases

/-! # Lemmas about the HMAC strings -/

open Py Spec

namespace HmacAuth

theorem digit_lt {c : Char} {v : Nat} (h : Hex.Digit c v) : v < 16 := by
  rcases h with h | h <;>
  · obtain ⟨hv, _⟩ := List.getElem?_eq_some_iff.1 h
    exact hv

/-- A hexadecimal digit: value, decimal transcription, lower case. -/
theorem intChar16_digit (lib : Lib) {c : Char} {v : Nat} (h : Hex.Digit c v) : intChar16 lib c = .ok v := by
  have hv := digit_lt h
  unfold Hex.Digit Hex.lowerDigits Hex.upperDigits at h
  interval_cases v <;> rcases h with h | h <;> cases h <;> rfl

theorem pair_eq {v : Nat} (h : v < 16) : natToStr (v / 10) ++ natToStr (v % 10) = Hex.pairs.getD v [] := by
  interval_cases v <;> decide

theorem hexToDigitsLoop_text (lib : Lib) {s : Str} {vs : List Nat} (h : Hex.Text s vs) (out : Str) :
    hexToDigitsLoop lib out s = .ok (out ++ Hex.transcription vs) := by
  induction h generalizing out with
  | nil => simp [hexToDigitsLoop, Hex.transcription]
  | cons hd _ ih =>
    rw [hexToDigitsLoop, intChar16_digit lib hd, ok_bind, ih]
    rw [List.append_assoc out, pair_eq (digit_lt hd)]
    simp [Hex.transcription]

theorem hexToDigits_text (lib : Lib) {s : Str} {vs : List Nat} (h : Hex.Text s vs) :
    hexToDigits lib s = .ok (Hex.transcription vs) := by
  rw [hexToDigits, hexToDigitsLoop_text lib h, List.nil_append]

/-- Text without a decoding fails. -/
theorem hexToDigitsLoop_bad (lib : Lib) (s : Str) (out : Str) (c : Char) (hc : c ∈ s)
    (h : intChar16 lib c = .error .valueError) : hexToDigitsLoop lib out s = .error .valueError := by
  induction s generalizing out with
  | nil => simp at hc
  | cons d s ih =>
    rw [hexToDigitsLoop]
    cases hd : intChar16 lib d with
    | error e =>
      rw [error_bind]
      congr 1
      unfold intChar16 intChar at hd
      split_ifs at hd <;> try cases hd
      · rfl
      · split at hd <;> cases hd; rfl
    | ok v =>
      rw [ok_bind]
      rcases List.mem_cons.1 hc with rfl | hc
      · rw [h] at hd; cases hd
      · exact ih _ hc

theorem text_lt {s : Str} {vs : List Nat} (h : Hex.Text s vs) : ∀ v ∈ vs, v < 16 := by
  induction h with
  | nil => simp
  | cons hd _ ih =>
    intro v hv
    rcases List.mem_cons.1 hv with rfl | hv
    · exact digit_lt hd
    · exact ih v hv

theorem text_length {s : Str} {vs : List Nat} (h : Hex.Text s vs) : vs.length = s.length := by
  induction h with
  | nil => rfl
  | cons _ _ ih => simp [ih]

theorem transcription_cons (v : Nat) (vs : List Nat) :
    Hex.transcription (v :: vs) = Hex.pairs.getD v [] ++ Hex.transcription vs := rfl

theorem transcription_length {vs : List Nat} (h : ∀ v ∈ vs, v < 16) :
    (Hex.transcription vs).length = 2 * vs.length := by
  induction vs with
  | nil => rfl
  | cons v vs ih =>
    have hv : (Hex.pairs.getD v []).length = 2 := by
      have := h v (by simp)
      interval_cases v <;> rfl
    rw [transcription_cons, List.length_append, ih (fun v hv => h v (by simp [hv])), hv, List.length_cons]
    omega

theorem transcription_digits {vs : List Nat} (h : ∀ v ∈ vs, v < 16) : ∀ c ∈ Hex.transcription vs, isDigit c = true := by
  induction vs with
  | nil => intro c hc; simp [Hex.transcription] at hc
  | cons v vs ih =>
    intro c hc
    rw [transcription_cons, List.mem_append] at hc
    rcases hc with hc | hc
    · have := h v (by simp)
      interval_cases v <;> revert c <;> decide
    · exact ih (fun v hv => h v (by simp [hv])) c hc

theorem intChar_digit (lib : Lib) {c : Char} (h : isDigit c = true) : intChar lib c = .ok (digitVal c) := by
  unfold intChar; rw [if_pos h]

/-- The two decimal characters of a value below 16 decode to the value's hexadecimal digit. -/
theorem decode_pair (lib : Lib) {v : Nat} (h : v < 16) (out rest : Str) :
    digitsToHexLoop lib out (Hex.pairs.getD v [] ++ rest) =
      digitsToHexLoop lib (out ++ [Hex.lowerDigits.getD v '?']) rest := by
  interval_cases v <;> rfl

theorem digitsToHexLoop_transcription (lib : Lib) {vs : List Nat} (h : ∀ v ∈ vs, v < 16) (out : Str) :
    digitsToHexLoop lib out (Hex.transcription vs) = .ok (out ++ Hex.lower vs) := by
  induction vs generalizing out with
  | nil => simp [Hex.transcription, digitsToHexLoop, Hex.lower]
  | cons v vs ih =>
    rw [transcription_cons, decode_pair lib (h v (by simp)), ih (fun v hv => h v (by simp [hv]))]
    simp [Hex.lower]

theorem lower_text {vs : List Nat} (h : ∀ v ∈ vs, v < 16) : Hex.Text (Hex.lower vs) vs := by
  induction vs with
  | nil => exact .nil
  | cons v vs ih =>
    refine .cons (.inl ?_) (ih (fun v hv => h v (by simp [hv])))
    have := h v (by simp)
    interval_cases v <;> rfl

/-! ## From digits to hexadecimal and back -/

theorem digitsToHexLoop_out (lib : Lib) : ∀ s out : Str,
    digitsToHexLoop lib out s = (digitsToHexLoop lib [] s).map (out ++ ·)
  | [], out => by simp [digitsToHexLoop]
  | [c], out => by
    unfold digitsToHexLoop
    cases intChar lib c <;> rfl
  | c :: d :: s, out => by
    rw [digitsToHexLoop, digitsToHexLoop]
    cases intChar lib c with
    | error => rfl
    | ok a =>
      cases intChar lib d with
      | error => rfl
      | ok b =>
        simp only [ok_bind]
        rw [digitsToHexLoop_out lib s, digitsToHexLoop_out lib s ([] ++ hexOf (a * 10 + b))]
        cases digitsToHexLoop lib [] s <;> simp

theorem hexChar_digit {v : Nat} (h : v < 16) : Hex.Digit (hexChar v) v := by
  left; interval_cases v <;> rfl

/-- The hexadecimal digit values written by `hex(value)[2:]`. -/
def nibbles (v : Nat) : List Nat := if v < 16 then [v] else [v / 16, v % 16]

theorem hexOf_text {v : Nat} (h : v < 256) : Hex.Text (hexOf v) (nibbles v) := by
  unfold hexOf nibbles
  split_ifs with h1
  · exact .cons (hexChar_digit h1) .nil
  · exact .cons (hexChar_digit (by omega)) (.cons (hexChar_digit (by omega)) .nil)

theorem text_append {s t : Str} {vs ws : List Nat} (h1 : Hex.Text s vs) (h2 : Hex.Text t ws) :
    Hex.Text (s ++ t) (vs ++ ws) := by
  induction h1 with
  | nil => exact h2
  | cons hd _ ih => exact .cons hd ih

/-- Decoding a digit string of even length. -/
theorem digitsToHex_digits (lib : Lib) : ∀ d : Str, (∀ c ∈ d, isDigit c = true) → d.length % 2 = 0 →
    ∃ h, digitsToHexLoop lib [] d = .ok h ∧ Hex.Text h ((Hex.pairValues d).flatMap nibbles)
  | [], _, _ => ⟨[], rfl, .nil⟩
  | [_], _, h => by simp at h
  | c :: d :: s, hd, hl => by
    obtain ⟨h, e, t⟩ := digitsToHex_digits lib s (fun c hc => hd c (by simp [hc])) (by simp only [List.length_cons] at hl; omega)
    have h1 := hd c (by simp)
    have h2 := hd d (by simp)
    have l1 := digitVal_lt h1
    have l2 := digitVal_lt h2
    refine ⟨hexOf (digitVal c * 10 + digitVal d) ++ h, ?_, ?_⟩
    · rw [digitsToHexLoop, intChar_digit lib h1, intChar_digit lib h2, ok_bind, ok_bind, digitsToHexLoop_out, e]
      simp
    · rw [Hex.pairValues, List.flatMap_cons, digit_eq_digitVal h1, digit_eq_digitVal h2, Nat.mul_comm 10]
      exact text_append (hexOf_text (by omega)) t

/-- An odd number of digits. -/
theorem digitsToHex_odd (lib : Lib) : ∀ d out : Str, (∀ c ∈ d, isDigit c = true) → d.length % 2 = 1 →
    digitsToHexLoop lib out d = .error .indexError
  | [], _, _, h => by simp at h
  | [c], out, hd, _ => by
    rw [digitsToHexLoop, intChar_digit lib (hd c (by simp))]; rfl
  | c :: d :: s, out, hd, hl => by
    rw [digitsToHexLoop, intChar_digit lib (hd c (by simp)), intChar_digit lib (hd d (by simp)), ok_bind, ok_bind]
    exact digitsToHex_odd lib s _ (fun c hc => hd c (by simp [hc])) (by simp at hl; omega)

theorem pairValues_length : ∀ d : Str, (Hex.pairValues d).length = d.length / 2
  | [] => rfl
  | [_] => by simp [Hex.pairValues]
  | c :: d :: s => by
    rw [Hex.pairValues, List.length_cons, pairValues_length s]
    simp only [List.length_cons]
    omega

theorem nibbles_length (v : Nat) : (nibbles v).length = if v < 16 then 1 else 2 := by
  unfold nibbles; split_ifs <;> rfl

theorem flatMap_nibbles_length (vs : List Nat) :
    vs.length ≤ (vs.flatMap nibbles).length ∧
      ((vs.flatMap nibbles).length = vs.length → ∀ v ∈ vs, v < 16) := by
  induction vs with
  | nil => simp
  | cons v vs ih =>
    rw [List.flatMap_cons, List.length_append, List.length_cons, nibbles_length]
    split_ifs with h
    · refine ⟨by omega, ?_⟩
      intro e w hw
      rcases List.mem_cons.1 hw with rfl | hw
      · exact h
      · exact ih.2 (by omega) w hw
    · refine ⟨by omega, ?_⟩
      intro e; exfalso; omega

theorem flatMap_nibbles_small {vs : List Nat} (h : ∀ v ∈ vs, v < 16) : vs.flatMap nibbles = vs := by
  induction vs with
  | nil => rfl
  | cons v vs ih =>
    rw [List.flatMap_cons, ih (fun w hw => h w (by simp [hw]))]
    simp [nibbles, h v (by simp)]

theorem nibbles_lt {vs : List Nat} (h : ∀ v ∈ vs, v < 256) : ∀ v ∈ vs.flatMap nibbles, v < 16 := by
  intro v hv
  obtain ⟨w, hw, hv⟩ := List.mem_flatMap.1 hv
  have := h w hw
  unfold nibbles at hv
  split_ifs at hv with h1 <;> simp at hv <;> omega

theorem transcription_pairValues : ∀ d : Str, (∀ c ∈ d, isDigit c = true) → d.length % 2 = 0 →
    (∀ v ∈ Hex.pairValues d, v < 16) → Hex.transcription (Hex.pairValues d) = d
  | [], _, _, _ => rfl
  | [_], _, h, _ => by simp at h
  | c :: d :: s, hd, hl, hv => by
    have ih := transcription_pairValues s (fun c hc => hd c (by simp [hc])) (by simp only [List.length_cons] at hl; omega)
      (fun v h => hv v (by simp [Hex.pairValues, h]))
    have h1 := hd c (by simp)
    have h2 := hd d (by simp)
    have l1 := digitVal_lt h1
    have l2 := digitVal_lt h2
    have hv := hv (10 * Spec.digit c + Spec.digit d) (by simp [Hex.pairValues])
    rw [Hex.pairValues, transcription_cons, ih, ← pair_eq hv]
    rw [digit_eq_digitVal h1, digit_eq_digitVal h2]
    have e1 : (10 * digitVal c + digitVal d) / 10 = digitVal c := by omega
    have e2 : (10 * digitVal c + digitVal d) % 10 = digitVal d := by omega
    have e3 : ∀ c, isDigit c = true → natToStr (digitVal c) = [c] := by
      intro c h
      rw [natToStr_eq, if_pos (digitVal_lt h), digitChar_digitVal h]
    rw [e1, e2, e3 c h1, e3 d h2]
    rfl

theorem pairValues_lt : ∀ d : Str, (∀ c ∈ d, isDigit c = true) → ∀ v ∈ Hex.pairValues d, v < 256
  | [], _ => by simp [Hex.pairValues]
  | [_], _ => by simp [Hex.pairValues]
  | c :: d :: s, hd => by
    intro v hv
    rw [Hex.pairValues, List.mem_cons] at hv
    rcases hv with rfl | hv
    · have h1 := hd c (by simp)
      have h2 := hd d (by simp)
      rw [digit_eq_digitVal h1, digit_eq_digitVal h2]
      have l1 := digitVal_lt h1
      have l2 := digitVal_lt h2
      omega
    · exact pairValues_lt s (fun c hc => hd c (by simp [hc])) v hv

end HmacAuth
