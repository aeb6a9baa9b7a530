import Verif.Proofs.Regex
import Verif.Spec.Numeral
import Mathlib.Data.List.Induction
import Mathlib.Tactic.Ring
import Mathlib.Tactic.Linarith

/-! # Decimal numerals -/

open Py Spec

namespace Py

theorem digitVal_digitChar {d : Nat} (h : d < 10) : digitVal (digitChar d) = d := by
  interval_cases d <;> decide

theorem isDigit_digitChar {d : Nat} (h : d < 10) : isDigit (digitChar d) = true := by
  interval_cases d <;> decide

theorem digitChar_digitVal {c : Char} (h : isDigit c = true) : digitChar (digitVal c) = c := by
  rw [isDigit_iff] at h
  simp only [List.mem_cons, List.not_mem_nil, or_false] at h
  rcases h with rfl | rfl | rfl | rfl | rfl | rfl | rfl | rfl | rfl | rfl <;> decide

theorem digitVal_lt {c : Char} (h : isDigit c = true) : digitVal c < 10 := by
  rw [isDigit_iff] at h
  simp only [List.mem_cons, List.not_mem_nil, or_false] at h
  rcases h with rfl | rfl | rfl | rfl | rfl | rfl | rfl | rfl | rfl | rfl <;> decide

theorem digit_eq_digitVal {c : Char} (h : isDigit c = true) : Spec.digit c = digitVal c := by
  rw [isDigit_iff] at h
  simp only [List.mem_cons, List.not_mem_nil, or_false] at h
  rcases h with rfl | rfl | rfl | rfl | rfl | rfl | rfl | rfl | rfl | rfl <;> decide

theorem strVal_append_singleton (s : Str) (c : Char) : strVal (s ++ [c]) = strVal s * 10 + digitVal c := by
  simp [strVal]

theorem value_append_singleton (s : Str) (c : Char) : value (s ++ [c]) = 10 * value s + Spec.digit c := by
  simp [value]; omega

theorem value_eq_strVal {s : Str} (h : Digits s) : value s = strVal s := by
  induction s using List.reverseRecOn with
  | nil => rfl
  | append_singleton s c ih =>
    rw [value_append_singleton, strVal_append_singleton, ih (fun x hx => h x (by simp [hx])),
      digit_eq_digitVal ((digits_iff _).mp h c (by simp))]
    omega

/-- Unfolding rule for numerals. -/
theorem natToStrAux_eq {f n : Nat} (h : n < f) :
    natToStrAux f n = if n < 10 then [digitChar n] else natToStrAux (n / 10 + 1) (n / 10) ++ [digitChar (n % 10)] := by
  have key : ∀ f g n, n < f → n < g → natToStrAux f n = natToStrAux g n := by
    intro f
    induction f with
    | zero => intro g n h; omega
    | succ f ih =>
      intro g n h1 h2
      cases g with
      | zero => omega
      | succ g =>
        simp only [natToStrAux]
        split
        · rfl
        · rw [ih g (n / 10) (by omega) (by omega)]
  cases f with
  | zero => omega
  | succ f =>
    rw [natToStrAux]
    split
    · rfl
    · rw [key f (n / 10 + 1) (n / 10) (by omega) (by omega)]

theorem natToStr_eq (n : Nat) :
    natToStr n = if n < 10 then [digitChar n] else natToStr (n / 10) ++ [digitChar (n % 10)] := by
  rw [natToStr, natToStrAux_eq (by omega)]; rfl

theorem natToStr_ne_nil (n : Nat) : natToStr n ≠ [] := by
  rw [natToStr_eq]; split <;> simp

theorem natToStr_digits (n : Nat) : Digits (natToStr n) := by
  rw [digits_iff]
  induction n using Nat.strongRecOn with
  | _ n ih =>
    rw [natToStr_eq]
    split
    · rename_i h
      intro c hc
      simp at hc; subst hc; exact isDigit_digitChar h
    · intro c hc
      rcases List.mem_append.mp hc with hc | hc
      · exact ih (n / 10) (by omega) c hc
      · simp at hc; subst hc; exact isDigit_digitChar (by omega)

theorem strVal_natToStr (n : Nat) : strVal (natToStr n) = n := by
  induction n using Nat.strongRecOn with
  | _ n ih =>
    rw [natToStr_eq]
    split
    · rename_i h
      simp [strVal, digitVal_digitChar h]
    · rw [strVal_append_singleton, ih (n / 10) (by omega), digitVal_digitChar (by omega)]
      omega

theorem natToStr_head (n : Nat) : (natToStr n).head? = some '0' → natToStr n = ['0'] := by
  induction n using Nat.strongRecOn with
  | _ n ih =>
    rw [natToStr_eq]
    split
    · simp
    · rename_i h
      intro hh
      exfalso
      have hne := natToStr_ne_nil (n / 10)
      have h2 : (natToStr (n / 10)).head? = some '0' := by
        cases hx : natToStr (n / 10) with
        | nil => exact absurd hx hne
        | cons c s => rw [hx] at hh; simpa using hh
      have h3 := ih (n / 10) (by omega) h2
      have h4 := strVal_natToStr (n / 10)
      rw [h3] at h4
      have h5 : strVal ['0'] = 0 := by decide
      omega

theorem numeral_natToStr (n : Nat) : Numeral (natToStr n) n :=
  ⟨natToStr_ne_nil n, natToStr_digits n, by rw [value_eq_strVal (natToStr_digits n), strVal_natToStr],
    natToStr_head n⟩

theorem strVal_cons_aux (s : Str) (a : Nat) :
    s.foldl (fun a c => a * 10 + digitVal c) a = a * 10 ^ s.length + strVal s := by
  induction s generalizing a with
  | nil => simp [strVal]
  | cons c s ih =>
    simp only [List.foldl_cons, strVal, List.length_cons]
    rw [ih, ih (0 * 10 + digitVal c)]
    ring

theorem strVal_cons (c : Char) (s : Str) : strVal (c :: s) = digitVal c * 10 ^ s.length + strVal s := by
  rw [strVal, List.foldl_cons, strVal_cons_aux]; simp

theorem strVal_lt {s : Str} (h : Digits s) : strVal s < 10 ^ s.length := by
  induction s with
  | nil => simp [strVal]
  | cons c s ih =>
    have := ih (fun x hx => h x (by simp [hx]))
    have h2 := digitVal_lt ((digits_iff _).mp h c (by simp))
    rw [strVal_cons, List.length_cons, pow_succ]
    have : digitVal c * 10 ^ s.length ≤ 9 * 10 ^ s.length := Nat.mul_le_mul_right _ (by omega)
    omega

/-- Texts of digits of the same length with the same value are equal. -/
theorem strVal_inj_len {s t : Str} (hs : Digits s) (ht : Digits t) (hl : s.length = t.length)
    (h : strVal s = strVal t) : s = t := by
  induction s generalizing t with
  | nil => cases t with
    | nil => rfl
    | cons => simp at hl
  | cons c s ih => cases t with
    | nil => simp at hl
    | cons d t =>
      simp at hl
      rw [strVal_cons, strVal_cons, hl] at h
      have h1 := strVal_lt (s := s) (fun x hx => hs x (by simp [hx]))
      have h2 := strVal_lt (s := t) (fun x hx => ht x (by simp [hx]))
      rw [hl] at h1
      have hp : 0 < 10 ^ t.length := Nat.pow_pos (by norm_num)
      have hc : digitVal c = digitVal d := by
        have e1 : (digitVal c * 10 ^ t.length + strVal s) / 10 ^ t.length = digitVal c := by
          rw [Nat.add_comm, Nat.add_mul_div_right _ _ hp, Nat.div_eq_of_lt h1]; simp
        have e2 : (digitVal d * 10 ^ t.length + strVal t) / 10 ^ t.length = digitVal d := by
          rw [Nat.add_comm, Nat.add_mul_div_right _ _ hp, Nat.div_eq_of_lt h2]; simp
        rw [← e1, ← e2, h]
      have hcd : c = d := by
        rw [← digitChar_digitVal ((digits_iff _).mp hs c (by simp)),
          ← digitChar_digitVal ((digits_iff _).mp ht d (by simp)), hc]
      rw [hc] at h
      rw [hcd, ih (fun x hx => hs x (by simp [hx])) (fun x hx => ht x (by simp [hx])) hl (by omega)]

theorem numeral_lower {s : Str} (h : Digits s) (hne : s ≠ []) (h0 : s.head? = some '0' → s = ['0']) :
    s = ['0'] ∨ 10 ^ (s.length - 1) ≤ strVal s := by
  cases s with
  | nil => exact absurd rfl hne
  | cons c s =>
    by_cases hc : c = '0'
    · left; exact h0 (by simp [hc])
    · right
      rw [strVal_cons]
      have hd : digitVal c ≠ 0 := by
        intro e
        apply hc
        rw [← digitChar_digitVal ((digits_iff _).mp h c (by simp)), e]; rfl
      have : 1 * 10 ^ s.length ≤ digitVal c * 10 ^ s.length := Nat.mul_le_mul_right _ (by omega)
      rw [Nat.one_mul] at this
      simp only [List.length_cons, Nat.add_sub_cancel]
      omega

/-- Canonical numerals are unique. -/
theorem numeral_unique {s t : Str} {n : Nat} (hs : Numeral s n) (ht : Numeral t n) : s = t := by
  obtain ⟨s1, s2, s3, s4⟩ := hs
  obtain ⟨t1, t2, t3, t4⟩ := ht
  rw [value_eq_strVal s2] at s3
  rw [value_eq_strVal t2] at t3
  have key : ∀ {s t : Str}, s ≠ [] → t ≠ [] → Digits s → Digits t → strVal s = n → strVal t = n →
      (s.head? = some '0' → s = ['0']) → (t.head? = some '0' → t = ['0']) → s.length ≤ t.length := by
    intro s t s1 t1 s2 t2 s3 t3 s4 t4
    by_contra hlt
    push Not at hlt
    have hts := strVal_lt t2
    rcases numeral_lower s2 s1 s4 with rfl | h
    · simp at hlt; exact t1 (by simpa using hlt)
    · have : 10 ^ t.length ≤ 10 ^ (s.length - 1) := Nat.pow_le_pow_right (by norm_num) (by omega)
      omega
  exact strVal_inj_len s2 t2 (le_antisymm (key s1 t1 s2 t2 s3 t3 s4 t4) (key t1 s1 t2 s2 t3 s3 t4 s4))
    (by rw [s3, t3])

theorem numeral_iff (s : Str) (n : Nat) : Numeral s n ↔ s = natToStr n :=
  ⟨fun h => numeral_unique h (numeral_natToStr n), fun h => h ▸ numeral_natToStr n⟩

theorem natToStr_inj {m n : Nat} (h : natToStr m = natToStr n) : m = n := by
  rw [← strVal_natToStr m, h, strVal_natToStr]

/-! ### `int()` on digit strings -/

theorem scanDigits_true {s : Str} (h : Digits s) : scanDigits true s = some s := by
  induction s with
  | nil => rfl
  | cons c s ih =>
    have hc := (digits_iff _).mp h c (by simp)
    simp [scanDigits, hc, ih (fun x hx => h x (by simp [hx]))]

theorem scanDigits_false {s : Str} (h : Digits s) (hne : s ≠ []) : scanDigits false s = some s := by
  cases s with
  | nil => exact absurd rfl hne
  | cons c s =>
    have hc := (digits_iff _).mp h c (by simp)
    simp [scanDigits, hc, scanDigits_true (s := s) (fun x hx => h x (by simp [hx]))]

theorem pyNat_digits {s : Str} (h : Digits s) (hne : s ≠ []) (hl : s.length ≤ maxStrDigits) :
    pyNat s = .ok (strVal s) := by
  simp [pyNat, scanDigits_false h hne, hl]

theorem isIntSpace_of_tagChar {c : Char} (h : TagChar c) : isIntSpace c = false := by
  simp only [TagChar, List.mem_cons, List.not_mem_nil, or_false] at h
  rcases h with rfl | rfl | rfl | rfl | rfl | rfl | rfl | rfl | rfl | rfl | rfl <;> decide

theorem intStrip_tag {s : Str} (h : TagText s) :
    ((s.dropWhile isIntSpace).reverse.dropWhile isIntSpace).reverse = s := by
  have key : ∀ t : Str, TagText t → t.dropWhile isIntSpace = t := by
    intro t ht
    cases t with
    | nil => rfl
    | cons c t => simp [isIntSpace_of_tagChar (ht c (by simp))]
  rw [key s h, key s.reverse (fun c hc => h c (List.mem_reverse.mp hc)), List.reverse_reverse]

theorem pyInt_tag {s : Str} (h : TagText s) : pyInt s = (pyNat s).map (fun n => (n : Int)) := by
  unfold pyInt
  simp only [intStrip_tag h]
  split
  · exact absurd (h '-' (by simp)) (by simp [TagChar])
  · exact absurd (h '+' (by simp)) (by simp [TagChar])
  · rfl

/-- `int(s)` of a nonempty text of at most 4300 digits. -/
theorem pyInt_digits {s : Str} (h : Digits s) (hne : s ≠ []) (hl : s.length ≤ maxStrDigits) :
    pyInt s = .ok (strVal s : Int) := by
  rw [pyInt_tag (TagText.of_digits h), pyNat_digits h hne hl]; rfl

theorem scanDigits_hash {b : Bool} {s : Str} (h : '#' ∈ s) (ht : TagText s) : scanDigits b s = none := by
  induction s generalizing b with
  | nil => simp at h
  | cons c s ih =>
    obtain ⟨hc, hs⟩ := TagText.cons.mp ht
    have hu : c ≠ '_' := by rintro rfl; revert hc; simp [TagChar]
    by_cases e : c = '#'
    · subst e
      have hd : isDigit '#' = false := by decide
      simp [scanDigits, hd]
    · have h' : '#' ∈ s := by
        rcases List.mem_cons.mp h with e' | h'
        · exact absurd e'.symm e
        · exact h'
      simp [scanDigits, ih h' hs, hu]

/-- `int(s)` of a tag text with a `#` raises `ValueError`. -/
theorem pyInt_hash {s : Str} (h : '#' ∈ s) (ht : TagText s) : pyInt s = .error .valueError := by
  rw [pyInt_tag ht, pyNat, scanDigits_hash h ht]; rfl

theorem pyInt_nil : pyInt [] = .error .valueError := rfl

theorem pyInt_natToStr {n : Nat} (h : (natToStr n).length ≤ maxStrDigits) : pyInt (natToStr n) = .ok (n : Int) := by
  rw [pyInt_digits (natToStr_digits n) (natToStr_ne_nil n) h, strVal_natToStr]

/-- Numbers below `10 ^ k` have at most `k` digits (`k ≥ 1`). -/
theorem natToStr_length_le {n k : Nat} (hk : 0 < k) (h : n < 10 ^ k) : (natToStr n).length ≤ k := by
  rcases numeral_lower (natToStr_digits n) (natToStr_ne_nil n) (natToStr_head n) with e | e
  · rw [e]; exact hk
  · by_contra hlt
    push Not at hlt
    rw [strVal_natToStr] at e
    have : 10 ^ k ≤ 10 ^ ((natToStr n).length - 1) := Nat.pow_le_pow_right (by norm_num) (by omega)
    omega

end Py
