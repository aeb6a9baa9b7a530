import Verif.Model.OpenAuth
import Verif.Spec.OpenRegister
import Verif.Proofs.Int
import Mathlib.Tactic.IntervalCases

/-! # Lemmas about the OPEN password algorithm -/

open Py Spec

namespace OpenAuth

theorem land_cast (a b : Nat) : Int.land (a : Int) (b : Int) = ((a &&& b : Nat) : Int) := rfl
theorem lor_cast (a b : Nat) : Int.lor (a : Int) (b : Int) = ((a ||| b : Nat) : Int) := rfl
theorem mul_cast (a k : Nat) : (a : Int) * 2 ^ k = ((a <<< k : Nat) : Int) := by
  rw [Nat.shiftLeft_eq]; push_cast; rfl
theorem div_cast (a k : Nat) : (a : Int) / 2 ^ k = ((a >>> k : Nat) : Int) := by
  rw [Nat.shiftRight_eq_div_pow]; push_cast; rfl

theorem getLsbD_join (b3 b2 b1 b0 : BitVec 8) (i : Nat) :
    (Open.join b3 b2 b1 b0).getLsbD i =
      if i < 8 then b0.getLsbD i else if i < 16 then b1.getLsbD (i - 8)
      else if i < 24 then b2.getLsbD (i - 16) else b3.getLsbD (i - 24) := by
  unfold Open.join
  have : ((b3 ++ b2 ++ b1 ++ b0 : BitVec (8 + 8 + 8 + 8)) : BitVec 32).getLsbD i =
    (b3 ++ b2 ++ b1 ++ b0 : BitVec (8 + 8 + 8 + 8)).getLsbD i := rfl
  rw [this, BitVec.getLsbD_append, BitVec.getLsbD_append, BitVec.getLsbD_append]
  split_ifs <;> first | rfl | omega

theorem getLsbD_byte (r : BitVec 32) (k i : Nat) :
    (Open.byte r k).getLsbD i = (decide (i < 8) && r.getLsbD (8 * k + i)) := by
  unfold Open.byte
  rw [BitVec.getLsbD_extractLsb']

theorem join_byte (r : BitVec 32) : Open.join (Open.byte r 3) (Open.byte r 2) (Open.byte r 1) (Open.byte r 0) = r := by
  apply BitVec.eq_of_getLsbD_eq
  intro i hi
  rw [getLsbD_join]
  simp only [getLsbD_byte]
  split_ifs with h1 h2 h3
  · simp [h1]
  · have : 8 * 1 + (i - 8) = i := by omega
    simp [this]; omega
  · have : 8 * 2 + (i - 16) = i := by omega
    simp [this]; omega
  · have : 8 * 3 + (i - 24) = i := by omega
    simp [this]; omega

theorem byte_join (b3 b2 b1 b0 : BitVec 8) : 
    Open.byte (Open.join b3 b2 b1 b0) 0 = b0 ∧ Open.byte (Open.join b3 b2 b1 b0) 1 = b1 ∧
    Open.byte (Open.join b3 b2 b1 b0) 2 = b2 ∧ Open.byte (Open.join b3 b2 b1 b0) 3 = b3 := by
  refine ⟨?_, ?_, ?_, ?_⟩ <;>
  · apply BitVec.eq_of_getLsbD_eq
    intro i hi
    rw [getLsbD_byte, getLsbD_join]
    split_ifs <;> first | omega | simp [hi]

theorem rot_inv (r : BitVec 32) (k : Nat) (hk : k < 32) :
    (r.rotateLeft k).rotateRight k = r ∧ (r.rotateRight k).rotateLeft k = r := by
  constructor
  · apply BitVec.eq_of_getLsbD_eq
    intro i hi
    simp only [BitVec.getLsbD_rotateLeft, BitVec.getLsbD_rotateRight, Nat.mod_eq_of_lt hk]
    by_cases h : i < 32 - k
    · have e : k + i < 32 := by omega
      simp [h, e]
    · have e : i - (32 - k) < k := by omega
      have e' : 32 - k + (i - (32 - k)) = i := by omega
      simp [h, hi, e, e']
  · apply BitVec.eq_of_getLsbD_eq
    intro i hi
    simp only [BitVec.getLsbD_rotateLeft, BitVec.getLsbD_rotateRight, Nat.mod_eq_of_lt hk]
    by_cases h : i < k
    · have e : 32 - k + i < 32 := by omega
      simp [h, e]
    · have e : i - k < 32 - k := by omega
      have e' : k + (i - k) = i := by omega
      simp [h, hi, e, e']

theorem undo_op (c : Char) (r : BitVec 32) : Open.undo c (Open.op c r) = r := by
  unfold Open.undo Open.op
  split_ifs <;> first
    | with_reducible rfl
    | with_reducible exact (rot_inv r _ (by omega)).1
    | with_reducible exact (rot_inv r _ (by omega)).2
    | rw [BitVec.not_not]
    | simp only [byte_join, join_byte]

theorem op_undo (c : Char) (r : BitVec 32) : Open.op c (Open.undo c r) = r := by
  unfold Open.undo Open.op
  split_ifs <;> first
    | with_reducible rfl
    | with_reducible exact (rot_inv r _ (by omega)).1
    | with_reducible exact (rot_inv r _ (by omega)).2
    | rw [BitVec.not_not]
    | simp only [byte_join, join_byte]

/-- The masked and merged result of an iteration, once the password is loaded. -/
def out (c : Char) (x : Int) : Int :=
  let num1 := Int.land (cascade c x).1 0xFFFFFFFF
  if c ≠ '0' ∧ c ≠ '9' then Int.lor num1 (Int.land (cascade c x).2 0xFFFFFFFF) else num1

theorem step_eq (pw : Int) (s : State) (c : Char) :
    step pw s c = ⟨s.start && decide (c = '0'), out c (if c ≠ '0' ∧ s.start then pw else s.num2),
      out c (if c ≠ '0' ∧ s.start then pw else s.num2)⟩ := by
  unfold step out
  by_cases h : c = '0' <;> simp [h]

theorem natCast_ext {a : Nat} {b : BitVec 32} (h1 : a < 2 ^ 32) (h : ∀ i < 32, a.testBit i = b.getLsbD i) : a = b.toNat := by
  have : BitVec.ofNat 32 a = b := by
    apply BitVec.eq_of_getLsbD_eq
    intro i hi
    rw [BitVec.getLsbD_ofNat]
    simp [hi, h i hi]
  rw [← this, BitVec.toNat_ofNat, Nat.mod_eq_of_lt h1]

theorem toNat_testBit (b : BitVec 32) (i : Nat) : b.toNat.testBit i = b.getLsbD i := rfl

theorem mask_lt (a : Nat) : a &&& 4294967295 < 2 ^ 32 := by
  have := @Nat.and_le_right a 4294967295; omega

theorem mask_testBit (n k i : Nat) : ((2 ^ n - 1) <<< k).testBit i = (decide (k ≤ i) && decide (i < n + k)) := by
  rw [Nat.testBit_shiftLeft, Nat.testBit_two_pow_sub_one]
  by_cases h : k ≤ i <;> simp [h]
  omega

theorem mask80 (i : Nat) : Nat.testBit 0xFFFFFF80 i = (decide (7 ≤ i) && decide (i < 32)) := mask_testBit 25 7 i
theorem maskF0 (i : Nat) : Nat.testBit 0xFFFFFFF0 i = (decide (4 ≤ i) && decide (i < 32)) := mask_testBit 28 4 i
theorem maskF8 (i : Nat) : Nat.testBit 0xFFFFFFF8 i = (decide (3 ≤ i) && decide (i < 32)) := mask_testBit 29 3 i
theorem maskFF (i : Nat) : Nat.testBit 0xFFFFFFFF i = (decide (0 ≤ i) && decide (i < 32)) := mask_testBit 32 0 i
theorem maskB0 (i : Nat) : Nat.testBit 0xFF i = (decide (0 ≤ i) && decide (i < 8)) := mask_testBit 8 0 i
theorem maskB1 (i : Nat) : Nat.testBit 0xFF00 i = (decide (8 ≤ i) && decide (i < 16)) := mask_testBit 8 8 i
theorem maskB2 (i : Nat) : Nat.testBit 0xFF0000 i = (decide (16 ≤ i) && decide (i < 24)) := mask_testBit 8 16 i
theorem maskB3 (i : Nat) : Nat.testBit 0xFF000000 i = (decide (24 ≤ i) && decide (i < 32)) := mask_testBit 8 24 i
theorem maskB01 (i : Nat) : Nat.testBit 0xFFFF i = (decide (0 ≤ i) && decide (i < 16)) := mask_testBit 16 0 i

/-- Compare an iteration with the register operation bit by bit. -/
macro "open_case" : tactic => `(tactic| (
  simp only [out, cascade, Open.op]
  simp (decide := true) only [if_true, ne_eq, reduceCtorEq, if_false]
  simp only [show (4294967295 : Int) = ((4294967295 : Nat) : Int) from rfl,
    show (4294967168 : Int) = ((4294967168 : Nat) : Int) from rfl,
    show (4294967280 : Int) = ((4294967280 : Nat) : Int) from rfl,
    show (4294967288 : Int) = ((4294967288 : Nat) : Int) from rfl,
    show (65280 : Int) = ((65280 : Nat) : Int) from rfl, show (255 : Int) = ((255 : Nat) : Int) from rfl,
    show (16711680 : Int) = ((16711680 : Nat) : Int) from rfl, show (65535 : Int) = ((65535 : Nat) : Int) from rfl,
    show (4278190080 : Int) = ((4278190080 : Nat) : Int) from rfl,
    land_cast, mul_cast, div_cast, lor_cast]
  congr 1
  apply natCast_ext
  · apply Nat.or_lt_two_pow <;> apply mask_lt
  · intro i hi
    simp only [Nat.testBit_or, Nat.testBit_and, Nat.testBit_shiftLeft, Nat.testBit_shiftRight,
      toNat_testBit, BitVec.getLsbD_rotateRight, BitVec.getLsbD_rotateLeft, getLsbD_join, getLsbD_byte,
      mask80, maskF0, maskF8, maskFF, maskB0, maskB1, maskB2, maskB3, maskB01]
    interval_cases i <;> simp))

theorem out1 (b : BitVec 32) : out '1' (b.toNat : Int) = ((Open.op '1' b).toNat : Int) := by open_case
theorem out2 (b : BitVec 32) : out '2' (b.toNat : Int) = ((Open.op '2' b).toNat : Int) := by open_case
theorem out3 (b : BitVec 32) : out '3' (b.toNat : Int) = ((Open.op '3' b).toNat : Int) := by open_case
theorem out4 (b : BitVec 32) : out '4' (b.toNat : Int) = ((Open.op '4' b).toNat : Int) := by open_case
theorem out5 (b : BitVec 32) : out '5' (b.toNat : Int) = ((Open.op '5' b).toNat : Int) := by open_case
theorem out6 (b : BitVec 32) : out '6' (b.toNat : Int) = ((Open.op '6' b).toNat : Int) := by open_case
theorem out7 (b : BitVec 32) : out '7' (b.toNat : Int) = ((Open.op '7' b).toNat : Int) := by open_case
theorem out8 (b : BitVec 32) : out '8' (b.toNat : Int) = ((Open.op '8' b).toNat : Int) := by open_case

theorem out9 (b : BitVec 32) : out '9' (b.toNat : Int) = ((Open.op '9' b).toNat : Int) := by
  simp only [out, cascade, Open.op]
  simp (decide := true) only [if_true, if_false]
  change ((Nat.ldiff 4294967295 b.toNat : Nat) : Int) = _
  congr 1
  apply natCast_ext
  · apply Nat.lt_pow_two_of_testBit
    intro i hi
    rw [Nat.testBit_ldiff, maskFF]
    simp; omega
  · intro i hi
    rw [Nat.testBit_ldiff, maskFF, toNat_testBit]
    simp [hi]

theorem mask_id (b : BitVec 32) : b.toNat &&& 4294967295 = b.toNat := by
  apply natCast_ext (mask_lt _)
  intro i hi
  rw [Nat.testBit_and, maskFF, toNat_testBit]
  simp [hi]

/-- An iteration on a 32-bit value is the register operation. -/
theorem out_op (c : Char) (b : BitVec 32) : out c (b.toNat : Int) = ((Open.op c b).toNat : Int) := by
  by_cases h1 : c = '1'; · subst h1; exact out1 b
  by_cases h2 : c = '2'; · subst h2; exact out2 b
  by_cases h3 : c = '3'; · subst h3; exact out3 b
  by_cases h4 : c = '4'; · subst h4; exact out4 b
  by_cases h5 : c = '5'; · subst h5; exact out5 b
  by_cases h6 : c = '6'; · subst h6; exact out6 b
  by_cases h7 : c = '7'; · subst h7; exact out7 b
  by_cases h8 : c = '8'; · subst h8; exact out8 b
  by_cases h9 : c = '9'; · subst h9; exact out9 b
  simp only [out, cascade, Open.op, h1, h2, h3, h4, h5, h6, h7, h8, h9, if_false, ne_eq, not_false_eq_true, and_true]
  rw [show (4294967295 : Int) = ((4294967295 : Nat) : Int) from rfl, land_cast, lor_cast, mask_id, Nat.or_self, ite_self]

theorem land_mask_range (x : Int) : ∃ b : BitVec 32, Int.land x 4294967295 = (b.toNat : Int) := by
  cases x with
  | ofNat n =>
    refine ⟨BitVec.ofNat 32 (n &&& 4294967295), ?_⟩
    rw [BitVec.toNat_ofNat, Nat.mod_eq_of_lt (mask_lt _)]; rfl
  | negSucc n =>
    refine ⟨BitVec.ofNat 32 (Nat.ldiff 4294967295 n), ?_⟩
    rw [BitVec.toNat_ofNat, Nat.mod_eq_of_lt]
    · rfl
    · apply Nat.lt_pow_two_of_testBit
      intro i hi
      rw [Nat.testBit_ldiff, maskFF]
      simp; omega

/-- Every iteration yields a 32-bit value, whatever the password. -/
theorem out_range (c : Char) (x : Int) : ∃ b : BitVec 32, out c x = (b.toNat : Int) := by
  unfold out
  obtain ⟨b1, h1⟩ := land_mask_range (cascade c x).1
  obtain ⟨b2, h2⟩ := land_mask_range (cascade c x).2
  rw [h1, h2]
  split_ifs
  · refine ⟨b1 ||| b2, ?_⟩
    rw [lor_cast, BitVec.toNat_or]
  · exact ⟨b1, rfl⟩

/-- The loop once the password is loaded. -/
theorem run_loaded (pw : Int) (nonce : Str) (b : BitVec 32) :
    nonce.foldl (step pw) ⟨false, b.toNat, b.toNat⟩ =
      ⟨false, (nonce.foldl (fun r c => Open.op c r) b).toNat, (nonce.foldl (fun r c => Open.op c r) b).toNat⟩ := by
  induction nonce generalizing b with
  | nil => rfl
  | cons c s ih =>
    rw [List.foldl_cons, step_eq]
    simp only [Bool.false_and, Bool.false_eq_true, and_false, if_false]
    rw [out_op, ih]; rfl

theorem step_zero (pw : Int) (st : Bool) (b : BitVec 32) :
    step pw ⟨st, b.toNat, b.toNat⟩ '0' = ⟨st, b.toNat, b.toNat⟩ := by
  rw [step_eq]
  simp only [decide_true, Bool.and_true, ne_eq, not_true_eq_false, false_and, if_false]
  rw [out_op]; rfl

/-- The states of the loop: `num1 = num2`, a 32-bit value. -/
theorem run_form (pw : Int) (nonce : Str) (st : Bool) (b : BitVec 32) :
    ∃ st' : Bool, ∃ b' : BitVec 32, nonce.foldl (step pw) ⟨st, b.toNat, b.toNat⟩ = ⟨st', b'.toNat, b'.toNat⟩ := by
  induction nonce generalizing st b with
  | nil => exact ⟨st, b, rfl⟩
  | cons c s ih =>
    rw [List.foldl_cons, step_eq]
    obtain ⟨b', h⟩ := out_range c (if c ≠ '0' ∧ st = true then pw else (b.toNat : Int))
    simp only at h ⊢
    rw [h]
    exact ih _ _

theorem run_zeros (pw : Int) {nonce : Str} (h : ∀ c ∈ nonce, c = '0') :
    nonce.foldl (step pw) ⟨true, 0, 0⟩ = ⟨true, 0, 0⟩ := by
  induction nonce with
  | nil => rfl
  | cons c s ih =>
    have : c = '0' := h c (by simp)
    subst this
    rw [List.foldl_cons]
    have e := step_zero pw true 0#32
    simp only [BitVec.toNat_ofNat, Nat.zero_mod, Nat.cast_zero] at e
    rw [e]
    exact ih (fun c hc => h c (by simp [hc]))

theorem op_zero (b : BitVec 32) : Open.op '0' b = b := by
  unfold Open.op
  simp (decide := true) only [if_false]

/-- The loop computes the register algorithm. -/
theorem run_answer (pw : BitVec 32) (nonce : Str) :
    (nonce.foldl (step pw.toNat) ⟨true, 0, 0⟩).num1 = ((Open.answer pw nonce).toNat : Int) := by
  unfold Open.answer
  split_ifs with h
  · induction nonce with
    | nil => simp at h
    | cons c s ih =>
      rw [List.foldl_cons]
      by_cases hc : c = '0'
      · subst hc
        have e := step_zero pw.toNat true 0#32
        simp only [BitVec.toNat_ofNat, Nat.zero_mod, Nat.cast_zero] at e
        rw [e, List.foldl_cons, op_zero]
        exact ih (by simpa using h)
      · rw [step_eq]
        simp only [hc, decide_false, Bool.and_false, ne_eq, not_false_eq_true, and_self, if_true]
        rw [out_op, run_loaded]; rfl
  · push Not at h
    rw [run_zeros _ h]; rfl

theorem recover_fold (nonce : Str) (b : BitVec 32) :
    Open.recover nonce (nonce.foldl (fun r c => Open.op c r) b) = b := by
  unfold Open.recover
  induction nonce generalizing b with
  | nil => rfl
  | cons c s ih => simp only [List.foldl_cons, List.reverse_cons, List.foldl_append, List.foldl_nil]; rw [ih, undo_op]

theorem fold_recover (nonce : Str) (b : BitVec 32) :
    nonce.foldl (fun r c => Open.op c r) (Open.recover nonce b) = b := by
  unfold Open.recover
  induction nonce generalizing b with
  | nil => rfl
  | cons c s ih => simp only [List.foldl_cons, List.reverse_cons, List.foldl_append, List.foldl_nil]; rw [op_undo, ih]

end OpenAuth
