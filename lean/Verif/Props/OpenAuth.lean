import Verif.Proofs.OpenAuth

/-!
# Properties of the OPEN password algorithm (C22–C25)
-/

open Py Spec OpenAuth

theorem OpenAuth.strInt_bits (b : BitVec 32) : strInt (b.toNat : Int) = .ok (natToStr b.toNat) := by
  unfold strInt
  rw [if_pos]
  · rfl
  · rw [Int.natAbs_natCast]
    refine Nat.le_trans (natToStr_length_le (k := 10) (by omega) ?_) (by decide)
    have := b.isLt
    omega

theorem OpenAuth.ownCalcPass_bits (pw : BitVec 32) (nonce : Str) :
    ownCalcPass (pw.toNat : Int) nonce = .ok (natToStr (Open.answer pw nonce).toNat) := by
  unfold ownCalcPass
  rw [run_answer, strInt_bits]

/-! ## C22: the answer is a 32-bit number -/

theorem C22_answer_32bit (password : Int) (nonce : Str) :
    ∃ s n, ownCalcPass password nonce = .ok s ∧ Numeral s n ∧ n < 2 ^ 32 := by
  obtain ⟨st, b, h⟩ := run_form password nonce true 0#32
  simp only [BitVec.toNat_ofNat, Nat.zero_mod, Nat.cast_zero] at h
  refine ⟨natToStr b.toNat, b.toNat, ?_, numeral_natToStr _, b.isLt⟩
  unfold ownCalcPass
  rw [h, strInt_bits]

/-- The same when the password is given as text: either `int()` rejects it, or the answer is a 32-bit number. -/
theorem C22_answer_32bit_text (password : Str) (nonce : Str) :
    (∃ e, pyInt password = .error e ∧ ownCalcPassStr password nonce = .error e) ∨
      ∃ s n, ownCalcPassStr password nonce = .ok s ∧ Numeral s n ∧ n < 2 ^ 32 := by
  unfold ownCalcPassStr
  cases h : pyInt password with
  | error e => exact .inl ⟨e, rfl, rfl⟩
  | ok i => exact .inr (C22_answer_32bit i nonce)

/-- A password that is negative and longer than 32 bits, a nonce with every digit. -/
example : ∃ s n, ownCalcPass (-(2 ^ 70) - 12345) cs!"9876543210" = .ok s ∧ Numeral s n ∧ n < 2 ^ 32 :=
  C22_answer_32bit _ _

/-! ## C23: the 32-bit register algorithm -/

theorem C23_register_algorithm (password : Nat) (h : password < 2 ^ 32) (nonce : Str) :
    ∃ s, ownCalcPass password nonce = .ok s ∧ Numeral s (Open.answer (BitVec.ofNat 32 password) nonce).toNat := by
  have e : password = (BitVec.ofNat 32 password).toNat := by rw [BitVec.toNat_ofNat, Nat.mod_eq_of_lt h]
  refine ⟨natToStr (Open.answer (BitVec.ofNat 32 password) nonce).toNat, ?_, numeral_natToStr _⟩
  conv => lhs; rw [e]
  exact ownCalcPass_bits _ _

/-- The answer of the project's own test. -/
example : (Open.answer 12345#32 cs!"844308954").toNat = 4294506975 := by decide +kernel
example : ownCalcPass 12345 cs!"844308954" = .ok cs!"4294506975" := by
  obtain ⟨s, h, hs⟩ := C23_register_algorithm 12345 (by decide) cs!"844308954"
  rw [show ((12345 : Nat) : Int) = 12345 from rfl] at h
  rw [h, (numeral_iff s _).1 hs]
  decide +kernel

/-- The same when the password is given as text: leading zeros do not matter. -/
theorem C23_text_password (password : Str) (hne : password ≠ []) (hd : Digits password) (hl : password.length ≤ 4300)
    (h : value password < 2 ^ 32) (nonce : Str) :
    ∃ s, ownCalcPassStr password nonce = .ok s ∧
      Numeral s (Open.answer (BitVec.ofNat 32 (value password)) nonce).toNat := by
  obtain ⟨s, h1, h2⟩ := C23_register_algorithm _ h nonce
  refine ⟨s, ?_, h2⟩
  unfold ownCalcPassStr
  rw [pyInt_digits hd hne hl, ← value_eq_strVal hd]
  exact h1

/-- The same when the nonce is given as a number: the digits are those of its decimal numeral. -/
theorem C23_int_nonce (password : Nat) (h : password < 2 ^ 32) (nonce : Nat) (digits : Str) (hn : Numeral digits nonce)
    (hl : digits.length ≤ 4300) :
    ∃ s, ownCalcPassInt password nonce = .ok s ∧
      Numeral s (Open.answer (BitVec.ofNat 32 password) digits).toNat := by
  obtain ⟨s, h1, h2⟩ := C23_register_algorithm _ h digits
  refine ⟨s, ?_, h2⟩
  have e := (numeral_iff _ _).1 hn
  unfold ownCalcPassInt strInt
  rw [if_pos (by rw [Int.natAbs_natCast, ← e]; exact hl)]
  rw [show intToStr (nonce : Int) = digits from by rw [e]; rfl]
  exact h1

example : ∃ s, ownCalcPassStr cs!"0012345" cs!"844308954" = .ok s ∧ Numeral s 4294506975 := by
  have := C23_text_password cs!"0012345" (by decide) (by decide) (by decide) (by decide) cs!"844308954"
  rwa [show (Open.answer (BitVec.ofNat 32 (value cs!"0012345")) cs!"844308954").toNat = 4294506975 from by decide +kernel] at this
example : ∃ s, ownCalcPassInt (12345 : Nat) (844308954 : Nat) = .ok s ∧ Numeral s 4294506975 := by
  have := C23_int_nonce 12345 (by decide) 844308954 cs!"844308954" (by decide) (by decide)
  rwa [show (Open.answer (BitVec.ofNat 32 12345) cs!"844308954").toNat = 4294506975 from by decide +kernel] at this

/-! ## C24: different passwords, different answers -/

theorem C24_injective (p q : Nat) (hp : p < 2 ^ 32) (hq : q < 2 ^ 32) (nonce : Str) (hn : ∃ c ∈ nonce, c ≠ '0')
    (h : ownCalcPass p nonce = ownCalcPass q nonce) : p = q := by
  obtain ⟨s, h1, n1⟩ := C23_register_algorithm p hp nonce
  obtain ⟨t, h2, n2⟩ := C23_register_algorithm q hq nonce
  rw [h1, h2] at h
  cases h
  have e := natToStr_inj (((numeral_iff _ _).1 n1).symm.trans ((numeral_iff _ _).1 n2))
  unfold Open.answer at e
  rw [if_pos hn, if_pos hn] at e
  have e := congrArg (Open.recover nonce) (BitVec.eq_of_toNat_eq e)
  rw [recover_fold, recover_fold] at e
  have e := congrArg BitVec.toNat e
  rwa [BitVec.toNat_ofNat, BitVec.toNat_ofNat, Nat.mod_eq_of_lt hp, Nat.mod_eq_of_lt hq] at e

/-- The password is computed from the nonce and the answer by undoing the operations in reverse order. -/
theorem C24_recover (p : Nat) (hp : p < 2 ^ 32) (nonce : Str) (hn : ∃ c ∈ nonce, c ≠ '0') :
    ∃ s n, ownCalcPass p nonce = .ok s ∧ Numeral s n ∧ (Open.recover nonce (BitVec.ofNat 32 n)).toNat = p := by
  obtain ⟨s, h1, n1⟩ := C23_register_algorithm p hp nonce
  refine ⟨s, _, h1, n1, ?_⟩
  unfold Open.answer
  rw [if_pos hn, BitVec.ofNat_toNat, BitVec.setWidth_eq, recover_fold, BitVec.toNat_ofNat, Nat.mod_eq_of_lt hp]

/-- Every 32-bit answer belongs to some password: exactly one, by `C24_injective`. -/
theorem C24_surjective (n : Nat) (h : n < 2 ^ 32) (nonce : Str) (hn : ∃ c ∈ nonce, c ≠ '0') :
    ∃ p s : _, p < 2 ^ 32 ∧ ownCalcPass (p : Nat) nonce = .ok s ∧ Numeral s n := by
  refine ⟨(Open.recover nonce (BitVec.ofNat 32 n)).toNat, _, (Open.recover nonce (BitVec.ofNat 32 n)).isLt,
    ownCalcPass_bits _ _, ?_⟩
  unfold Open.answer
  rw [if_pos hn, fold_recover, BitVec.toNat_ofNat, Nat.mod_eq_of_lt h]
  exact numeral_natToStr n

example : Open.recover cs!"844308954" 4294506975#32 = 12345#32 := by decide +kernel
example : ∃ c ∈ cs!"0030", c ≠ '0' := ⟨'3', by simp, by decide⟩

/-! ## C25: zeros are irrelevant -/

theorem C25_insert_zero (password : Int) (a b : Str) :
    ownCalcPass password (a ++ '0' :: b) = ownCalcPass password (a ++ b) := by
  unfold ownCalcPass
  rw [List.foldl_append, List.foldl_append, List.foldl_cons]
  obtain ⟨st, r, h⟩ := run_form password a true 0#32
  simp only [BitVec.toNat_ofNat, Nat.zero_mod, Nat.cast_zero] at h
  rw [h, step_zero]

/-- Two nonces that differ only in their zeros give the same answer. -/
theorem C25_zeros_irrelevant (password : Int) (a b : Str) (h : a.filter (· ≠ '0') = b.filter (· ≠ '0')) :
    ownCalcPass password a = ownCalcPass password b := by
  have key : ∀ s u : Str, ownCalcPass password (u ++ s) = ownCalcPass password (u ++ s.filter (· ≠ '0')) := by
    intro s
    induction s with
    | nil => intro u; rfl
    | cons c s ih =>
      intro u
      by_cases hc : c = '0'
      · subst hc
        rw [C25_insert_zero, ih, List.filter_cons_of_neg (by decide)]
      · rw [List.filter_cons_of_pos (by simp [hc])]
        have := ih (u ++ [c])
        simpa using this
  have h1 := key a []
  have h2 := key b []
  rw [List.nil_append, List.nil_append] at h1 h2
  rw [h1, h2, h]

/-- Only zeros, or nothing: the answer is `0` for every password. -/
theorem C25_only_zeros (password : Int) (nonce : Str) (h : ∀ c ∈ nonce, c = '0') :
    ownCalcPass password nonce = .ok cs!"0" := by
  unfold ownCalcPass
  rw [run_zeros _ h]
  rfl

/-- A character that is not a digit does nothing, wherever it stands, for a 32-bit password and a nonce with a non-zero
digit. -/
theorem C25_nondigit (password : Nat) (hp : password < 2 ^ 32) (a b : Str) (c : Char) (hc : ¬ ('0' ≤ c ∧ c ≤ '9'))
    (hn : ∃ d ∈ a ++ b, d ≠ '0') :
    ownCalcPass password (a ++ c :: b) = ownCalcPass password (a ++ b) := by
  obtain ⟨s, h1, n1⟩ := C23_register_algorithm password hp (a ++ c :: b)
  obtain ⟨t, h2, n2⟩ := C23_register_algorithm password hp (a ++ b)
  have e : Open.answer (BitVec.ofNat 32 password) (a ++ c :: b) = Open.answer (BitVec.ofNat 32 password) (a ++ b) := by
    unfold Open.answer
    rw [if_pos hn, if_pos (by obtain ⟨d, hd, h0⟩ := hn; exact ⟨d, by simp at hd ⊢; tauto, h0⟩)]
    rw [List.foldl_append, List.foldl_append, List.foldl_cons]
    congr 1
    unfold Open.op
    rw [if_neg, if_neg, if_neg, if_neg, if_neg, if_neg, if_neg, if_neg, if_neg] <;>
    · rintro rfl; exact hc (by decide)
  rw [h1, h2, numeral_unique n1 (e ▸ n2)]

/-- The challenge tag keeps its `#` when the client passes it on. -/
theorem C25_hash_prefix (password : Nat) (hp : password < 2 ^ 32) (nonce : Str) (hn : ∃ d ∈ nonce, d ≠ '0') :
    ownCalcPass password ('#' :: nonce) = ownCalcPass password nonce :=
  C25_nondigit password hp [] nonce '#' (by decide) hn

/-- Above 32 bits the restriction is needed: `#` truncates the password before the first digit uses it. -/
theorem C25_hash_prefix_large : ∃ password : Nat, ∃ nonce : Str, (∃ d ∈ nonce, d ≠ '0') ∧
    ownCalcPass password ('#' :: nonce) ≠ ownCalcPass password nonce :=
  ⟨2 ^ 32, cs!"4", ⟨'4', by simp, by decide⟩, by decide +kernel⟩

example : ownCalcPass 12345 cs!"#8044308954000" = ownCalcPass 12345 cs!"844308954" := by
  rw [show (12345 : Int) = ((12345 : Nat) : Int) from rfl,
    C25_hash_prefix 12345 (by decide) _ ⟨'8', by simp, by decide⟩]
  exact C25_zeros_irrelevant _ _ _ (by decide)
