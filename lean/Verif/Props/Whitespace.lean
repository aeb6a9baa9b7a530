import Verif.Props.Messages

/-!
# Which characters are whitespace (C11)
-/

open Py Spec

namespace Spec

/-- The characters Python takes for whitespace, by number. -/
def whitespace : List Nat :=
  [9, 10, 11, 12, 13, 28, 29, 30, 31, 32, 133, 160, 5760, 8192, 8193, 8194, 8195, 8196, 8197, 8198, 8199, 8200, 8201, 8202,
    8232, 8233, 8239, 8287, 12288]

end Spec

theorem isSpace_iff (c : Char) : isSpace c = true ↔ c.toNat ∈ Spec.whitespace := by
  simp only [isSpace, Spec.whitespace, Bool.or_eq_true, Bool.and_eq_true, decide_eq_true_eq, beq_iff_eq, List.mem_cons,
    List.not_mem_nil, or_false]
  omega

/-- C11, and only for whitespace: the characters that can be added before every text, or behind every text, are the 29
characters of Python's whitespace. -/
theorem C11_which (c : Char) :
    ((∀ m, outcome (parseMessage (c :: m)) = outcome (parseMessage m)) ↔ c.toNat ∈ Spec.whitespace) ∧
    ((∀ m, outcome (parseMessage (m ++ [c])) = outcome (parseMessage m)) ↔ c.toNat ∈ Spec.whitespace) := by
  have hack : outcome (parseMessage cs!"*#*1##") = .ok .ack := by decide +kernel
  have hok : ∀ x : Except Err Msg, outcome x = .ok .ack → x = .ok .ack := by
    intro x h
    cases x with
    | ok y => simpa [outcome] using h
    | error e => cases e <;> simp [outcome] at h
  refine ⟨⟨fun h => ?_, fun h m => ?_⟩, ⟨fun h => ?_, fun h m => ?_⟩⟩
  · by_contra hc
    rw [← isSpace_iff] at hc
    obtain ⟨ts, hf, ht⟩ := (C07_classified _ _).1 (hok _ ((h _).trans hack))
    have hs := ((isFrame_iff _ _).1 hf).2.2.1
    cases ht
    have : strip (c :: cs!"*#*1##") = c :: cs!"*#*1##" := strip_eq_self (by intro d hd; cases hd; simpa using hc) (by intro d hd; simp at hd; subst hd; decide)
    rw [this] at hs
    have := congrArg List.length hs
    simp [frame, body] at this
  · simpa using C11_whitespace [c] [] m (by simpa using (isSpace_iff c).2 h) (by simp)
  · by_contra hc
    rw [← isSpace_iff] at hc
    obtain ⟨ts, hf, ht⟩ := (C07_classified _ _).1 (hok _ ((h _).trans hack))
    have hs := ((isFrame_iff _ _).1 hf).2.2.1
    cases ht
    have : strip (cs!"*#*1##" ++ [c]) = cs!"*#*1##" ++ [c] := strip_eq_self (by intro d hd; cases hd; decide) (by intro d hd; simp at hd; subst hd; simpa using hc)
    rw [this] at hs
    have := congrArg List.length hs
    simp [frame, body] at this
  · simpa using C11_whitespace [] [c] m (by simp) (by simpa using (isSpace_iff c).2 h)

/-- The separator of files is one of them, the space of zero width is not. -/
example : (∀ m, outcome (parseMessage ('\x1c' :: m)) = outcome (parseMessage m)) ∧
    ¬ ∀ m, outcome (parseMessage ('\u200b' :: m)) = outcome (parseMessage m) :=
  ⟨(C11_which _).1.2 (by decide), fun h => absurd ((C11_which _).1.1 h) (by decide)⟩
