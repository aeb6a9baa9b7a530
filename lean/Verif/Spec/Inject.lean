import Verif.Spec.Frames

/-!
# What a gateway reads in a text

A gateway reads up to the first `##`; what is before it is the frame.
-/

namespace Spec

/-- The first frame in a text, and what follows it. -/
def FirstFrame (text f rest : Str) : Prop :=
  text = f ++ rest ∧ ∃ u, f = u ++ cs!"##" ∧ ¬ HasHH (u ++ cs!"#")

/-- No frame begins in the text. -/
def NoFrame (text : Str) : Prop := '*' ∉ text

end Spec
