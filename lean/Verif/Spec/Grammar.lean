import Verif.Spec.Frames
import Verif.Model.Messages

/-!
# Specification of the classification of frames

The table of message kinds of `docs/original/intro.md`, as a relation between the list of tags of a frame and the
message it stands for.  Only the datatype `Msg` is taken from the model.
-/

namespace Spec

/-- Tag lists that have the shape of one of the seven structured kinds, whatever the WHO is. -/
def Structured (ts : List Str) : Prop :=
  ts = [cs!"#", cs!"1"] ∨ ts = [cs!"#", cs!"0"] ∨
  (∃ a b c, ts = [a, b, c] ∧ a ≠ []) ∨
  (∃ a b vs, ts = ('#' :: a) :: b :: vs ∧ a ≠ [])

/-- The WHO text of a structured tag list other than ACK and NACK. -/
inductive WhoText : List Str → Str → Prop
  /-- `*#WHO*WHERE…##` -/
  | hash {a b vs} : a ≠ [] → WhoText (('#' :: a) :: b :: vs) a
  /-- `*WHO*WHAT*WHERE##`, WHO not of the form `#…` -/
  | plain {a b c} : a ≠ [] → (∀ r, r ≠ [] → a ≠ '#' :: r) → WhoText [a, b, c] a

/-- Which message a list of tags stands for. -/
inductive FrameOf : List Str → Msg → Prop
  /-- `*#*1##` -/
  | ack : FrameOf [cs!"#", cs!"1"] .ack
  /-- `*#*0##` -/
  | nack : FrameOf [cs!"#", cs!"0"] .nack
  /-- `*WHO*WHAT*WHERE##` -/
  | normal {w : Who} {a b} : FrameOf [w.code, a, b] (.normal w ⟨a⟩ ⟨b⟩)
  /-- `*#WHO*WHERE##` -/
  | status {w : Who} {a} : FrameOf ['#' :: w.code, a] (.status w ⟨a⟩)
  /-- `*#WHO*WHERE*DIM##` -/
  | dimReq {w : Who} {a d} : Digits d → FrameOf ['#' :: w.code, a, d] (.dimReq w ⟨a⟩ ⟨d⟩)
  /-- `*#WHO*WHERE*#DIM*V₁*…*Vₙ##` -/
  | dimWrite {w : Who} {a d vs} : Digits d →
      FrameOf (('#' :: w.code) :: a :: ('#' :: d) :: vs) (.dimWrite w ⟨a⟩ ⟨d⟩ (vs.map Tag.mk))
  /-- `*#WHO*WHERE*DIM*V₁*…*Vₙ##`: at least one value, or a dimension with parameters -/
  | dimResp {w : Who} {a d vs} : (∀ r, d ≠ '#' :: r) → (vs ≠ [] ∨ ¬ Digits d) →
      FrameOf (('#' :: w.code) :: a :: d :: vs) (.dimResp w ⟨a⟩ ⟨d⟩ (vs.map Tag.mk))
  /-- `*#WHO*WHERE*#DIM#P…*V₁*…*Vₙ##`: the code reads a writing with a parameterised dimension as a response -/
  | dimRespHash {w : Who} {a d vs} : ¬ Digits d →
      FrameOf (('#' :: w.code) :: a :: ('#' :: d) :: vs) (.dimResp w ⟨a⟩ ⟨d⟩ (vs.map Tag.mk))
  /-- anything else -/
  | generic {ts} : ¬ Structured ts → FrameOf ts (.generic ts)

/-- `m` is a frame with tags `ts`, possibly surrounded by whitespace, with a single terminator. -/
def IsFrame (ws : Char → Prop) (m : Str) (ts : List Str) : Prop :=
  ts ≠ [] ∧ (∀ t ∈ ts, TagText t) ∧ Padded ws (frame ts) m ∧ OneHH m

end Spec
