import Verif.Proofs.Loop

/-!
# Lemmas about a connection that is no longer open
-/

open Py Spec

namespace Events

theorem drain_transport (py : Python) (call : Call) (q : List Msg) (s : State) :
    (drain py call s q).transport = s.transport := by
  induction q generalizing s with
  | nil => rfl
  | cons m q ih =>
    unfold drain
    split
    · rfl
    · dsimp only
      split
      · rw [ih]
      · rfl
      · rfl

/-- A connection that is not open does not open again, and packets no longer count. -/
theorem step_down (py : Python) (call : Call) (s : State) (h : s.transport ≠ .opened) (st : Step) :
    (s.step py call st).transport ≠ .opened := by
  cases st with
  | packet d => unfold State.step; dsimp only; rw [if_neg h]; exact h
  | lost => unfold State.step; dsimp only; rw [if_neg h]; exact h
  | close => exact fun hc => nomatch hc
  | register c m cb => unfold State.step; dsimp only; split <;> exact h
  | getItem who wher client => exact h
  | loop =>
    unfold State.step State.start; dsimp only
    split_ifs
    · exact h
    · split
      · exact h
      · exact h
      · rw [drain_transport]; exact h
    · exact h
  | resume =>
    unfold State.step; dsimp only
    split_ifs
    · rw [drain_transport]; exact h
    · exact h

/-- Is this the delivery of a packet? -/
def Step.isPacket : Step → Bool
  | .packet _ => true
  | _ => false

theorem run_down (py : Python) (call : Call) (s : State) (h : s.transport ≠ .opened) (l : List Step) :
    s.run py call l = s.run py call (l.filter fun st => !st.isPacket) := by
  induction l generalizing s with
  | nil => rfl
  | cons st l ih =>
    have h1 : s.run py call (st :: l) = (s.step py call st).run py call l := rfl
    rw [h1, ih _ (step_down py call s h st)]
    rcases hp : st.isPacket with _ | _
    · rw [List.filter_cons_of_pos (by simp [hp])]; rfl
    · rw [List.filter_cons_of_neg (by simp [hp])]
      cases st <;> try cases hp
      have : s.step py call (.packet ‹_›) = s := by unfold State.step; dsimp only; rw [if_neg h]
      rw [this]

end Events
