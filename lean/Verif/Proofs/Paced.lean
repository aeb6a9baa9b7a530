import Verif.Model.Paced
import Verif.Props.Timed
import Verif.Spec.Retry
import Verif.Proofs.Commands

open Py Spec Spec.Retry Timed

/-- An attempt that is answered ends the loop. -/
theorem paced_end (cfg : Config) (hc : cfg.session ≠ .event) (cmd : M Unit) (f : Str) (hs : Sends cfg cmd f) (pause n : Nat)
    (t : TWorld) (ht : t.started = true) (a : Nat) (m : Msg) (rest : Arrivals) (ha : t.arrivals = (a, m) :: rest)
    (hin : a < t.now + 5000) :
    Paced.attempts pause cmd n t = (verdict m, ⟨max t.now a, rest, true, t.trace ++ [.sent f, .got m]⟩) := by
  have e := (C107_command_exact cfg hc cmd f hs t ht).1 a m rest ha hin
  have hv : (if m = .ack then .ok () else .error .responseError : Except Err Unit) = verdict m := rfl
  rw [hv] at e
  have hne : verdict m ≠ .error .timeoutError := by unfold verdict; split <;> simp
  cases n with
  | zero => exact e
  | succ n =>
    unfold Paced.attempts
    rw [e]
    split
    · rename_i u hu
      exact absurd (congrArg Prod.fst hu) hne
    · rfl

/-- After an attempt that is not, there is the pause, and one attempt less. -/
theorem paced_step (cfg : Config) (hc : cfg.session ≠ .event) (cmd : M Unit) (f : Str) (hs : Sends cfg cmd f) (pause n : Nat)
    (t : TWorld) (ht : t.started = true) (hq : Quiet t.now t.arrivals) :
    Paced.attempts pause cmd (n + 1) t =
      Paced.attempts pause cmd n ⟨t.now + 5000 + pause, t.arrivals, true, t.trace ++ [.sent f]⟩ := by
  have e := (C107_command_exact cfg hc cmd f hs t ht).2 hq
  conv_lhs => unfold Paced.attempts
  rw [e]
