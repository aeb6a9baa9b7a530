import Verif.Model.Renew
import Verif.Spec.Renew
import Verif.Proofs.Onward

open Py Spec Spec.Retry Spec.Renew Timed Renew

/-- A command that finds a message in time. -/
theorem renewing_answered (cfg : Config) (hc : cfg.session ≠ .event) (cmd : M Unit) (f : Str) (hs : Sends cfg cmd f) (pause : Nat)
    (plan : List (M Unit × Nat)) (conns : List (Nat × Arrivals)) (t : TWorld) (ht : t.started = true) (a : Nat) (m : Msg)
    (rest : Arrivals) (ha : t.arrivals = (a, m) :: rest) (hin : a < t.now + 5000) :
    renewing ((cmd, pause) :: plan) conns t =
      note (t.now, verdict m) (renewing plan conns ⟨max t.now a + pause, rest, true, t.trace ++ [.sent f, .got m]⟩) := by
  have e := (C107_command_exact cfg hc cmd f hs t ht).1 a m rest ha hin
  have hv : (if m = .ack then .ok () else .error .responseError : Except Err Unit) = verdict m := rfl
  rw [hv] at e
  have hne : verdict m ≠ .error .timeoutError := by unfold verdict; split <;> simp
  conv_lhs => unfold renewing
  rw [e]
  split
  · rename_i u hu
    exact absurd (congrArg Prod.fst hu) hne
  · rename_i r u h hu
    cases hu
    rfl

/-- A command that does not, with a connection to come. -/
theorem renewing_late (cfg : Config) (hc : cfg.session ≠ .event) (cmd : M Unit) (f : Str) (hs : Sends cfg cmd f) (pause : Nat)
    (plan : List (M Unit × Nat)) (d : Nat) (as : Arrivals) (conns : List (Nat × Arrivals)) (t : TWorld) (ht : t.started = true)
    (hq : Quiet t.now t.arrivals) :
    renewing ((cmd, pause) :: plan) ((d, as) :: conns) t =
      [(t.now, .error .timeoutError)] :: renewing plan conns ⟨t.now + 5000 + d + pause, as, true, t.trace ++ [.sent f]⟩ := by
  have e := (C107_command_exact cfg hc cmd f hs t ht).2 hq
  conv_lhs => unfold renewing
  rw [e]

/-- The same, and there is none. -/
theorem renewing_over (cfg : Config) (hc : cfg.session ≠ .event) (cmd : M Unit) (f : Str) (hs : Sends cfg cmd f) (pause : Nat)
    (plan : List (M Unit × Nat)) (t : TWorld) (ht : t.started = true) (hq : Quiet t.now t.arrivals) :
    renewing ((cmd, pause) :: plan) [] t = [[(t.now, .error .timeoutError)]] := by
  have e := (C107_command_exact cfg hc cmd f hs t ht).2 hq
  conv_lhs => unfold renewing
  rw [e]
