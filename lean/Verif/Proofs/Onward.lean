import Verif.Model.Onward
import Verif.Spec.Onward
import Verif.Proofs.Paced

open Py Spec Spec.Retry Spec.Onward Timed Onward

/-- Each command of the plan writes its frame. -/
abbrev Orders (cfg : Config) (plan : List (M Unit × Nat)) (fs : List Str) : Prop :=
  List.Forall₂ (fun p f => Sends cfg p.1 f) plan fs

/-- A command that finds a message in time. -/
theorem onward_answered (cfg : Config) (hc : cfg.session ≠ .event) (cmd : M Unit) (f : Str) (hs : Sends cfg cmd f) (pause : Nat)
    (plan : List (M Unit × Nat)) (t : TWorld) (ht : t.started = true) (a : Nat) (m : Msg) (rest : Arrivals)
    (ha : t.arrivals = (a, m) :: rest) (hin : a < t.now + 5000) :
    onward ((cmd, pause) :: plan) t =
      ((t.now, verdict m) :: (onward plan ⟨max t.now a + pause, rest, true, t.trace ++ [.sent f, .got m]⟩).1,
        (onward plan ⟨max t.now a + pause, rest, true, t.trace ++ [.sent f, .got m]⟩).2) := by
  have e := (C107_command_exact cfg hc cmd f hs t ht).1 a m rest ha hin
  conv_lhs => unfold onward
  rw [e]
  rfl

/-- A command that does not. -/
theorem onward_late (cfg : Config) (hc : cfg.session ≠ .event) (cmd : M Unit) (f : Str) (hs : Sends cfg cmd f) (pause : Nat)
    (plan : List (M Unit × Nat)) (t : TWorld) (ht : t.started = true) (hq : Quiet t.now t.arrivals) :
    onward ((cmd, pause) :: plan) t =
      ((t.now, .error .timeoutError) :: (onward plan ⟨t.now + 5000 + pause, t.arrivals, true, t.trace ++ [.sent f]⟩).1,
        (onward plan ⟨t.now + 5000 + pause, t.arrivals, true, t.trace ++ [.sent f]⟩).2) := by
  have e := (C107_command_exact cfg hc cmd f hs t ht).2 hq
  conv_lhs => unfold onward
  rw [e]

/-- A program that is one answer behind stays so: each command takes the message that was under way, and the answer to it is
left for the next. -/
theorem onward_behind (cfg : Config) (hc : cfg.session ≠ .event) :
    ∀ (plan : List (M Unit × Nat)) (fs : List Str) (_ : Orders cfg plan fs) (t : TWorld) (_ : t.started = true)
      (a : Nat) (m : Msg) (as extra : Arrivals) (_ : t.arrivals = (a, m) :: (as ++ extra)) (_ : a < t.now + 5000)
      (_ : List.Forall₂ InTime (onward plan t).1 as),
      (onward plan t).1.map (·.2) = (((a, m) :: as).take plan.length).map (fun p => verdict p.2) ∧
        (onward plan t).2.arrivals = ((a, m) :: as).drop plan.length ++ extra ∧ (onward plan t).2.started = true := by
  intro plan
  induction plan with
  | nil =>
    intro fs _ t ht a m as extra ha hin hall
    refine ⟨rfl, ?_, ht⟩
    show t.arrivals = _
    rw [ha]; rfl
  | cons p plan ih =>
    obtain ⟨cmd, pause⟩ := p
    intro fs hfs t ht a m as extra ha hin hall
    cases hfs with
    | @cons _ f _ fs hs hfs =>
      rw [onward_answered cfg hc cmd f hs pause plan t ht a m _ ha hin] at hall ⊢
      cases hall with
      | @cons _ b _ as hb hall =>
        obtain ⟨b, m'⟩ := b
        obtain ⟨i1, i2, i3⟩ := ih fs hfs ⟨max t.now a + pause, (b, m') :: as ++ extra, true, t.trace ++ [.sent f, .got m]⟩ rfl
          b m' as extra rfl (by have := hb.2; dsimp only at this ⊢; omega) hall
        refine ⟨?_, i2, i3⟩
        rw [List.map_cons, i1]
        rfl

/-- Not more commands time out than there are. -/
theorem timeouts_le (rs : List (Except Err Unit)) : timeouts rs ≤ rs.length := by
  induction rs with
  | nil => exact le_refl _
  | cons r rs ih =>
    unfold timeouts
    split
    · cases ‹_ :: _ = []›
    · rename_i h; cases h; simpa using ih
    · rename_i h; cases h; simp only [List.length_cons]; omega

/-- A command that was answered did not time out. -/
theorem timeouts_verdict (m : Msg) (rs : List (Except Err Unit)) : timeouts (verdict m :: rs) = timeouts rs := by
  unfold verdict
  split <;> rfl
