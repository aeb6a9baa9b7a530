import Verif.Proofs.Onward

/-!
# C147: a program that goes on after a failed command
-/

open Py Spec Spec.Retry Spec.Onward Timed Onward

/-- The claim: a gateway answers every order, in order, and none before it was given; then a command that succeeds was
acknowledged. -/
abbrev C147_full (cfg : Config) : Prop :=
  ∀ (plan : List (M Unit × Nat)) (fs : List Str), Orders cfg plan fs → ∀ (t : TWorld), t.started = true →
    List.Forall₂ (fun (o : Nat × Except Err Unit) (b : Nat × Msg) => o.1 ≤ b.1) (onward plan t).1 t.arrivals →
    ∀ (k : Nat) (b : Nat × Msg), t.arrivals[k]? = some b → ((onward plan t).1.map (·.2))[k]? = some (.ok ()) → b.2 = .ack

/-- C147: whatever arrives and when, the commands take the messages in the order of their arrival and leave none out; each takes
at most one and is told by it, or times out. -/
theorem C147_exact (cfg : Config) (hc : cfg.session ≠ .event) (plan : List (M Unit × Nat)) (fs : List Str) (hfs : Orders cfg plan fs)
    (t : TWorld) (ht : t.started = true) :
    ∃ os : List (Option Msg), os.length = plan.length ∧ (onward plan t).1.map (·.2) = os.map told ∧
      t.arrivals.map (·.2) = taken os ++ (onward plan t).2.arrivals.map (·.2) ∧
      (onward plan t).2.trace = t.trace ++ record fs os := by
  induction plan generalizing fs t with
  | nil =>
    cases hfs
    exact ⟨[], rfl, rfl, rfl, (List.append_nil _).symm⟩
  | cons p plan ih =>
    obtain ⟨cmd, pause⟩ := p
    cases hfs with
    | @cons _ f _ fs hs hfs =>
      by_cases h : ∃ a m rest, t.arrivals = (a, m) :: rest ∧ a < t.now + 5000
      · obtain ⟨a, m, rest, ha, hin⟩ := h
        rw [onward_answered cfg hc cmd f hs pause plan t ht a m rest ha hin]
        obtain ⟨os, o1, o2, o3, o4⟩ := ih fs hfs ⟨max t.now a + pause, rest, true, t.trace ++ [.sent f, .got m]⟩ rfl
        refine ⟨some m :: os, by rw [List.length_cons, o1, List.length_cons], ?_, ?_, ?_⟩
        · rw [List.map_cons, o2]; rfl
        · rw [ha, List.map_cons, o3]; rfl
        · rw [o4]
          simp [record]
      · rw [onward_late cfg hc cmd f hs pause plan t ht (fun a m r e => by
          by_contra hlt
          exact h ⟨a, m, r, e, by omega⟩)]
        obtain ⟨os, o1, o2, o3, o4⟩ := ih fs hfs ⟨t.now + 5000 + pause, t.arrivals, true, t.trace ++ [.sent f]⟩ rfl
        refine ⟨none :: os, by rw [List.length_cons, o1, List.length_cons], ?_, ?_, ?_⟩
        · rw [List.map_cons, o2]; rfl
        · rw [o3]; rfl
        · rw [o4]
          simp [record]

/-- C147: a command that does not time out is told the message that arrived for it if no command before it has timed out, and
otherwise, whatever the times, one that arrived as many places earlier as commands before it have timed out. -/
theorem C147_lag (cfg : Config) (hc : cfg.session ≠ .event) (plan : List (M Unit × Nat)) (fs : List Str) (hfs : Orders cfg plan fs)
    (t : TWorld) (ht : t.started = true) (k : Nat) (r : Except Err Unit) (hk : ((onward plan t).1.map (·.2))[k]? = some r)
    (hr : r ≠ .error .timeoutError) :
    timeouts (((onward plan t).1.map (·.2)).take k) ≤ k ∧
    ∃ b, t.arrivals[k - timeouts (((onward plan t).1.map (·.2)).take k)]? = some b ∧ r = verdict b.2 := by
  refine ⟨le_trans (timeouts_le _) (List.length_take_le _ _), ?_⟩
  induction plan generalizing fs t k with
  | nil => cases hk
  | cons p plan ih =>
    obtain ⟨cmd, pause⟩ := p
    cases hfs with
    | @cons _ f _ fs hs hfs =>
      by_cases h : ∃ a m rest, t.arrivals = (a, m) :: rest ∧ a < t.now + 5000
      · obtain ⟨a, m, rest, ha, hin⟩ := h
        rw [onward_answered cfg hc cmd f hs pause plan t ht a m rest ha hin] at hk ⊢
        rw [ha]
        cases k with
        | zero => exact ⟨(a, m), rfl, (Option.some.inj hk).symm⟩
        | succ k =>
          obtain ⟨b, b1, b2⟩ := ih fs hfs ⟨max t.now a + pause, rest, true, t.trace ++ [CAct.sent f, CAct.got m]⟩ rfl k hk
          refine ⟨b, ?_, b2⟩
          rw [List.map_cons, List.take_succ_cons, timeouts_verdict]
          have hle := le_trans (timeouts_le (((onward plan ⟨max t.now a + pause, rest, true,
            t.trace ++ [CAct.sent f, CAct.got m]⟩).1.map (·.2)).take k)) (List.length_take_le _ _)
          rw [Nat.sub_add_comm hle, List.getElem?_cons_succ]
          exact b1
      · rw [onward_late cfg hc cmd f hs pause plan t ht (fun a m r e => by
          by_contra hlt
          exact h ⟨a, m, r, e, by omega⟩)] at hk ⊢
        cases k with
        | zero => exact absurd (Option.some.inj hk).symm hr
        | succ k =>
          obtain ⟨b, b1, b2⟩ := ih fs hfs ⟨t.now + 5000 + pause, t.arrivals, true, t.trace ++ [CAct.sent f]⟩ rfl k hk
          refine ⟨b, ?_, b2⟩
          rw [List.map_cons, List.take_succ_cons]
          show t.arrivals[k + 1 - (timeouts _ + 1)]? = _
          rw [Nat.add_sub_add_right]
          exact b1

/-- C147, while every answer comes in time: each command is told the answer to it. -/
theorem C147_in_time_partial (cfg : Config) (hc : cfg.session ≠ .event) (plan : List (M Unit × Nat)) (fs : List Str)
    (hfs : Orders cfg plan fs) (t : TWorld) (ht : t.started = true) (as extra : Arrivals) (ha : t.arrivals = as ++ extra)
    (hall : List.Forall₂ InTime (onward plan t).1 as) :
    (onward plan t).1.map (·.2) = as.map (fun b => verdict b.2) ∧ (onward plan t).2.arrivals = extra := by
  induction plan generalizing fs t as with
  | nil =>
    cases hall
    exact ⟨rfl, ha⟩
  | cons p plan ih =>
    obtain ⟨cmd, pause⟩ := p
    cases hfs with
    | @cons _ f _ fs hs hfs =>
      cases as with
      | nil =>
        unfold onward at hall
        cases hall
      | cons b as =>
        obtain ⟨b, m⟩ := b
        have hb : InTime (t.now, (call cmd t).1) (b, m) := by
          unfold onward at hall
          exact (List.forall₂_cons.1 hall).1
        rw [onward_answered cfg hc cmd f hs pause plan t ht b m _ ha hb.2] at hall ⊢
        obtain ⟨i1, i2⟩ := ih fs hfs ⟨max t.now b + pause, as ++ extra, true, t.trace ++ [.sent f, .got m]⟩ rfl as rfl
          (List.forall₂_cons.1 hall).2
        exact ⟨congrArg (verdict m :: ·) i1, i2⟩

/-- C147, after one late answer: the command times out, and from then on each command is told the answer to the one before it,
though every further answer comes in time.  One answer is left in the end. -/
theorem C147_behind_partial (cfg : Config) (hc : cfg.session ≠ .event) (cmd : M Unit) (pause : Nat) (plan : List (M Unit × Nat))
    (f : Str) (fs : List Str) (hs : Sends cfg cmd f) (hfs : Orders cfg plan fs) (t : TWorld) (ht : t.started = true)
    (a : Nat) (m : Msg) (as extra : Arrivals) (ha : t.arrivals = (a, m) :: (as ++ extra))
    (hlate : t.now + 5000 ≤ a) (hnext : a < t.now + 5000 + pause + 5000)
    (hall : List.Forall₂ InTime (onward ((cmd, pause) :: plan) t).1.tail as) :
    (onward ((cmd, pause) :: plan) t).1.map (·.2) =
        .error .timeoutError :: (((a, m) :: as).take plan.length).map (fun b => verdict b.2) ∧
      (onward ((cmd, pause) :: plan) t).2.arrivals = ((a, m) :: as).drop plan.length ++ extra := by
  rw [onward_late cfg hc cmd f hs pause plan t ht (fun a' m' r e => by rw [ha] at e; cases e; exact hlate)] at hall ⊢
  dsimp only [List.tail_cons] at hall ⊢
  obtain ⟨i1, i2, -⟩ := onward_behind cfg hc plan fs hfs ⟨t.now + 5000 + pause, t.arrivals, true, t.trace ++ [.sent f]⟩ rfl
    a m as extra ha hnext hall
  exact ⟨by rw [List.map_cons, i1], i2⟩

/-- Two orders to a lamp, one second apart; the gateway acknowledges the first after 5.5 seconds and refuses the second half a
second after it was given. -/
abbrev C147_world : TWorld := ⟨0, [(5500, .ack), (6500, .nack)], true, []⟩

/-- C147 fails: the second order is refused, and the program is told that it succeeded. -/
theorem C147_own_refuted (cfg : Config) (hc : cfg.session ≠ .event) : ¬ C147_full cfg := by
  intro h
  have s1 : Sends cfg (Cmd.lightTurnOn.run cfg ⟨.lighting, ⟨cs!"11"⟩⟩) cs!"*1*1*11##" :=
    sends_normal cfg (i := ⟨.lighting, ⟨cs!"11"⟩⟩) (what := cs!"1") (by decide +kernel) (by decide +kernel)
  have e : onward [(Cmd.lightTurnOn.run cfg ⟨.lighting, ⟨cs!"11"⟩⟩, 1000), (Cmd.lightTurnOn.run cfg ⟨.lighting, ⟨cs!"11"⟩⟩, 0)]
      C147_world = ([(0, .error .timeoutError), (6000, .ok ())],
        ⟨6000, [(6500, .nack)], true, [.sent cs!"*1*1*11##", .sent cs!"*1*1*11##", .got .ack]⟩) := by
    rw [onward_late cfg hc _ _ s1 1000 _ C147_world rfl (fun a m r e => by cases e; decide),
      onward_answered cfg hc _ _ s1 0 _ _ rfl 5500 .ack [(6500, .nack)] rfl (by decide)]
    rfl
  have := h _ _ (.cons s1 (.cons s1 .nil)) C147_world rfl (by
    rw [e]; exact .cons (by decide) (.cons (by decide) .nil)) 1 (6500, .nack) rfl (by rw [e]; rfl)
  cases this

/-- `C147_in_time_partial` is not empty: two orders, answered after a tenth of a second each. -/
example (cfg : Config) (hc : cfg.session ≠ .event) :
    (onward [(Cmd.lightTurnOn.run cfg ⟨.lighting, ⟨cs!"11"⟩⟩, 1000), (Cmd.lightTurnOn.run cfg ⟨.lighting, ⟨cs!"11"⟩⟩, 0)]
      ⟨0, [(100, .ack), (1200, .nack)], true, []⟩).1.map (·.2) = [.ok (), .error .responseError] := by
  have s1 : Sends cfg (Cmd.lightTurnOn.run cfg ⟨.lighting, ⟨cs!"11"⟩⟩) cs!"*1*1*11##" :=
    sends_normal cfg (i := ⟨.lighting, ⟨cs!"11"⟩⟩) (what := cs!"1") (by decide +kernel) (by decide +kernel)
  refine (C147_in_time_partial cfg hc _ _ (.cons s1 (.cons s1 .nil)) ⟨0, [(100, .ack), (1200, .nack)], true, []⟩ rfl
    [(100, .ack), (1200, .nack)] [] rfl ?_).1
  rw [onward_answered cfg hc _ _ s1 1000 _ _ rfl 100 .ack [(1200, .nack)] rfl (by decide),
    onward_answered cfg hc _ _ s1 0 _ _ rfl 1200 .nack [] rfl (by decide)]
  exact .cons ⟨by decide, by decide⟩ (.cons ⟨by decide, by decide⟩ .nil)

/-- `C147_behind_partial` is not empty: three orders, the first acknowledged after 5.5 seconds, the others refused and acknowledged
after half a second; the program is told timeout, success, refusal. -/
example (cfg : Config) (hc : cfg.session ≠ .event) (cmd : M Unit) (f : Str) (s1 : Sends cfg cmd f) :
    (onward [(cmd, 1000), (cmd, 1000), (cmd, 0)] ⟨0, [(5500, .ack), (6500, .nack), (7500, .ack)], true, []⟩).1.map (·.2) =
      [.error .timeoutError, .ok (), .error .responseError] := by
  refine (C147_behind_partial cfg hc cmd 1000 [(cmd, 1000), (cmd, 0)] f _ s1 (.cons s1 (.cons s1 .nil))
    ⟨0, [(5500, .ack), (6500, .nack), (7500, .ack)], true, []⟩ rfl 5500 .ack [(6500, .nack), (7500, .ack)] [] rfl
    (by decide) (by decide) ?_).1
  rw [onward_late cfg hc _ _ s1 1000 _ _ rfl (fun a m r e => by cases e; decide),
    onward_answered cfg hc _ _ s1 1000 _ _ rfl 5500 .ack [(6500, .nack), (7500, .ack)] rfl (by simp),
    onward_answered cfg hc _ _ s1 0 _ _ rfl 6500 .nack [(7500, .ack)] rfl (by simp)]
  exact .cons ⟨by simp, by simp⟩ (.cons ⟨by simp, by simp⟩ .nil)

/-- `C147_lag` is not empty: two commands time out before the third, which is told the first message that arrived. -/
example (cfg : Config) (hc : cfg.session ≠ .event) (cmd : M Unit) (f : Str) (s1 : Sends cfg cmd f) :
    (onward [(cmd, 0), (cmd, 0), (cmd, 0)] ⟨0, [(11000, .nack), (11500, .ack), (12000, .ack)], true, []⟩).1.map (·.2) =
        [.error .timeoutError, .error .timeoutError, .error .responseError] ∧
      timeouts [.error .timeoutError, .error .timeoutError] = 2 := by
  refine ⟨?_, rfl⟩
  rw [onward_late cfg hc _ _ s1 0 _ ⟨0, [(11000, .nack), (11500, .ack), (12000, .ack)], true, []⟩ rfl
      (fun a m r e => by cases e; decide),
    onward_late cfg hc _ _ s1 0 _ ⟨0 + 5000 + 0, [(11000, .nack), (11500, .ack), (12000, .ack)], true, _⟩ rfl
      (fun a m r e => by cases e; simp),
    onward_answered cfg hc _ _ s1 0 _ _ rfl 11000 .nack [(11500, .ack), (12000, .ack)] rfl (by simp)]
  rfl
