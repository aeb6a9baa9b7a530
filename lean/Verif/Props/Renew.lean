import Verif.Proofs.Renew

/-!
# C149: a program that connects again after a timeout
-/

open Py Spec Spec.Retry Spec.Renew Timed Renew

/-- C149: whatever arrives and when, on every connection the commands are told the messages of this connection, the first command
the first, the second the second, and so on; only the last one on a connection may time out.  No message of one connection counts
for a command on another. -/
theorem C149_own (cfg : Config) (hc : cfg.session ≠ .event) (plan : List (M Unit × Nat)) (fs : List Str) (hfs : Orders cfg plan fs)
    (conns : List (Nat × Arrivals)) (t : TWorld) (ht : t.started = true) :
    ∃ used left, t.arrivals :: conns.map (·.2) = used ++ left ∧ List.Forall₂ Kept (renewing plan conns t) used := by
  suffices h : ∃ os oss used left, renewing plan conns t = os :: oss ∧ conns.map (·.2) = used ++ left ∧ Kept os t.arrivals ∧
      List.Forall₂ Kept oss used by
    obtain ⟨os, oss, used, left, h1, h2, h3, h4⟩ := h
    exact ⟨t.arrivals :: used, left, by rw [h2]; rfl, by rw [h1]; exact .cons h3 h4⟩
  induction plan generalizing fs conns t with
  | nil => exact ⟨[], [], [], conns.map (·.2), rfl, rfl, .done _, .nil⟩
  | cons p plan ih =>
    obtain ⟨cmd, pause⟩ := p
    cases hfs with
    | @cons _ f _ fs hs hfs =>
      by_cases h : ∃ a m rest, t.arrivals = (a, m) :: rest ∧ a < t.now + 5000
      · obtain ⟨a, m, rest, ha, hin⟩ := h
        obtain ⟨os, oss, used, left, h1, h2, h3, h4⟩ :=
          ih fs hfs conns ⟨max t.now a + pause, rest, true, t.trace ++ [CAct.sent f, CAct.got m]⟩ rfl
        rw [renewing_answered cfg hc cmd f hs pause plan conns t ht a m rest ha hin, h1, ha]
        exact ⟨_, oss, used, left, rfl, h2, .answered _ _ _ _ _ hin h3, h4⟩
      · have hq : Quiet t.now t.arrivals := fun a m r e => by
          by_contra hlt
          exact h ⟨a, m, r, e, by omega⟩
        cases conns with
        | nil =>
          rw [renewing_over cfg hc cmd f hs pause plan t ht hq]
          exact ⟨_, [], [], [], rfl, rfl, .late _ _ hq, .nil⟩
        | cons c conns =>
          obtain ⟨d, as⟩ := c
          obtain ⟨os, oss, used, left, h1, h2, h3, h4⟩ :=
            ih fs hfs conns ⟨t.now + 5000 + d + pause, as, true, t.trace ++ [CAct.sent f]⟩ rfl
          rw [renewing_late cfg hc cmd f hs pause plan d as conns t ht hq, h1]
          exact ⟨_, os :: oss, as :: used, left, rfl, by rw [List.map_cons, h2]; rfl, .late _ _ hq, .cons h3 h4⟩

/-- C149: no command is left out while there are connections: there are as many outcomes as commands, if there are at least as
many connections to come. -/
theorem C149_all (cfg : Config) (hc : cfg.session ≠ .event) (plan : List (M Unit × Nat)) (fs : List Str) (hfs : Orders cfg plan fs)
    (conns : List (Nat × Arrivals)) (hn : plan.length ≤ conns.length) (t : TWorld) (ht : t.started = true) :
    (renewing plan conns t).flatten.length = plan.length := by
  have note_length : ∀ x oss, (note x oss).flatten.length = oss.flatten.length + 1 := by
    intro x oss
    cases oss with
    | nil => rfl
    | cons os oss => simp [note]
  induction plan generalizing fs conns t with
  | nil => rfl
  | cons p plan ih =>
    obtain ⟨cmd, pause⟩ := p
    cases hfs with
    | @cons _ f _ fs hs hfs =>
      rw [List.length_cons] at hn
      by_cases h : ∃ a m rest, t.arrivals = (a, m) :: rest ∧ a < t.now + 5000
      · obtain ⟨a, m, rest, ha, hin⟩ := h
        rw [renewing_answered cfg hc cmd f hs pause plan conns t ht a m rest ha hin, note_length,
          ih fs hfs conns (by omega) _ rfl, List.length_cons]
      · have hq : Quiet t.now t.arrivals := fun a m r e => by
          by_contra hlt
          exact h ⟨a, m, r, e, by omega⟩
        cases conns with
        | nil => simp at hn
        | cons c conns =>
          obtain ⟨d, as⟩ := c
          rw [renewing_late cfg hc cmd f hs pause plan d as conns t ht hq, List.flatten_cons, List.length_append,
            ih fs hfs conns (by simpa using hn) _ rfl, List.length_cons]
          simp only [List.length_cons, List.length_nil]
          omega

/-- The first order is acknowledged after 5.5 seconds, on a connection that has been left by then; the second, on the new connection,
is refused, and the program is told so (`C147_own_refuted` is the same without the new connection). -/
example (cfg : Config) (hc : cfg.session ≠ .event) (cmd : M Unit) (f : Str) (hs : Sends cfg cmd f) :
    renewing [(cmd, 0), (cmd, 0)] [(100, [(5600, .nack)])] ⟨0, [(5500, .ack)], true, []⟩ =
      [[(0, .error .timeoutError)], [(5100, .error .responseError)]] := by
  rw [renewing_late cfg hc cmd f hs 0 _ 100 _ [] ⟨0, [(5500, .ack)], true, []⟩ rfl (fun a m r e => by cases e; simp),
    renewing_answered cfg hc cmd f hs 0 _ _ _ rfl 5600 .nack [] rfl (by simp)]
  rfl
