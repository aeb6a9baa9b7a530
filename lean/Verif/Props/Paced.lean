import Verif.Proofs.Paced

/-!
# C146: commands that are tried again after a pause, on a clock
-/

open Py Spec Spec.Retry Timed

/-- C146: something arrives before the last attempt has timed out.  The first message is the answer of the first attempt that has
not timed out when it arrives, also if it arrives in a pause; the attempts before have written the frame and waited five seconds. -/
theorem C146_answered (cfg : Config) (hc : cfg.session ≠ .event) (cmd : M Unit) (f : Str) (hs : Sends cfg cmd f) (pause n : Nat)
    (t : TWorld) (ht : t.started = true) (a : Nat) (m : Msg) (rest : Arrivals) (ha : t.arrivals = (a, m) :: rest)
    (hin : a < t.now + n * (5000 + pause) + 5000) :
    ∃ k ≤ n, a < t.now + k * (5000 + pause) + 5000 ∧ (∀ j < k, t.now + j * (5000 + pause) + 5000 ≤ a) ∧
      Paced.attempts pause cmd n t = (verdict m,
        ⟨max (t.now + k * (5000 + pause)) a, rest, true, t.trace ++ (List.replicate (k + 1) (.sent f) ++ [.got m])⟩) := by
  induction n generalizing t with
  | zero =>
    refine ⟨0, le_refl _, hin, by omega, ?_⟩
    rw [paced_end cfg hc cmd f hs pause 0 t ht a m rest ha (by omega), Nat.zero_mul, Nat.add_zero]
    rfl
  | succ n ih =>
    by_cases h : a < t.now + 5000
    · refine ⟨0, Nat.zero_le _, by omega, by omega, ?_⟩
      rw [paced_end cfg hc cmd f hs pause _ t ht a m rest ha h, Nat.zero_mul, Nat.add_zero]
      rfl
    · rw [paced_step cfg hc cmd f hs pause n t ht (fun a' m' r h' => by rw [ha] at h'; cases h'; omega)]
      rw [Nat.add_mul] at hin
      obtain ⟨k, k1, k2, k3, k4⟩ := ih ⟨t.now + 5000 + pause, t.arrivals, true, t.trace ++ [.sent f]⟩ rfl ha
        (by dsimp only; omega)
      dsimp only at k2 k3 k4
      refine ⟨k + 1, by omega, ?_, ?_, ?_⟩
      · rw [Nat.add_mul]; omega
      · rintro (_ | j) hj
        · omega
        · have := k3 j (by omega)
          rw [Nat.add_mul]; omega
      · rw [k4]
        have : t.now + (k + 1) * (5000 + pause) = t.now + 5000 + pause + k * (5000 + pause) := by rw [Nat.add_mul]; omega
        rw [this, List.replicate_succ (n := k + 1)]
        simp

/-- C146: nothing arrives until the last attempt has timed out.  The frame is written `n + 1` times, and the loop raises
`TimeoutError` when all waits and pauses are over. -/
theorem C146_unanswered (cfg : Config) (hc : cfg.session ≠ .event) (cmd : M Unit) (f : Str) (hs : Sends cfg cmd f) (pause n : Nat)
    (t : TWorld) (ht : t.started = true) (hq : ∀ a m rest, t.arrivals = (a, m) :: rest → t.now + n * (5000 + pause) + 5000 ≤ a) :
    Paced.attempts pause cmd n t = (.error .timeoutError,
      ⟨t.now + n * (5000 + pause) + 5000, t.arrivals, true, t.trace ++ List.replicate (n + 1) (.sent f)⟩) := by
  induction n generalizing t with
  | zero =>
    have e := (C107_command_exact cfg hc cmd f hs t ht).2 (fun a m r h => by have := hq a m r h; omega)
    rw [Nat.zero_mul, Nat.add_zero]
    exact e
  | succ n ih =>
    rw [Nat.add_mul] at hq
    rw [paced_step cfg hc cmd f hs pause n t ht (fun a m r h => by have := hq a m r h; omega),
      ih ⟨t.now + 5000 + pause, t.arrivals, true, t.trace ++ [CAct.sent f]⟩ rfl
        (fun a m r h => by have := hq a m r h; dsimp only; omega)]
    have : t.now + (n + 1) * (5000 + pause) + 5000 = t.now + 5000 + pause + n * (5000 + pause) + 5000 := by rw [Nat.add_mul]; omega
    rw [this, List.replicate_succ (n := n + 1)]
    simp

/-- C146: whatever arrives, the loop ends within five seconds for each attempt and the pauses between them; it takes at most one
message, and succeeds only if that is ACK. -/
theorem C146_bounded (cfg : Config) (hc : cfg.session ≠ .event) (cmd : M Unit) (f : Str) (hs : Sends cfg cmd f) (pause n : Nat)
    (t : TWorld) (ht : t.started = true) :
    (Paced.attempts pause cmd n t).2.now ≤ t.now + n * (5000 + pause) + 5000 ∧
      (∃ k ≤ n, ∃ ms : List Msg, ms.length ≤ 1 ∧
        (Paced.attempts pause cmd n t).2.trace = t.trace ++ (List.replicate (k + 1) (.sent f) ++ ms.map .got) ∧
        t.arrivals.map (·.2) = ms ++ (Paced.attempts pause cmd n t).2.arrivals.map (·.2) ∧
        ((Paced.attempts pause cmd n t).1 = .ok () ↔ ms = [.ack])) := by
  by_cases h : ∃ a m rest, t.arrivals = (a, m) :: rest ∧ a < t.now + n * (5000 + pause) + 5000
  · obtain ⟨a, m, rest, ha, hin⟩ := h
    obtain ⟨k, k1, k2, k3, k4⟩ := C146_answered cfg hc cmd f hs pause n t ht a m rest ha hin
    rw [k4]
    have hk : k * (5000 + pause) ≤ n * (5000 + pause) := Nat.mul_le_mul_right _ k1
    refine ⟨by dsimp only; omega, k, k1, [m], le_refl _, rfl, by rw [ha]; rfl, ?_⟩
    unfold verdict
    constructor
    · intro h
      by_contra hne
      rw [if_neg (fun e => hne (by rw [e]))] at h
      cases h
    · intro h
      rw [if_pos (List.singleton_inj.1 h)]
  · rw [C146_unanswered cfg hc cmd f hs pause n t ht (fun a m r e => by
      by_contra hlt
      exact h ⟨a, m, r, e, by omega⟩)]
    exact ⟨le_refl _, n, le_refl _, [], by simp, by simp, rfl, by simp⟩

/-- The answer to the first attempt arrives in the pause, seven seconds after the order: the second attempt, three seconds later,
writes the frame again and takes it at once. -/
example (cfg : Config) (hc : cfg.session ≠ .event) :
    Paced.attempts 5000 (Cmd.lightTurnOn.run cfg ⟨.lighting, ⟨cs!"11"⟩⟩) 2 ⟨0, [(7000, .ack), (10500, .ack)], true, []⟩ =
      (.ok (), ⟨10000, [(10500, .ack)], true, [.sent cs!"*1*1*11##", .sent cs!"*1*1*11##", .got .ack]⟩) := by
  obtain ⟨k, k1, k2, k3, k4⟩ := C146_answered cfg hc _ _ (sends_normal cfg (i := ⟨.lighting, ⟨cs!"11"⟩⟩) (what := cs!"1")
    (by decide +kernel) (by decide +kernel)) 5000 2 ⟨0, [(7000, .ack), (10500, .ack)], true, []⟩ rfl 7000 .ack [(10500, .ack)] rfl
    (by decide)
  obtain rfl : k = 1 := by
    dsimp only at k2 k3
    rcases k with _ | _ | k
    · omega
    · rfl
    · have := k3 1 (by omega); omega
  exact k4
