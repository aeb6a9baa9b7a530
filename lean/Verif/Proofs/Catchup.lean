import Verif.Model.Catchup
import Verif.Spec.Catchup
import Verif.Proofs.Onward

open Py Spec Spec.Retry Spec.Onward Spec.Catchup Timed Catchup

/-- A read that finds a message. -/
theorem reads_takes (d n : Nat) (t : TWorld) (ht : t.started = true) (a : Nat) (m : Msg) (rest : Arrivals)
    (ha : t.arrivals = (a, m) :: rest) (hin : a ≤ t.now ∨ a < t.now + d) :
    reads d (n + 1) t = reads d n ⟨max t.now a, rest, true, t.trace ++ [.got m]⟩ := by
  obtain ⟨now, as, st, tr⟩ := t
  dsimp only at ht ha hin
  subst ht ha
  conv_lhs => unfold reads
  unfold Timed.read
  simp [hin]

/-- A read that does not. -/
theorem reads_ends (d n : Nat) (t : TWorld) (ht : t.started = true)
    (hq : ∀ a m rest, t.arrivals = (a, m) :: rest → ¬ (a ≤ t.now ∨ a < t.now + d)) :
    reads d (n + 1) t = ⟨t.now + d, t.arrivals, true, t.trace⟩ := by
  obtain ⟨now, as, st, tr⟩ := t
  dsimp only at ht hq
  subst ht
  conv_lhs => unfold reads
  unfold Timed.read
  rcases as with _ | ⟨⟨a, m⟩, rest⟩
  · rfl
  · have := hq a m rest rfl
    simp [this]

/-- The reads end with a wait of `d`, and what is left has not arrived by then. -/
theorem reads_spec (d : Nat) (as : Arrivals) :
    ∀ (n : Nat) (t : TWorld) (_ : t.started = true) (_ : t.arrivals = as) (_ : as.length < n),
      ∃ k, reads d n t = ⟨((as.take k).map (·.1)).foldl max t.now + d, as.drop k, true, t.trace ++ (as.take k).map (fun p => .got p.2)⟩ ∧
        ∀ a m rest, as.drop k = (a, m) :: rest → ((as.take k).map (·.1)).foldl max t.now + d ≤ a := by
  induction as with
  | nil =>
    intro n t ht ha hn
    obtain ⟨n, rfl⟩ : ∃ k, n = k + 1 := ⟨n - 1, by simp at hn; omega⟩
    refine ⟨0, ?_, by simp⟩
    rw [reads_ends d n t ht (by rw [ha]; intro a m r e; cases e), ha]
    simp
  | cons p as ih =>
    obtain ⟨a, m⟩ := p
    intro n t ht ha hn
    obtain ⟨n, rfl⟩ : ∃ k, n = k + 1 := ⟨n - 1, by simp at hn; omega⟩
    by_cases h : a ≤ t.now ∨ a < t.now + d
    · rw [reads_takes d n t ht a m as ha h]
      obtain ⟨k, k1, k2⟩ := ih n ⟨max t.now a, as, true, t.trace ++ [.got m]⟩ rfl rfl (by simpa using hn)
      refine ⟨k + 1, ?_, ?_⟩
      · rw [k1]; simp
      · intro a' m' r e
        have := k2 a' m' r (by simpa using e)
        simpa using this
    · refine ⟨0, ?_, ?_⟩
      · rw [reads_ends d n t ht (by rw [ha]; intro a' m' r e; cases e; exact h), ha]
        simp
      · intro a' m' r e
        simp only [List.drop_zero, List.cons.injEq, Prod.mk.injEq] at e
        obtain ⟨⟨rfl, rfl⟩, rfl⟩ := e
        simp only [List.take_zero, List.map_nil, List.foldl_nil]
        omega

/-- Each message that is read makes the reads at most `d` longer. -/
theorem reads_time (d : Nat) (as : Arrivals) :
    ∀ (n : Nat) (t : TWorld) (_ : t.started = true) (_ : t.arrivals = as) (_ : as.length < n),
      ∃ k ≤ as.length, (reads d n t).arrivals = as.drop k ∧ (reads d n t).now ≤ t.now + (k + 1) * d := by
  induction as with
  | nil =>
    intro n t ht ha hn
    obtain ⟨n, rfl⟩ : ∃ k, n = k + 1 := ⟨n - 1, by simp at hn; omega⟩
    refine ⟨0, le_refl _, ?_⟩
    rw [reads_ends d n t ht (by rw [ha]; intro a m r e; cases e), ha]
    simp
  | cons p as ih =>
    obtain ⟨a, m⟩ := p
    intro n t ht ha hn
    obtain ⟨n, rfl⟩ : ∃ k, n = k + 1 := ⟨n - 1, by simp at hn; omega⟩
    by_cases h : a ≤ t.now ∨ a < t.now + d
    · rw [reads_takes d n t ht a m as ha h]
      obtain ⟨k, k0, k1, k2⟩ := ih n ⟨max t.now a, as, true, t.trace ++ [.got m]⟩ rfl rfl (by simpa using hn)
      refine ⟨k + 1, by simpa using k0, k1, ?_⟩
      dsimp only at k2
      rw [Nat.add_mul (k + 1) 1 d]
      omega
    · refine ⟨0, Nat.zero_le _, ?_⟩
      rw [reads_ends d n t ht (by rw [ha]; intro a' m' r e; cases e; exact h), ha]
      simp

/-- A fold of `max` is not below its start. -/
theorem le_foldl_max (l : List Nat) (x : Nat) : x ≤ l.foldl max x := by
  induction l generalizing x with
  | nil => exact le_refl _
  | cons y l ih => exact le_trans (le_max_left x y) (ih _)

/-- A command that finds a message in time. -/
theorem careful_answered (cfg : Config) (hc : cfg.session ≠ .event) (d : Nat) (cmd : M Unit) (f : Str) (hs : Sends cfg cmd f)
    (pause : Nat) (plan : List (M Unit × Nat)) (t : TWorld) (ht : t.started = true) (a : Nat) (m : Msg) (rest : Arrivals)
    (ha : t.arrivals = (a, m) :: rest) (hin : a < t.now + 5000) :
    careful d ((cmd, pause) :: plan) t =
      ((t.now, verdict m) :: (careful d plan ⟨max t.now a + pause, rest, true, t.trace ++ [.sent f, .got m]⟩).1,
        (careful d plan ⟨max t.now a + pause, rest, true, t.trace ++ [.sent f, .got m]⟩).2) := by
  have e := (C107_command_exact cfg hc cmd f hs t ht).1 a m rest ha hin
  have hv : (if m = .ack then .ok () else .error .responseError : Except Err Unit) = verdict m := rfl
  rw [hv] at e
  conv_lhs => unfold careful
  rw [e]
  have hne : verdict m ≠ .error .timeoutError := by unfold verdict; split <;> simp
  dsimp only
  split
  · rename_i h; exact absurd h hne
  · rfl

/-- A command that does not, and the reads after it. -/
theorem careful_late (cfg : Config) (hc : cfg.session ≠ .event) (d : Nat) (cmd : M Unit) (f : Str) (hs : Sends cfg cmd f)
    (pause : Nat) (plan : List (M Unit × Nat)) (t : TWorld) (ht : t.started = true) (hq : Quiet t.now t.arrivals)
    (u : TWorld) (hu : discard d ⟨t.now + 5000, t.arrivals, true, t.trace ++ [.sent f]⟩ = u) :
    careful d ((cmd, pause) :: plan) t =
      ((t.now, .error .timeoutError) :: (careful d plan { u with now := u.now + pause }).1,
        (careful d plan { u with now := u.now + pause }).2) := by
  have e := (C107_command_exact cfg hc cmd f hs t ht).2 hq
  conv_lhs => unfold careful
  rw [e]
  dsimp only
  rw [hu]

/-- When the first command of a plan is given. -/
theorem careful_now (d : Nat) (p : M Unit × Nat) (plan : List (M Unit × Nat)) (t : TWorld) :
    ∃ r rs, (careful d (p :: plan) t).1 = (t.now, r) :: rs := ⟨_, _, rfl⟩
