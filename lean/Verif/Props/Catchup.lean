import Verif.Proofs.Catchup

/-!
# C148: a program that reads until nothing comes, after a timeout
-/

open Py Spec Spec.Retry Spec.Onward Spec.Catchup Timed Catchup

/-- C148: reading until nothing comes for `d` milliseconds takes the messages in order, ends `d` milliseconds after the last of
them (or after it began), and nothing that is left has arrived by then. -/
theorem C148_discard (d : Nat) (t : TWorld) (ht : t.started = true) :
    ∃ k, discard d t = ⟨((t.arrivals.take k).map (·.1)).foldl max t.now + d, t.arrivals.drop k, true,
        t.trace ++ (t.arrivals.take k).map (fun p => .got p.2)⟩ ∧
      ∀ a m rest, (discard d t).arrivals = (a, m) :: rest → (discard d t).now ≤ a := by
  obtain ⟨k, k1, k2⟩ := reads_spec d t.arrivals (t.arrivals.length + 1) t ht rfl (Nat.lt_succ_self _)
  refine ⟨k, k1, ?_⟩
  intro a m rest h
  have e : discard d t = _ := k1
  rw [e] at h ⊢
  exact k2 a m rest h

/-- C148: if `k` messages are read it takes at most `k + 1` times `d` milliseconds. -/
theorem C148_time (d : Nat) (t : TWorld) (ht : t.started = true) :
    ∃ k ≤ t.arrivals.length, (discard d t).arrivals = t.arrivals.drop k ∧ (discard d t).now ≤ t.now + (k + 1) * d :=
  reads_time d t.arrivals (t.arrivals.length + 1) t ht rfl (Nat.lt_succ_self _)

/-- Two messages are read, a third is not: the reads end 1000 milliseconds after the second. -/
example : discard 1000 ⟨0, [(900, .ack), (1800, .nack), (2800, .ack)], true, []⟩ =
    ⟨2800, [(2800, .ack)], true, [.got .ack, .got .nack]⟩ := by decide +kernel

/-- C148: a program that does this after each `TimeoutError` is told its own answer of every command, or that there was none in
time, if every answer arrives after the command was given and less than five seconds and `d` milliseconds later. -/
theorem C148_own (cfg : Config) (hc : cfg.session ≠ .event) (d : Nat) (plan : List (M Unit × Nat)) (fs : List Str)
    (hfs : Orders cfg plan fs) (t : TWorld) (ht : t.started = true) (as extra : Arrivals) (ha : t.arrivals = as ++ extra)
    (hall : List.Forall₂ (Within d) (careful d plan t).1 as) : List.Forall₂ Own (careful d plan t).1 as := by
  induction plan generalizing fs t as with
  | nil =>
    cases hall
    exact .nil
  | cons p plan ih =>
    obtain ⟨cmd, pause⟩ := p
    cases hfs with
    | @cons _ f _ fs hs hfs =>
      cases as with
      | nil =>
        unfold careful at hall
        cases hall
      | cons b as =>
        obtain ⟨a, m⟩ := b
        have hb : Within d (t.now, (call cmd t).1) (a, m) := by
          unfold careful at hall
          exact (List.forall₂_cons.1 hall).1
        obtain ⟨hb1, hb2⟩ := hb
        dsimp only at hb1 hb2
        by_cases hin : a < t.now + 5000
        · rw [careful_answered cfg hc d cmd f hs pause plan t ht a m _ ha hin] at hall ⊢
          refine .cons ?_ (ih fs hfs _ rfl as rfl (List.forall₂_cons.1 hall).2)
          unfold Own
          rw [if_pos hin]
        · obtain ⟨u, hu⟩ : ∃ u, discard d ⟨t.now + 5000, t.arrivals, true, t.trace ++ [.sent f]⟩ = u := ⟨_, rfl⟩
          rw [careful_late cfg hc d cmd f hs pause plan t ht
            (fun a' m' r e => by rw [ha] at e; cases e; omega) u hu] at hall ⊢
          have hall' := (List.forall₂_cons.1 hall).2
          refine .cons ?_ ?_
          · unfold Own
            rw [if_neg hin]
          · cases plan with
            | nil => cases hall'; exact .nil
            | cons p plan =>
              cases as with
              | nil => obtain ⟨r, rs, e⟩ := careful_now d p plan { u with now := u.now + pause }; rw [e] at hall'; cases hall'
              | cons b as =>
                obtain ⟨b, m'⟩ := b
                have hg : u.now + pause ≤ b := by
                  obtain ⟨r, rs, e⟩ := careful_now d p plan { u with now := u.now + pause }
                  rw [e] at hall'
                  exact (List.forall₂_cons.1 hall').1.1
                have hu' : u = ⟨a + d, (b, m') :: (as ++ extra), true, t.trace ++ [.sent f] ++ [.got m]⟩ := by
                  rw [← hu]
                  unfold Catchup.discard
                  dsimp only
                  rw [reads_takes d t.arrivals.length ⟨t.now + 5000, t.arrivals, true, t.trace ++ [CAct.sent f]⟩ rfl a m ((b, m') :: (as ++ extra)) ha
                    (Or.inr hb2)]
                  have hmax : max (t.now + 5000) a = a := by omega
                  dsimp only
                  rw [hmax, ha]
                  refine reads_ends d _ ⟨a, (b, m') :: (as ++ extra), true, _⟩ rfl ?_
                  intro b' m'' r e hlt
                  cases e
                  dsimp only at hlt
                  obtain ⟨k, k1, k2⟩ := reads_spec d (as ++ extra) (as.length + extra.length + 1)
                    ⟨max a b, as ++ extra, true, t.trace ++ [.sent f] ++ [.got m] ++ [.got m']⟩ rfl rfl (by simp)
                  have hun : u.now = (((as ++ extra).take k).map (·.1)).foldl max (max a b) + d := by
                    rw [← hu]
                    unfold Catchup.discard
                    dsimp only
                    rw [reads_takes d t.arrivals.length ⟨t.now + 5000, t.arrivals, true, t.trace ++ [CAct.sent f]⟩ rfl a m ((b, m') :: (as ++ extra)) ha
                      (Or.inr hb2)]
                    dsimp only
                    rw [hmax, ha]
                    have hl : ((a, m) :: (b, m') :: as ++ extra).length = as.length + extra.length + 1 + 1 := by simp
                    rw [hl, reads_takes d _ ⟨a, (b, m') :: (as ++ extra), true, _⟩ rfl b m' (as ++ extra) rfl hlt, k1]
                  have := le_foldl_max (((as ++ extra).take k).map (·.1)) (max a b)
                  omega
                subst hu'
                exact ih fs hfs _ rfl ((b, m') :: as) rfl hall'

/-- C148: the bound is sharp.  Whatever `d`, an answer that comes five seconds and `d` milliseconds after its command is taken for
the answer to the next, which is refused and reported as successful. -/
theorem C148_sharp (cfg : Config) (hc : cfg.session ≠ .event) (d : Nat) (hd : 0 < d) (cmd : M Unit) (f : Str)
    (hs : Sends cfg cmd f) :
    (careful d [(cmd, 0), (cmd, 0)] ⟨0, [(5000 + d, .ack), (5001 + d, .nack)], true, []⟩).1 =
      [(0, .error .timeoutError), (5000 + d, .ok ())] := by
  have hu : discard d ⟨0 + 5000, [(5000 + d, .ack), (5001 + d, .nack)], true, [] ++ [.sent f]⟩ =
      ⟨5000 + d, [(5000 + d, .ack), (5001 + d, .nack)], true, [.sent f]⟩ := by
    unfold Catchup.discard
    rw [reads_ends d _ _ rfl (fun a m r e => by cases e; dsimp only; omega)]
    rfl
  rw [careful_late cfg hc d cmd f hs 0 _ ⟨0, [(5000 + d, .ack), (5001 + d, .nack)], true, []⟩ rfl
      (fun a m r e => by cases e; dsimp only; omega) _ hu,
    careful_answered cfg hc d cmd f hs 0 _ _ rfl (5000 + d) .ack _ rfl (by dsimp only; omega)]
  rfl

/-- Three orders with an answer to each: the first comes half a second too late and is dropped, the second is a refusal, the third
is acknowledged; each order is told its own answer. -/
example (cfg : Config) (hc : cfg.session ≠ .event) (cmd : M Unit) (f : Str) (hs : Sends cfg cmd f) :
    (careful 1000 [(cmd, 0), (cmd, 500), (cmd, 0)] ⟨0, [(5500, .ack), (6600, .nack), (7200, .ack)], true, []⟩).1 =
        [(0, .error .timeoutError), (6500, .error .responseError), (7100, .ok ())] ∧
      List.Forall₂ (Within 1000)
        (careful 1000 [(cmd, 0), (cmd, 500), (cmd, 0)] ⟨0, [(5500, .ack), (6600, .nack), (7200, .ack)], true, []⟩).1
        [(5500, .ack), (6600, .nack), (7200, .ack)] := by
  have hu : discard 1000 ⟨0 + 5000, [(5500, .ack), (6600, .nack), (7200, .ack)], true, [] ++ [.sent f]⟩ =
      ⟨6500, [(6600, .nack), (7200, .ack)], true, [.sent f, .got .ack]⟩ := by
    unfold Catchup.discard
    rw [reads_takes 1000 _ _ rfl 5500 .ack [(6600, .nack), (7200, .ack)] rfl (by simp)]
    exact reads_ends 1000 2 _ rfl (fun a m r e => by cases e; simp)
  have e : (careful 1000 [(cmd, 0), (cmd, 500), (cmd, 0)] ⟨0, [(5500, .ack), (6600, .nack), (7200, .ack)], true, []⟩).1 =
      [(0, .error .timeoutError), (6500, .error .responseError), (7100, .ok ())] := by
    rw [careful_late cfg hc 1000 cmd f hs 0 _ ⟨0, [(5500, .ack), (6600, .nack), (7200, .ack)], true, []⟩ rfl (fun a m r e => by cases e; simp) _ hu,
      careful_answered cfg hc 1000 cmd f hs 500 _ _ rfl 6600 .nack [(7200, .ack)] rfl (by simp),
      careful_answered cfg hc 1000 cmd f hs 0 _ _ rfl 7200 .ack [] rfl (by simp)]
    rfl
  refine ⟨e, ?_⟩
  rw [e]
  exact .cons ⟨by simp, by simp⟩ (.cons ⟨by simp, by simp⟩ (.cons ⟨by simp, by simp⟩ .nil))
