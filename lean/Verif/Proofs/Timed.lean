import Verif.Spec.Timed
import Verif.Props.Waits

/-!
# Lemmas on the clock
-/

open Py Spec Timed M

namespace Clock

theorem lastAt_cons (now : Nat) (p : Nat × Msg) (as : Arrivals) : lastAt now (p :: as) = lastAt (max now p.1) as := rfl

theorem le_lastAt (as : Arrivals) : ∀ now, now ≤ lastAt now as := by
  induction as with
  | nil => intro now; exact le_refl _
  | cons p as ih => intro now; rw [lastAt_cons]; exact le_trans (le_max_left _ _) (ih _)

theorem steady_bound (as : Arrivals) : ∀ now, Steady now as → lastAt now as ≤ now + 5000 * as.length := by
  induction as with
  | nil => intro now _; simp [lastAt]
  | cons p as ih =>
    obtain ⟨a, m⟩ := p
    intro now h
    rw [lastAt_cons]
    have := ih _ h.2
    have h1 := h.1
    simp only [List.length_cons]
    omega

theorem inboxOf_append (xs ys : Arrivals) : ∀ now, Steady now xs →
    inboxOf now (xs ++ ys) = xs.map (fun p => InEv.msg p.2) ++ inboxOf (lastAt now xs) ys := by
  induction xs with
  | nil => intro now _; rfl
  | cons p xs ih =>
    obtain ⟨a, m⟩ := p
    intro now h
    rw [List.cons_append, inboxOf, if_pos (by exact h.1), ih _ h.2]
    rfl

theorem pass_append (xs ys : Arrivals) (n : Nat) : ∀ now, Steady now xs →
    pass now (xs ++ ys) (xs.length + n) = pass (lastAt now xs) ys n := by
  induction xs with
  | nil => intro now _; simp [lastAt]
  | cons p xs ih =>
    obtain ⟨a, m⟩ := p
    intro now h
    rw [List.length_cons, show xs.length + 1 + n = (xs.length + n) + 1 by omega, List.cons_append]
    rw [show pass now ((a, m) :: (xs ++ ys)) (xs.length + n + 1) =
      if a < now + limit then pass (max now a) (xs ++ ys) (xs.length + n) else (now + limit, (a, m) :: (xs ++ ys)) from rfl,
      if_pos (by exact h.1), ih _ h.2]
    rfl

theorem inboxOf_quiet {now : Nat} {ys : Arrivals} (h : Quiet now ys) : inboxOf now ys = [.silence] := by
  cases ys with
  | nil => rfl
  | cons p ys =>
    obtain ⟨a, m⟩ := p
    have := h a m ys rfl
    rw [inboxOf, if_neg (by unfold limit; omega)]

theorem pass_quiet {now : Nat} {ys : Arrivals} (h : Quiet now ys) : pass now ys 1 = (now + 5000, ys) := by
  cases ys with
  | nil => rfl
  | cons p ys =>
    obtain ⟨a, m⟩ := p
    have := h a m ys rfl
    unfold pass
    dsimp only
    rw [if_neg (by unfold limit; omega)]
    rfl

theorem quiet_or (now : Nat) (ys : Arrivals) : Quiet now ys ∨ ∃ a m rest, ys = (a, m) :: rest ∧ a < now + 5000 := by
  cases ys with
  | nil => exact .inl fun _ _ _ h => by cases h
  | cons p ys =>
    obtain ⟨a, m⟩ := p
    by_cases h : a < now + 5000
    · exact .inr ⟨a, m, ys, rfl, h⟩
    · exact .inl fun _ _ _ e => by cases e; omega

/-- The messages taken from the events are messages that arrived. -/
theorem split_taken (taken : List Msg) : ∀ (now : Nat) (as : Arrivals) (rest : List InEv),
    inboxOf now as = taken.map InEv.msg ++ rest →
    ∃ xs ys, as = xs ++ ys ∧ xs.map (·.2) = taken ∧ Steady now xs ∧ rest = inboxOf (lastAt now xs) ys := by
  induction taken with
  | nil =>
    intro now as rest h
    exact ⟨[], as, rfl, rfl, trivial, h.symm⟩
  | cons m taken ih =>
    intro now as rest h
    rcases quiet_or now as with hq | ⟨a, m', as', rfl, ha⟩
    · rw [inboxOf_quiet hq] at h; cases h
    · rw [inboxOf, if_pos (by exact ha)] at h
      simp only [List.map_cons, List.cons_append, List.cons.injEq, InEv.msg.injEq] at h
      obtain ⟨rfl, h⟩ := h
      obtain ⟨xs, ys, rfl, rfl, h3, h4⟩ := ih _ _ _ h
      exact ⟨(a, m') :: xs, ys, rfl, rfl, ⟨ha, h3⟩, h4⟩

/-- A call that takes these messages and no more. -/
theorem call_taken {ρ : Type} {f : World → ρ × World} {t : TWorld} {xs ys : Arrivals} {r : ρ} {w : World}
    (ha : t.arrivals = xs ++ ys) (hs : Steady t.now xs)
    (hf : f ⟨[], t.started, xs.map (fun p => InEv.msg p.2) ++ inboxOf (lastAt t.now xs) ys, t.trace⟩ = (r, w))
    (hi : w.inbox = inboxOf (lastAt t.now xs) ys) :
    call f t = (r, ⟨lastAt t.now xs, ys, w.started, w.trace⟩) := by
  unfold call
  dsimp only
  rw [ha, inboxOf_append _ _ _ hs, hf]
  dsimp only
  rw [hi, List.length_append, List.length_map, Nat.add_sub_cancel]
  have := pass_append xs ys 0 t.now hs
  rw [Nat.add_zero] at this
  rw [this]
  rfl

/-- A call that takes these messages and times out. -/
theorem call_timeout {ρ : Type} {f : World → ρ × World} {t : TWorld} {xs ys : Arrivals} {r : ρ} {w : World}
    (ha : t.arrivals = xs ++ ys) (hs : Steady t.now xs) (hq : Quiet (lastAt t.now xs) ys)
    (hf : f ⟨[], t.started, xs.map (fun p => InEv.msg p.2) ++ [.silence], t.trace⟩ = (r, w))
    (hi : w.inbox = []) :
    call f t = (r, ⟨lastAt t.now xs + 5000, ys, w.started, w.trace⟩) := by
  unfold call
  dsimp only
  rw [ha, inboxOf_append _ _ _ hs, inboxOf_quiet hq, hf]
  dsimp only
  rw [hi, List.length_append, List.length_map]
  simp only [List.length_cons, List.length_nil, Nat.sub_zero]
  rw [pass_append xs ys _ t.now hs, pass_quiet hq]

theorem punctual_of_patient {ρ : Type} {raised : ρ → Option Err} {f : World → ρ × World} (h : Patient raised f) :
    Punctual raised f := by
  intro t ht
  obtain ⟨taken, rest, acts, a, b, c, d, e⟩ := h ⟨[], t.started, inboxOf t.now t.arrivals, t.trace⟩ ht
  dsimp only at a b
  obtain ⟨xs, ys, h1, h2, h3, h4⟩ := split_taken taken t.now t.arrivals rest a
  have hin : inboxOf t.now t.arrivals = xs.map (fun p => InEv.msg p.2) ++ inboxOf (lastAt t.now xs) ys := by
    rw [h1]; exact inboxOf_append _ _ _ h3
  rw [hin] at b d e
  rcases hf : f ⟨[], t.started, xs.map (fun p => InEv.msg p.2) ++ inboxOf (lastAt t.now xs) ys, t.trace⟩ with ⟨r, w⟩
  rw [hf] at b d e
  dsimp only at b d e
  rcases e with ⟨e1, e2⟩ | ⟨e1, e2, e3⟩
  · have hc := call_taken h1 h3 hf (e1.trans h4)
    rw [hc]
    exact ⟨xs, ys, acts, h1, h3, b, c.trans h2.symm, d, rfl, .inl ⟨e2, rfl⟩⟩
  · have hq : Quiet (lastAt t.now xs) ys := by
      rcases quiet_or (lastAt t.now xs) ys with hq | ⟨a', m', as', rfl, ha'⟩
      · exact hq
      · exfalso
        rw [inboxOf, if_pos (by exact ha')] at h4
        exact e2 _ _ h4
    rw [inboxOf_quiet hq] at hf h4
    have hc := call_timeout h1 h3 hq hf (by rw [e3, h4]; rfl)
    rw [hc]
    exact ⟨xs, ys, acts, h1, h3, b, c.trans h2.symm, d, rfl, .inr ⟨e1, hq, rfl⟩⟩

end Clock
