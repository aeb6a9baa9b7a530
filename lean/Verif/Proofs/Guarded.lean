import Verif.Spec.Guarded
import Verif.Proofs.Locked

/-!
# Lemmas about requests under a lock, with a new connection after each that is given up
-/

open Py

namespace Guarded

open Spec.Guarded Spec.Locked

theorem run_append (prog : Nat → Concurrent.Req) (evs : List Ev) (e : Ev) :
    run prog (evs ++ [e]) = (run prog evs).step prog e := by
  simp [run]

/-- Neither a timeout nor a cancellation. -/
def Quiet (log : List Concurrent.Ev) : Prop := ∀ e ∈ log, ∀ id, e ≠ .expire id ∧ e ≠ .cancel id

/-- The event gives up request `c`. -/
def GivesUp (c : Nat) (e : Concurrent.Ev) : Prop := e = .expire c ∨ e = .cancel c

/-- A connection that was left: its last request was given up, and then messages came. -/
def Left (prog : Nat → Concurrent.Req) (log : List Concurrent.Ev) : Prop :=
  ∃ l e c, ∃ late : List Msg, log = l ++ [e] ++ late.map Concurrent.Ev.arrive ∧ Spec.Concurrent.AtStart prog Spec.Concurrent.Alone l ∧ Quiet l ∧
    GivesUp c e ∧ underWay (Concurrent.run prog l) = [c]

/-- The invariant. -/
structure Inv (prog : Nat → Concurrent.Req) (s : State) : Prop where
  left : ∀ log ∈ s.old, Left prog log
  quiet : Quiet s.lock.log
  on : s.restarting = false → Locked.Inv prog s.lock
  off : s.restarting = true → s.lock.log = [] ∧ s.lock.holder ≠ none ∧ s.lock.granted = false

theorem quiet_append {log : List Concurrent.Ev} (h : Quiet log) {e : Concurrent.Ev} (he : ∀ id, e ≠ .expire id ∧ e ≠ .cancel id) :
    Quiet (log ++ [e]) := by
  intro x hx
  rcases List.mem_append.1 hx with hx | hx
  · exact h x hx
  · rw [List.mem_singleton.1 hx]; exact he

theorem lock_quiet (prog : Nat → Concurrent.Req) (s : Locked.State) (h : Quiet s.log) (e : Locked.Ev)
    (he : ∀ id, e ≠ .expire id ∧ (e = .cancel id → id ∈ s.line)) : Quiet (s.step prog e).log := by
  cases e with
  | call id =>
    dsimp only [Locked.State.step]
    split
    · simp only [Locked.State.happens, Locked.release_log]
      exact quiet_append h fun id => ⟨by simp, by simp⟩
    · exact h
  | arrive m =>
    simp only [Locked.State.step, Locked.State.happens, Locked.release_log]
    exact quiet_append h fun id => ⟨by simp, by simp⟩
  | resume =>
    simp only [Locked.State.step, Locked.State.happens, Locked.release_log]
    exact quiet_append h fun id => ⟨by simp, by simp⟩
  | enter =>
    dsimp only [Locked.State.step]
    split
    · simp only [Locked.State.happens, Locked.release_log]
      exact quiet_append h fun id => ⟨by simp, by simp⟩
    · exact h
  | expire id => exact absurd rfl (he id).1
  | cancel id =>
    dsimp only [Locked.State.step]
    rw [if_pos ((he id).2 rfl)]
    split <;> exact h

theorem giveUp_inv {prog : Nat → Concurrent.Req} {s : State} (hi : Inv prog s) {c : Nat} (hh : s.lock.holder = some c)
    (hr : s.restarting = false) {e : Concurrent.Ev} (he : GivesUp c e) : Inv prog (s.giveUp e) := by
  have hl := hi.on hr
  refine ⟨fun log hlog => ?_, fun e he => by simp [State.giveUp] at he, fun h => (by cases h), fun _ => ⟨rfl, ?_, ?_⟩⟩
  · rcases List.mem_append.1 hlog with h | h
    · exact hi.left log h
    · rw [List.mem_singleton.1 h]
      refine ⟨s.lock.log, e, c, [], by simp, hl.alone, hi.quiet, he, ?_⟩
      have := hl.under
      rw [hh] at this
      exact this
  · simp [State.giveUp, hh]
  · exact hl.held (by simp [hh])

theorem step_inv {prog : Nat → Concurrent.Req} {s : State} (hi : Inv prog s) (e : Ev) : Inv prog (s.step prog e) := by
  cases e with
  | call id =>
    refine ⟨hi.left, lock_quiet prog _ hi.quiet _ fun id => ⟨by simp, by simp⟩, fun h => Locked.step_inv (hi.on h) (.call id), fun h => ?_⟩
    obtain ⟨h1, h2, h3⟩ := hi.off h
    dsimp only [State.step, Locked.State.step]
    rw [if_neg fun h => h2 h.1]
    exact ⟨h1, h2, h3⟩
  | arrive m =>
    dsimp only [State.step]
    split
    · exact hi
    · rename_i h
      exact ⟨hi.left, lock_quiet prog _ hi.quiet _ fun id => ⟨by simp, by simp⟩, fun h => Locked.step_inv (hi.on h) (.arrive m),
        fun h' => absurd h' h⟩
  | resume =>
    dsimp only [State.step]
    split
    · exact hi
    · rename_i h
      exact ⟨hi.left, lock_quiet prog _ hi.quiet _ fun id => ⟨by simp, by simp⟩, fun h => Locked.step_inv (hi.on h) .resume,
        fun h' => absurd h' h⟩
  | late k m =>
    refine ⟨fun log hlog => ?_, hi.quiet, hi.on, hi.off⟩
    simp only [State.step] at hlog
    obtain ⟨i, hil, hi'⟩ := List.getElem_of_mem hlog
    rw [List.getElem_modify] at hi'
    have hlen : i < s.old.length := by simpa using hil
    obtain ⟨l, e, c, late, h1, h2⟩ := hi.left s.old[i] (List.getElem_mem hlen)
    split at hi'
    · refine ⟨l, e, c, late ++ [m], ?_, h2⟩
      rw [← hi', h1]
      simp
    · rw [← hi']
      exact ⟨l, e, c, late, h1, h2⟩
  | enter =>
    refine ⟨hi.left, lock_quiet prog _ hi.quiet _ fun id => ⟨by simp, by simp⟩, fun h => Locked.step_inv (hi.on h) .enter, fun h => ?_⟩
    obtain ⟨h1, h2, h3⟩ := hi.off h
    dsimp only [State.step, Locked.State.step]
    rw [h3]
    exact ⟨h1, h2, h3⟩
  | expire id =>
    dsimp only [State.step]
    split
    · rename_i h
      exact giveUp_inv hi h.1 h.2 (.inl rfl)
    · exact hi
  | cancel id =>
    dsimp only [State.step]
    split
    · rename_i hm
      refine ⟨hi.left, lock_quiet prog _ hi.quiet _ fun i => ⟨by simp, fun h => by cases h; exact hm⟩,
        fun h => Locked.step_inv (hi.on h) (.cancel id), fun h => ?_⟩
      obtain ⟨h1, h2, h3⟩ := hi.off h
      dsimp only [Locked.State.step]
      rw [if_pos hm, h3, if_neg (by simp)]
      exact ⟨h1, h2, rfl⟩
    · split
      · rename_i h
        exact giveUp_inv hi h.1 h.2 (.inr rfl)
      · exact hi
  | restarted =>
    dsimp only [State.step]
    split
    · rename_i h
      obtain ⟨h1, h2, h3⟩ := hi.off h
      refine ⟨hi.left, hi.quiet, fun _ => ⟨?_, ?_, fun _ => rfl, fun h => absurd rfl h⟩, fun h => (by cases h)⟩
      · simp only [Locked.State.base, h1]; rfl
      · dsimp only; rw [h1]; intro k hk; simp at hk
    · exact hi

theorem run_inv (prog : Nat → Concurrent.Req) (evs : List Ev) : Inv prog (run prog evs) := by
  induction evs using List.reverseRecOn with
  | nil =>
    exact ⟨fun log h => (by simp [run, State.init] at h), fun e h => (by simp [run, State.init, Locked.State.init] at h),
      fun _ => Locked.run_inv prog [], fun h => (by cases h)⟩
  | append_singleton evs e ih => rw [run_append]; exact step_inv ih e

/-- What giving up changes. -/
theorem gaveUp {prog : Nat → Concurrent.Req} {s : Concurrent.State} {c : Nat} {e : Concurrent.Ev} (h : underWay s = [c])
    (he : GivesUp c e) : (s.step prog e).got = s.got ∧ underWay (s.step prog e) = [] ∧
      (∀ id r, (id, r) ∈ (s.step prog e).finished → r ≠ .error .timeoutError → (id, r) ∈ s.finished) ∧
      (c ∈ (s.step prog e).finished.map (·.1) ∨ c ∈ (s.step prog e).cancelled) ∧
      (∀ x ∈ s.finished, x ∈ (s.step prog e).finished) := by
  have fin : ∀ (l : List (Nat × Except Err Unit)) id r, (id, r) ∈ l ++ [(c, Except.error Err.timeoutError)] →
      r ≠ .error .timeoutError → (id, r) ∈ l := by
    intro l id r hm hr
    rcases List.mem_append.1 hm with hm | hm
    · exact hm
    · simp only [List.mem_singleton, Prod.mk.injEq] at hm
      exact absurd hm.2 hr
  rcases Locked.under_cases h with ⟨h1, h2⟩ | ⟨h1, h2⟩ <;> rcases he with rfl | rfl
  · simp only [Concurrent.State.step, h1, List.mem_singleton, if_true]
    exact ⟨trivial, by simp [underWay, h2], fin _, .inl (by simp), fun x hx => by simp [hx]⟩
  · simp only [Concurrent.State.step, h1, List.mem_singleton, if_true]
    exact ⟨trivial, by simp [underWay, h2], fun _ _ h _ => h, .inr (by simp), fun x hx => hx⟩
  · simp only [Concurrent.State.step, h1, h2, List.mem_singleton, List.not_mem_nil, if_true, if_false, Concurrent.State.wakeup,
      ite_self]
    exact ⟨trivial, by simp [underWay], fin _, .inl (by simp), fun x hx => by simp [hx]⟩
  · simp only [Concurrent.State.step, h1, h2, List.mem_singleton, List.not_mem_nil, if_true, if_false, Concurrent.State.wakeup,
      ite_self]
    exact ⟨trivial, by simp [underWay], fun _ _ h _ => h, .inr (by simp), fun x hx => hx⟩

/-- What comes when no request is under way is left in the queue. -/
theorem lateArrivals (prog : Nat → Concurrent.Req) (late : List Msg) (s : Concurrent.State) (h : underWay s = []) :
    ((late.map Concurrent.Ev.arrive).foldl (Concurrent.State.step prog) s).got = s.got ∧
    ((late.map Concurrent.Ev.arrive).foldl (Concurrent.State.step prog) s).finished = s.finished ∧
    ((late.map Concurrent.Ev.arrive).foldl (Concurrent.State.step prog) s).cancelled = s.cancelled := by
  induction late generalizing s with
  | nil => exact ⟨rfl, rfl, rfl⟩
  | cons m late ih =>
    obtain ⟨h1, h2⟩ := List.append_eq_nil_iff.1 h
    rw [List.map_cons, List.foldl_cons]
    have := ih (s.step prog (.arrive m)) (Locked.step_none prog s _ h rfl)
    rw [this.1, this.2.1, this.2.2]
    simp [Concurrent.State.step, Concurrent.State.wakeup, h1]

theorem inOrder_prefix {answers : Nat → List Msg} {l l' : List Concurrent.Ev} (h : Spec.Concurrent.InOrder answers (l ++ l')) :
    Spec.Concurrent.InOrder answers l := fun pre hp =>
  h pre ((List.mem_inits _ _).2 (((List.mem_inits _ _).1 hp).trans (List.prefix_append _ _)))

theorem starts_append (l l' : List Concurrent.Ev) :
    Spec.Concurrent.starts (l ++ l') = Spec.Concurrent.starts l ++ Spec.Concurrent.starts l' := by
  simp [Spec.Concurrent.starts]

/-- What was begun on all connections and what is in line was called, in that order. -/
theorem run_sublist (prog : Nat → Concurrent.Req) (evs : List Ev) :
    ((connections (run prog evs)).flatMap Spec.Concurrent.starts ++ (run prog evs).lock.line).Sublist (called evs) := by
  induction evs using List.reverseRecOn with
  | nil => exact List.Sublist.refl _
  | append_singleton evs e ih =>
    rw [run_append]
    have hi := run_inv prog evs
    generalize run prog evs = s at ih hi
    have hc : called (evs ++ [e]) = called evs ++ called [e] := by simp [called]
    rw [hc]
    have same : ∀ {l : List Nat}, l.Sublist (called evs) → l.Sublist (called evs ++ called [e]) := fun h =>
      h.trans (List.sublist_append_left _ _)
    simp only [connections, List.flatMap_append, List.flatMap_cons, List.flatMap_nil, List.append_nil] at ih ⊢
    -- a step of the lock
    have lock : ∀ (x : Locked.Ev) (ys : List Nat),
        (Spec.Concurrent.starts (s.lock.step prog x).log ++ (s.lock.step prog x).line).Sublist
          (Spec.Concurrent.starts s.lock.log ++ s.lock.line ++ ys) →
        (s.old.flatMap Spec.Concurrent.starts ++ Spec.Concurrent.starts (s.lock.step prog x).log ++
          (s.lock.step prog x).line).Sublist (called evs ++ ys) := by
      intro x ys h
      rw [List.append_assoc]
      refine (List.Sublist.append (List.Sublist.refl _) h).trans ?_
      rw [← List.append_assoc, ← List.append_assoc]
      exact List.Sublist.append ih (List.Sublist.refl _)
    cases e with
    | call id =>
      refine lock (.call id) [id] ?_
      dsimp only [Locked.State.step]
      split
      · rename_i h
        simp [Locked.State.happens, h.2]
      · simp
    | arrive m =>
      dsimp only [State.step]
      split
      · exact same ih
      · refine lock (.arrive m) [] ?_
        simp [Locked.State.step, Locked.State.happens]
    | resume =>
      dsimp only [State.step]
      split
      · exact same ih
      · refine lock .resume [] ?_
        simp [Locked.State.step, Locked.State.happens]
    | late k m =>
      dsimp only [State.step]
      refine same ?_
      have : (s.old.modify k (· ++ [.arrive m])).flatMap Spec.Concurrent.starts = s.old.flatMap Spec.Concurrent.starts := by
        rw [List.flatMap_def, List.flatMap_def]
        congr 1
        apply List.ext_getElem (by simp)
        intro i h1 h2
        simp only [List.getElem_map, List.getElem_modify]
        split <;> simp
      rw [this]
      exact ih
    | enter =>
      refine lock .enter [] ?_
      dsimp only [Locked.State.step]
      split
      · rename_i id rest hg hl
        simp [Locked.State.happens, hl]
      · simp
    | expire id =>
      dsimp only [State.step]
      split
      · have h0 : Spec.Concurrent.starts [] = [] := rfl
        have h1 : Spec.Concurrent.starts (s.lock.log ++ [.expire id]) = Spec.Concurrent.starts s.lock.log := by
          simp [Spec.Concurrent.starts]
        simp only [State.giveUp, List.flatMap_append, List.flatMap_cons, List.flatMap_nil, List.append_nil, h0, h1]
        exact same ih
      · exact same ih
    | cancel id =>
      dsimp only [State.step]
      split
      · rename_i hm
        refine lock (.cancel id) [] ?_
        dsimp only [Locked.State.step]
        rw [if_pos hm]
        split <;> simpa using List.erase_sublist
      · split
        · have h0 : Spec.Concurrent.starts [] = [] := rfl
          have h1 : Spec.Concurrent.starts (s.lock.log ++ [.cancel id]) = Spec.Concurrent.starts s.lock.log := by
            simp [Spec.Concurrent.starts]
          simp only [State.giveUp, List.flatMap_append, List.flatMap_cons, List.flatMap_nil, List.append_nil, h0, h1]
          exact same ih
        · exact same ih
    | restarted =>
      dsimp only [State.step]
      split <;> exact same ih

theorem kept {O C L K C' L' K' : Prop} (h : (O ∨ C) ∨ L ∨ K) (hl : C ∨ L → C' ∨ L') : (O ∨ C') ∨ L' ∨ K ∨ K' := by
  rcases h with (h | h) | h | h
  · exact .inl (.inl h)
  · exact (hl (.inl h)).elim (fun h => .inl (.inr h)) fun h => .inr (.inl h)
  · exact (hl (.inr h)).elim (fun h => .inl (.inr h)) fun h => .inr (.inl h)
  · exact .inr (.inr (.inl h))

/-- A request that was called was begun, is in line, or its task was cancelled. -/
theorem run_all (prog : Nat → Concurrent.Req) (evs : List Ev) : ∀ id ∈ called evs,
    id ∈ (connections (run prog evs)).flatMap Spec.Concurrent.starts ∨ id ∈ (run prog evs).lock.line ∨ Ev.cancel id ∈ evs := by
  induction evs using List.reverseRecOn with
  | nil => intro id h; cases h
  | append_singleton evs e ih =>
    rw [run_append]
    generalize run prog evs = s at ih
    intro id h
    have hc : called (evs ++ [e]) = called evs ++ called [e] := by simp [called]
    rw [hc, List.mem_append] at h
    simp only [connections, List.flatMap_append, List.flatMap_cons, List.flatMap_nil, List.append_nil, List.mem_append] at ih ⊢
    have ih := ih id
    -- a step of the lock that takes nobody out of line but to begin
    have lock : ∀ x : Locked.Ev, (∀ j, x ≠ .cancel j) → ∀ j,
        j ∈ Spec.Concurrent.starts s.lock.log ∨ j ∈ s.lock.line →
        j ∈ Spec.Concurrent.starts (s.lock.step prog x).log ∨ j ∈ (s.lock.step prog x).line := by
      intro x hx j hj
      cases x with
      | call i =>
        dsimp only [Locked.State.step]
        split
        · simp only [Locked.State.happens, Locked.release_log, Locked.release_line, Spec.Concurrent.starts_start, List.mem_append]
          tauto
        · simp only [List.mem_append]; tauto
      | arrive m => simpa [Locked.State.step, Locked.State.happens] using hj
      | resume => simpa [Locked.State.step, Locked.State.happens] using hj
      | enter =>
        dsimp only [Locked.State.step]
        split
        · rename_i i rest hg hl
          simp only [Locked.State.happens, Locked.release_log, Locked.release_line, Spec.Concurrent.starts_start, List.mem_append]
          rw [hl, List.mem_cons] at hj
          rcases hj with hj | rfl | hj
          · exact .inl (.inl hj)
          · exact .inl (.inr (by simp))
          · exact .inr hj
        · exact hj
      | expire i =>
        have : Spec.Concurrent.starts (s.lock.log ++ [.expire i]) = Spec.Concurrent.starts s.lock.log := by
          simp [Spec.Concurrent.starts]
        simpa [Locked.State.step, Locked.State.happens, this] using hj
      | cancel i => exact absurd rfl (hx i)
    cases e with
    | call i =>
      rcases h with h | h
      · exact kept (ih h) (lock (.call i) (by simp) id)
      · have hid : id = i := by simpa [called] using h
        subst hid
        dsimp only [State.step, Locked.State.step]
        split
        · simp [Locked.State.happens]
        · simp
    | arrive m =>
      have h := ih (h.resolve_right (by simp [called]))
      dsimp only [State.step]
      split
      · exact kept h fun h => h
      · exact kept h (lock (.arrive m) (by simp) id)
    | resume =>
      have h := ih (h.resolve_right (by simp [called]))
      dsimp only [State.step]
      split
      · exact kept h fun h => h
      · exact kept h (lock .resume (by simp) id)
    | late k m =>
      have h := ih (h.resolve_right (by simp [called]))
      dsimp only [State.step]
      have : (s.old.modify k (· ++ [.arrive m])).flatMap Spec.Concurrent.starts = s.old.flatMap Spec.Concurrent.starts := by
        rw [List.flatMap_def, List.flatMap_def]
        congr 1
        apply List.ext_getElem (by simp)
        intro i h1 h2
        simp only [List.getElem_map, List.getElem_modify]
        split <;> simp
      rw [this]
      exact kept h fun h => h
    | enter =>
      have h := ih (h.resolve_right (by simp [called]))
      exact kept h (lock .enter (by simp) id)
    | expire i =>
      have h := ih (h.resolve_right (by simp [called]))
      dsimp only [State.step]
      have h1 : Spec.Concurrent.starts (s.lock.log ++ [.expire i]) = Spec.Concurrent.starts s.lock.log := by
        simp [Spec.Concurrent.starts]
      split
      · simp only [State.giveUp, List.flatMap_append, List.flatMap_cons, List.flatMap_nil, List.append_nil, h1, List.mem_append]
        exact h.imp Or.inl (Or.imp_right Or.inl)
      · exact kept h fun h => h
    | cancel i =>
      have h := ih (h.resolve_right (by simp [called]))
      by_cases hid : id = i
      · subst hid; right; right; right; simp
      · dsimp only [State.step]
        have h1 : Spec.Concurrent.starts (s.lock.log ++ [.cancel i]) = Spec.Concurrent.starts s.lock.log := by
          simp [Spec.Concurrent.starts]
        split
        · rename_i hm
          have : id ∈ s.lock.line.erase i ↔ id ∈ s.lock.line := List.mem_erase_of_ne hid
          dsimp only [Locked.State.step]
          rw [if_pos hm]
          split <;> exact kept h fun h => h.imp_right this.2
        · split
          · simp only [State.giveUp, List.flatMap_append, List.flatMap_cons, List.flatMap_nil, List.append_nil, h1, List.mem_append]
            exact h.imp Or.inl (Or.imp_right Or.inl)
          · exact kept h fun h => h
    | restarted =>
      have h := ih (h.resolve_right (by simp [called]))
      dsimp only [State.step]
      split <;> exact kept h fun h => h

end Guarded
