import Verif.Spec.Concurrent
import Verif.Proofs.Items

/-! # Tasks that wait for messages (helper lemmas) -/

open Py Spec Spec.Concurrent Concurrent

theorem run_append (prog : Nat → Req) (evs : List Ev) (e : Ev) :
    run prog (evs ++ [e]) = State.step prog (run prog evs) e := by
  simp [run, List.foldl_append]

theorem take_split (want : Msg → Bool) (q : List Msg) :
    (take want q).1 ++ (take want q).2.1 = q ∧ ((take want q).2.2 = none → (take want q).2.1 = []) ∧
      ((take want q).2.2 ≠ none → (take want q).2.1.length < q.length) := by
  induction q with
  | nil => simp [take]
  | cons m q ih =>
    unfold take
    by_cases h : want m = true
    · rw [if_pos h]
      refine ⟨by simp [ih.1], ih.2.1, fun h' => ?_⟩
      have := ih.2.2 h'
      simp; omega
    · rw [if_neg h]; simp

/-- What `State.read` does, without the queue discipline. -/
theorem read_cases' (s : State) (want : Msg → Bool) (id : Nat) :
    (∃ taken, taken = s.queue ∧ s.read want id =
      { s with queue := [], got := s.got ++ taken.map (id, ·), waiting := s.waiting ++ [id] }) ∨
    (∃ taken rest r, taken ++ rest = s.queue ∧ rest.length < s.queue.length ∧ s.read want id =
      { s with queue := rest, got := s.got ++ taken.map (id, ·), finished := s.finished ++ [(id, r)] }) := by
  have h := take_split want s.queue
  unfold State.read
  rcases ht : take want s.queue with ⟨taken, rest, _ | r⟩
  · rw [ht] at h
    have h2 := h.2.1 rfl
    simp only at h2 h
    subst h2
    exact .inl ⟨taken, by simpa using h.1, rfl⟩
  · rw [ht] at h
    exact .inr ⟨taken, rest, r, h.1, h.2.2 (by simp), rfl⟩

/-- How often a task is accounted for. -/
def tally (s : State) (a : Nat) : Nat :=
  s.waiting.count a + s.woken.count a + (s.finished.map (·.1)).count a + s.cancelled.count a

theorem tally_read (s : State) (want : Msg → Bool) (id a : Nat) :
    tally (s.read want id) a = tally s a + if id = a then 1 else 0 := by
  unfold tally
  rcases read_cases' s want id with ⟨taken, h1, h2⟩ | ⟨taken, rest, r, h1, _, h2⟩ <;> rw [h2] <;>
    simp only [List.map_append, List.count_append, List.map_cons, List.map_nil, List.count_cons, List.count_nil, beq_iff_eq] <;> omega

theorem tally_wakeup (s : State) (a : Nat) : tally s.wakeup a = tally s a := by
  unfold State.wakeup
  split
  · rfl
  · rename_i id rest h
    simp only [tally, h, List.count_append, List.count_cons, List.count_nil]
    omega

theorem count_erase_add {l : List Nat} {id : Nat} (h : id ∈ l) (a : Nat) :
    (l.erase id).count a + (if id = a then 1 else 0) = l.count a := by
  rw [(List.perm_cons_erase h).count_eq a, List.count_cons]
  simp

/-- Whoever was cancelled stays cancelled. -/
theorem cancelled_step (prog : Nat → Req) (s : State) (e : Ev) (id : Nat) (h : id ∈ s.cancelled) :
    id ∈ (s.step prog e).cancelled := by
  have hr : ∀ (s : State) want k, (s.read want k).cancelled = s.cancelled := by
    intro s want k
    rcases read_cases' s want k with ⟨_, _, h2⟩ | ⟨_, _, _, _, _, h2⟩ <;> rw [h2]
  have hw : ∀ s : State, s.wakeup.cancelled = s.cancelled := by
    intro s; unfold State.wakeup; split <;> rfl
  cases e with
  | start k => exact (hr _ _ _).symm ▸ h
  | arrive m => exact (hw _).symm ▸ h
  | resume =>
    unfold State.step; dsimp only
    split
    · exact h
    · exact (hr _ _ _).symm ▸ h
  | expire k =>
    unfold State.step; dsimp only
    split_ifs
    · exact h
    · exact h
    · exact (hw _).symm ▸ h
    · exact h
  | cancel k =>
    unfold State.step; dsimp only
    split_ifs
    · exact List.mem_append_left _ h
    · exact List.mem_append_left _ h
    · exact (hw _).symm ▸ List.mem_append_left _ h
    · exact h

theorem type_ack {m : Msg} : m.type = .ack ↔ m = .ack := by
  cases m <;> simp [Msg.type]
