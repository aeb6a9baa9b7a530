import Verif.Spec.Scripts
import Verif.Proofs.Concurrent

/-! # Tasks that give several commands: helper lemmas -/

open Py

namespace Scripts

/-- The first `n` requests of task `k`. -/
def reqs (p : Script) (k n : Nat) : List (Nat × Msg) := (List.range n).map fun j => (Nat.pair k j, (p k)[j]?.getD .ack)

/-- Its first `n` requests have returned. -/
def oks (k n : Nat) : List (Nat × Except Err Unit) := (List.range n).map fun j => (Nat.pair k j, .ok ())

def sentOf (s : Concurrent.State) (k : Nat) : List (Nat × Msg) := s.sent.filter fun x => x.1.unpair.1 = k

def finOf (s : Concurrent.State) (k : Nat) : List (Nat × Except Err Unit) := s.finished.filter fun x => x.1.unpair.1 = k

def pendOf (s : Concurrent.State) (k : Nat) : List Nat := (s.waiting ++ s.woken ++ s.cancelled).filter fun id => id.unpair.1 = k

/-- Where a task is. -/
inductive Phase (p : Script) (k : Nat) : List (Nat × Msg) → List (Nat × Except Err Unit) → List Nat → Prop
  | idle : Phase p k [] [] []
  | awaits (m : Nat) : m < (p k).length → Phase p k (reqs p k (m + 1)) (oks k m) [Nat.pair k m]
  | raised (m : Nat) (e : Err) : m < (p k).length → Phase p k (reqs p k (m + 1)) (oks k m ++ [(Nat.pair k m, .error e)]) []
  | done : Phase p k (reqs p k (p k).length) (oks k (p k).length) []

/-- A task has run its request number `m` up to a suspension or to its end. -/
def Ran (p : Script) (k m : Nat) (S : List (Nat × Msg)) (F : List (Nat × Except Err Unit)) (P : List Nat) : Prop :=
  S = reqs p k (m + 1) ∧ ((P = [Nat.pair k m] ∧ F = oks k m) ∨ (P = [] ∧ F = oks k (m + 1)) ∨
    (P = [] ∧ ∃ e, F = oks k m ++ [(Nat.pair k m, .error e)]))

/-- Every task is in a phase. -/
def Inv (p : Script) (s : Concurrent.State) : Prop := ∀ k, Phase p k (sentOf s k) (finOf s k) (pendOf s k)

theorem reqs_succ (p : Script) (k n : Nat) : reqs p k (n + 1) = reqs p k n ++ [(Nat.pair k n, (p k)[n]?.getD .ack)] := by
  simp [reqs, List.range_succ]

theorem oks_succ (k n : Nat) : oks k (n + 1) = oks k n ++ [(Nat.pair k n, .ok ())] := by
  simp [oks, List.range_succ]

theorem returned_eq (s : Concurrent.State) (k j : Nat) : returned s (Nat.pair k j) =
    (finOf s k).any fun x => x.1 == Nat.pair k j && (match x.2 with | .ok _ => true | .error _ => false) := by
  unfold returned finOf
  rw [List.any_filter]
  congr 1
  funext x
  by_cases h : x.1 = Nat.pair k j
  · have h1 : x.1.unpair.1 = k := by rw [h]; simp
    simp only [h1, decide_true, Bool.true_and]
    cases x.2 <;> rfl
  · have : (x.1 == Nat.pair k j) = false := by simpa using h
    simp [this]

theorem oks_any (k n j : Nat) :
    ((oks k n).any fun x => x.1 == Nat.pair k j && (match x.2 with | .ok _ => true | .error _ => false)) = decide (j < n) := by
  rw [Bool.eq_iff_iff]
  simp only [oks, List.any_map, List.any_eq_true, List.mem_range, Function.comp_apply, Bool.and_true, beq_iff_eq,
    Nat.pair_eq_pair, true_and, exists_eq_right, decide_eq_true_eq]

/-- A read of a command. -/
theorem read_cases (s : Concurrent.State) (id : Nat) :
    let t := s.read (fun _ => false) id
    t.sent = s.sent ∧ t.woken = s.woken ∧ t.cancelled = s.cancelled ∧
    ((t.waiting = s.waiting ++ [id] ∧ t.finished = s.finished) ∨
      (t.waiting = s.waiting ∧ ∃ r, t.finished = s.finished ++ [(id, r)])) := by
  dsimp only [Concurrent.State.read]
  rw [Concurrent.take_command]
  cases s.queue with
  | nil => exact ⟨rfl, rfl, rfl, .inl ⟨rfl, rfl⟩⟩
  | cons m q => exact ⟨rfl, rfl, rfl, .inr ⟨rfl, _, rfl⟩⟩

/-- Phases do not depend on the order of what is pending. -/
theorem Phase.perm {p : Script} {k : Nat} {S F P P'} (h : Phase p k S F P) (hp : P'.Perm P) : Phase p k S F P' := by
  cases h with
  | idle => rw [List.perm_nil.1 hp]; exact .idle
  | awaits m hm => rw [List.perm_singleton.1 hp]; exact .awaits m hm
  | raised m e hm => rw [List.perm_nil.1 hp]; exact .raised m e hm
  | done => rw [List.perm_nil.1 hp]; exact .done

theorem Ran.perm {p : Script} {k m : Nat} {S F P P'} (h : Ran p k m S F P) (hp : P'.Perm P) : Ran p k m S F P' := by
  obtain ⟨h1, h2⟩ := h
  refine ⟨h1, ?_⟩
  rcases h2 with ⟨rfl, h⟩ | ⟨rfl, h⟩ | ⟨rfl, h⟩
  · exact .inl ⟨List.perm_singleton.1 hp, h⟩
  · exact .inr (.inl ⟨List.perm_nil.1 hp, h⟩)
  · exact .inr (.inr ⟨List.perm_nil.1 hp, h⟩)

/-- A request of task `k` reads: what it means for the tasks.  `s` is before, without the request among those pending. -/
theorem read_ran {p : Script} {s : Concurrent.State} {k m : Nat} (hs : sentOf s k = reqs p k (m + 1)) (hf : finOf s k = oks k m)
    (hp : pendOf s k = []) (ho : ∀ k', k' ≠ k → Phase p k' (sentOf s k') (finOf s k') (pendOf s k')) :
    let t := s.read (fun _ => false) (Nat.pair k m)
    Ran p k m (sentOf t k) (finOf t k) (pendOf t k) ∧ ∀ k', k' ≠ k → Phase p k' (sentOf t k') (finOf t k') (pendOf t k') := by
  intro t
  obtain ⟨h1, h2, h3, h4⟩ := read_cases s (Nat.pair k m)
  change t.sent = _ at h1
  change t.woken = _ at h2
  change t.cancelled = _ at h3
  have hS : ∀ k', sentOf t k' = sentOf s k' := fun k' => by unfold sentOf; rw [h1]
  have h4 : (t.waiting = s.waiting ++ [Nat.pair k m] ∧ t.finished = s.finished) ∨
      (t.waiting = s.waiting ∧ ∃ r, t.finished = s.finished ++ [(Nat.pair k m, r)]) := h4
  clear_value t
  rcases h4 with ⟨hw, hfin⟩ | ⟨hw, r, hfin⟩
  · have hP : ∀ k', (pendOf t k').Perm ([Nat.pair k m].filter (fun id => id.unpair.1 = k') ++ pendOf s k') := fun k' => by
      unfold pendOf
      rw [hw, h2, h3, ← List.filter_append]
      refine List.Perm.filter _ ?_
      simp only [List.append_assoc, List.cons_append, List.nil_append]
      exact List.perm_middle
    have hF : ∀ k', finOf t k' = finOf s k' := fun k' => by unfold finOf; rw [hfin]
    constructor
    · refine Ran.perm (P := [Nat.pair k m]) ⟨(hS k).trans hs, .inl ⟨rfl, (hF k).trans hf⟩⟩ ?_
      have := hP k
      rw [hp] at this
      simpa using this
    · intro k' hk
      rw [hS, hF]
      refine (ho k' hk).perm ?_
      have := hP k'
      simpa [Ne.symm hk] using this
  · have hP : ∀ k', pendOf t k' = pendOf s k' := fun k' => by unfold pendOf; rw [hw, h2, h3]
    have hF : ∀ k', finOf t k' = finOf s k' ++ [(Nat.pair k m, r)].filter (fun x => x.1.unpair.1 = k') := fun k' => by
      unfold finOf; rw [hfin, List.filter_append]
    constructor
    · refine ⟨(hS k).trans hs, .inr ?_⟩
      rw [hP, hp, hF, hf]
      cases r with
      | ok u => cases u; exact .inl ⟨rfl, by simp [oks_succ]⟩
      | error e => exact .inr ⟨rfl, e, by simp⟩
    · intro k' hk
      rw [hS, hP, hF]
      have : [(Nat.pair k m, r)].filter (fun x => x.1.unpair.1 = k') = [] := by simp [Ne.symm hk]
      rw [this, List.append_nil]
      exact ho k' hk

theorem prog_pair (p : Script) (k j : Nat) : (prog p (Nat.pair k j)).msg = (p k)[j]?.getD .ack := by
  simp [prog, Concurrent.Req.command]

/-- A task begins its next request. -/
theorem start_ran {p : Script} {s : Concurrent.State} {k m : Nat} (hs : sentOf s k = reqs p k m) (hf : finOf s k = oks k m)
    (hp : pendOf s k = []) (ho : ∀ k', k' ≠ k → Phase p k' (sentOf s k') (finOf s k') (pendOf s k')) :
    let t := s.step (prog p) (.start (Nat.pair k m))
    Ran p k m (sentOf t k) (finOf t k) (pendOf t k) ∧ ∀ k', k' ≠ k → Phase p k' (sentOf t k') (finOf t k') (pendOf t k') := by
  simp only [Concurrent.State.step]
  have hS : ∀ k', sentOf { s with sent := s.sent ++ [(Nat.pair k m, (prog p (Nat.pair k m)).msg)] } k' =
      sentOf s k' ++ [(Nat.pair k m, (prog p (Nat.pair k m)).msg)].filter (fun x => x.1.unpair.1 = k') := fun k' => by
    unfold sentOf; rw [List.filter_append]
  refine read_ran (s := { s with sent := s.sent ++ [(Nat.pair k m, (prog p (Nat.pair k m)).msg)] }) ?_ hf hp ?_
  · rw [hS, hs, reqs_succ, prog_pair]; simp
  · intro k' hk
    rw [hS]
    have : [(Nat.pair k m, (prog p (Nat.pair k m)).msg)].filter (fun x => x.1.unpair.1 = k') = [] := by simp [Ne.symm hk]
    rw [this, List.append_nil]
    exact ho k' hk

theorem follow_inv {p : Script} {k : Nat} : ∀ (rest : List Msg) (j : Nat) (s : Concurrent.State),
    Ran p k j (sentOf s k) (finOf s k) (pendOf s k) → rest.length + j + 1 = (p k).length →
    (∀ k', k' ≠ k → Phase p k' (sentOf s k') (finOf s k') (pendOf s k')) → Inv p (follow p k j rest s)
  | [], j, s, h, hl, ho => by
    intro k'
    by_cases hk : k' = k
    · subst hk
      simp only [List.length_nil, Nat.zero_add] at hl
      obtain ⟨h1, h2⟩ := h
      simp only [follow]
      rw [h1]
      rcases h2 with ⟨h2, h3⟩ | ⟨h2, h3⟩ | ⟨h2, e, h3⟩
      · rw [h2, h3]; exact .awaits j (by omega)
      · rw [h2, h3, hl]; exact .done
      · rw [h2, h3]; exact .raised j e (by omega)
    · exact ho k' hk
  | _ :: rest, j, s, h, hl, ho => by
    simp only [List.length_cons] at hl
    unfold follow
    obtain ⟨h1, h2⟩ := h
    have hret := returned_eq s k j
    rcases h2 with ⟨h2, h3⟩ | ⟨h2, h3⟩ | ⟨h2, e, h3⟩
    · rw [h3, oks_any] at hret
      rw [hret]
      simp only [Nat.lt_irrefl, decide_false, Bool.false_eq_true, if_false]
      intro k'
      by_cases hk : k' = k
      · subst hk; rw [h1, h2, h3]; exact .awaits j (by omega)
      · exact ho k' hk
    · rw [h3, oks_any] at hret
      rw [hret]
      simp only [Nat.lt_succ_self, decide_true, if_true]
      obtain ⟨a, b⟩ := start_ran (m := j + 1) h1 h3 h2 ho
      exact follow_inv rest (j + 1) _ a (by omega) b
    · rw [h3, List.any_append, oks_any] at hret
      simp only [Nat.lt_irrefl, decide_false, List.any_cons, List.any_nil, Bool.and_false, Bool.or_false] at hret
      rw [hret]
      simp only [Bool.false_eq_true, if_false]
      intro k'
      by_cases hk : k' = k
      · subst hk; rw [h1, h2, h3]; exact .raised j e (by omega)
      · exact ho k' hk

theorem wakeup_inv {p : Script} {s : Concurrent.State} (h : Inv p s) : Inv p s.wakeup := by
  intro k
  unfold Concurrent.State.wakeup
  rcases hw : s.waiting with _ | ⟨id, rest⟩
  · exact h k
  · refine (h k).perm ?_
    unfold pendOf
    refine List.Perm.filter _ ?_
    rw [hw]
    refine List.Perm.append_right _ ?_
    rw [← List.append_assoc]
    exact (List.perm_append_comm (l₁ := rest ++ s.woken) (l₂ := [id]))

/-- A pending request is the last one of its task. -/
theorem pending {p : Script} {s : Concurrent.State} (h : Inv p s) {id : Nat} (hid : id ∈ s.waiting ++ s.woken ++ s.cancelled) :
    ∃ m, m < (p id.unpair.1).length ∧ id = Nat.pair id.unpair.1 m ∧ sentOf s id.unpair.1 = reqs p id.unpair.1 (m + 1) ∧
      finOf s id.unpair.1 = oks id.unpair.1 m ∧ pendOf s id.unpair.1 = [id] := by
  have hm : id ∈ pendOf s id.unpair.1 := List.mem_filter.2 ⟨hid, by simp⟩
  have hk := h id.unpair.1
  generalize hS : sentOf s id.unpair.1 = S at hk
  generalize hF : finOf s id.unpair.1 = F at hk
  generalize hP : pendOf s id.unpair.1 = P at hk hm
  cases hk with
  | idle => cases hm
  | awaits m hl =>
    have : id = Nat.pair id.unpair.1 m := by simpa using hm
    exact ⟨m, hl, this, rfl, rfl, by rw [← this]⟩
  | raised => cases hm
  | done => cases hm

theorem current_mem {s : Concurrent.State} {k id : Nat} (h : current s k = some id) :
    id ∈ s.waiting ++ s.woken ∧ id.unpair.1 = k :=
  ⟨List.mem_of_find?_eq_some h, by simpa using List.find?_some h⟩

/-- A pending request ends with an exception, or is cancelled. -/
theorem end_inv {p : Script} {s t : Concurrent.State} (h : Inv p s) {id : Nat} (hid : id ∈ s.waiting ++ s.woken ++ s.cancelled)
    (e : Err) (hS : t.sent = s.sent) (hF : t.finished = s.finished ++ [(id, .error e)])
    (hP : (s.waiting ++ s.woken ++ s.cancelled).Perm (id :: (t.waiting ++ t.woken ++ t.cancelled))) : Inv p t := by
  obtain ⟨m, hl, he, h1, h2, h3⟩ := pending h hid
  intro k
  have hP' : (pendOf s k).Perm ((id :: (t.waiting ++ t.woken ++ t.cancelled)).filter fun id => id.unpair.1 = k) := hP.filter _
  have hS' : sentOf t k = sentOf s k := by unfold sentOf; rw [hS]
  by_cases hk : k = id.unpair.1
  · subst hk
    rw [h3, List.filter_cons_of_pos (by simp)] at hP'
    have h4 : pendOf t id.unpair.1 = [] := by
      have := (List.perm_cons id).1 hP'
      exact List.nil_perm.1 this
    rw [hS', h1, h4]
    have : finOf t id.unpair.1 = oks id.unpair.1 m ++ [(Nat.pair id.unpair.1 m, .error e)] := by
      unfold finOf
      rw [hF, List.filter_append]
      refine congrArg₂ (· ++ ·) h2 ?_
      rw [← he]
      simp
    rw [this]
    exact .raised m e hl
  · rw [List.filter_cons_of_neg (by simpa using fun x => hk x.symm)] at hP'
    have : finOf t k = finOf s k := by
      unfold finOf
      rw [hF, List.filter_append]
      have : [(id, (Except.error e : Except Err Unit))].filter (fun x => x.1.unpair.1 = k) = [] := by
        simpa using fun x => hk x.symm
      rw [this, List.append_nil]
    rw [hS', this]
    exact (h k).perm hP'.symm

theorem move_inv {p : Script} {s t : Concurrent.State} (h : Inv p s) (hS : t.sent = s.sent) (hF : t.finished = s.finished)
    (hP : (t.waiting ++ t.woken ++ t.cancelled).Perm (s.waiting ++ s.woken ++ s.cancelled)) : Inv p t := by
  intro k
  have a : sentOf t k = sentOf s k := by unfold sentOf; rw [hS]
  have b : finOf t k = finOf s k := by unfold finOf; rw [hF]
  rw [a, b]
  exact (h k).perm (hP.filter _)

theorem step_inv {p : Script} {s : Concurrent.State} (h : Inv p s) (e : Ev)
    (hfresh : ∀ k, e = .start k → sentOf s k = []) : Inv p (step p s e) := by
  cases e with
  | start k =>
    simp only [step]
    rcases hp : p k with _ | ⟨m, rest⟩
    · exact h
    · have hk := h k
      have hS := hfresh k rfl
      rw [hS] at hk
      have h2 : finOf s k = [] ∧ pendOf s k = [] := by
        generalize finOf s k = F at hk
        generalize pendOf s k = P at hk
        generalize hS' : ([] : List (Nat × Msg)) = S at hk
        cases hk with
        | idle => exact ⟨rfl, rfl⟩
        | awaits => rw [reqs_succ] at hS'; simp at hS'
        | raised => rw [reqs_succ] at hS'; simp at hS'
        | done => rw [hp, List.length_cons, reqs_succ] at hS'; simp at hS'
      obtain ⟨a, b⟩ := start_ran (p := p) (m := 0) (hS.trans rfl) (h2.1.trans rfl) h2.2 (fun k' _ => h k')
      exact follow_inv rest 0 _ a (by rw [hp]; rfl) b
  | arrive m =>
    simp only [step, Concurrent.State.step]
    exact wakeup_inv (fun k => h k)
  | resume =>
    simp only [step]
    rcases hw : s.woken with _ | ⟨id, rest⟩
    · exact h
    · dsimp only
      obtain ⟨m, hl, he, h1, h2, h3⟩ := pending h (id := id) (by simp [hw])
      have hm : id.unpair.2 = m := by rw [he]; simp
      have hstep : s.step (prog p) .resume = Concurrent.State.read { s with woken := rest } (fun _ => false) (Nat.pair id.unpair.1 m) := by
        simp only [Concurrent.State.step, hw]
        rw [← he]
        rfl
      have hperm : ∀ k, (pendOf s k).Perm ([id].filter (fun id => id.unpair.1 = k) ++ pendOf { s with woken := rest } k) := fun k => by
        unfold pendOf
        rw [← List.filter_append]
        refine List.Perm.filter _ ?_
        rw [hw]
        simp only [List.append_assoc, List.cons_append, List.nil_append]
        exact List.perm_middle
      rw [hstep, hm]
      obtain ⟨a, b⟩ := read_ran (p := p) (s := { s with woken := rest }) (k := id.unpair.1) (m := m) h1 h2
        (by
          have := hperm id.unpair.1
          rw [h3, List.filter_cons_of_pos (by simp)] at this
          exact List.nil_perm.1 ((List.perm_cons id).1 this))
        (fun k' hk => by
          have := hperm k'
          rw [List.filter_cons_of_neg (by simpa using fun x => hk x.symm)] at this
          exact (h k').perm this.symm)
      exact follow_inv _ _ _ a (by rw [List.length_drop]; omega) b
  | expire k =>
    simp only [step]
    rcases hc : current s k with _ | id
    · exact h
    · obtain ⟨hmem, -⟩ := current_mem hc
      have hid : id ∈ s.waiting ++ s.woken ++ s.cancelled := List.mem_append_left _ hmem
      simp only [Concurrent.State.step]
      split
      · rename_i hw
        refine end_inv h hid .timeoutError rfl rfl ?_
        exact ((List.perm_cons_erase hw).append_right _).append_right _
      · split
        · rename_i hw
          have key : Inv p { s with woken := s.woken.erase id, finished := s.finished ++ [(id, .error .timeoutError)] } := by
            refine end_inv h hid .timeoutError rfl rfl ?_
            refine (((List.perm_cons_erase hw).append_left s.waiting).append_right s.cancelled).trans ?_
            rw [List.append_assoc, List.append_assoc]
            exact List.perm_middle
          split
          · exact key
          · exact wakeup_inv key
        · exact h
  | cancel k =>
    simp only [step]
    rcases hc : current s k with _ | id
    · exact h
    · simp only [Concurrent.State.step]
      split
      · rename_i hw
        refine move_inv h rfl rfl ?_
        refine List.Perm.trans ?_ (((List.perm_cons_erase hw).symm.append_right s.woken).append_right s.cancelled)
        simp only [List.append_assoc, List.cons_append]
        refine List.Perm.trans ?_ List.perm_middle
        exact List.Perm.append_left _ (by rw [← List.append_assoc]; exact List.perm_append_comm)
      · split
        · rename_i hw
          have key : Inv p { s with woken := s.woken.erase id, cancelled := s.cancelled ++ [id] } := by
            refine move_inv h rfl rfl ?_
            refine List.Perm.trans ?_ (((List.perm_cons_erase hw).symm.append_left s.waiting).append_right s.cancelled)
            simp only [List.append_assoc, List.cons_append]
            refine List.Perm.append_left _ ?_
            rw [← List.append_assoc]; exact List.perm_append_comm
          split
          · exact key
          · exact wakeup_inv key
        · exact h

end Scripts
