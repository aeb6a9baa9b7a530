import Verif.Proofs.Scripts
import Mathlib.Tactic.IntervalCases

/-!
# C135: tasks that each give several commands

The full claim: whatever tasks run at the same time, each sends its commands in its order, each when the one before has returned
and none after an exception; and with a gateway that answers the commands in the order in which it gets them, each command
reports the answer to itself.
-/

open Py Spec.Scripts

namespace Scripts

theorem run_append (p : Script) (evs : List Ev) (e : Ev) : run p (evs ++ [e]) = step p (run p evs) e := by
  simp [run]

theorem step_sent {p : Script} {s : Concurrent.State} {id k : Nat} (h : id.unpair.1 ≠ k) :
    sentOf (s.step (prog p) (.start id)) k = sentOf s k := by
  simp only [Concurrent.State.step, sentOf]
  have := (read_cases { s with sent := s.sent ++ [(id, (prog p id).msg)] } id).1
  dsimp only at this
  rw [show (prog p id).want = fun _ => false from rfl, this, List.filter_append]
  simp [h]

theorem follow_sent {p : Script} {k k' : Nat} (h : k ≠ k') : ∀ (rest : List Msg) (j : Nat) (s : Concurrent.State),
    sentOf (follow p k j rest s) k' = sentOf s k'
  | [], _, _ => rfl
  | _ :: rest, j, s => by
    unfold follow
    split
    · rw [follow_sent h rest, step_sent (by simpa using h)]
    · rfl

theorem wakeup_sent (s : Concurrent.State) : s.wakeup.sent = s.sent := by
  unfold Concurrent.State.wakeup
  split <;> rfl

theorem sent_before {p : Script} {s : Concurrent.State} (hi : Inv p s) {e : Ev} {k : Nat} (h : sentOf (step p s e) k ≠ []) :
    sentOf s k ≠ [] ∨ e = .start k := by
  cases e with
  | start k' =>
    by_cases hk : k' = k
    · exact .inr (hk ▸ rfl)
    · left
      simp only [step] at h
      split at h
      · exact h
      · rwa [follow_sent hk, step_sent (by simpa using hk)] at h
  | arrive m =>
    left
    simpa [step, Concurrent.State.step, sentOf, wakeup_sent] using h
  | resume =>
    left
    simp only [step] at h
    rcases hw : s.woken with _ | ⟨id, rest⟩
    · rw [hw] at h; exact h
    · rw [hw] at h
      dsimp only at h
      by_cases hk : id.unpair.1 = k
      · obtain ⟨m, _, _, h1, _⟩ := pending hi (id := id) (by simp [hw])
        rw [← hk, h1, reqs_succ]
        simp
      · rw [follow_sent hk] at h
        have : (s.step (prog p) .resume).sent = s.sent := by
          simp only [Concurrent.State.step, hw]
          exact (read_cases { s with woken := rest } id).1
        unfold sentOf at h ⊢
        rwa [this] at h
  | expire k' =>
    left
    simp only [step] at h
    split at h
    · exact h
    · simp only [Concurrent.State.step] at h
      repeat' split at h
      all_goals first | exact h | simpa [sentOf, wakeup_sent] using h
  | cancel k' =>
    left
    simp only [step] at h
    split at h
    · exact h
    · simp only [Concurrent.State.step] at h
      repeat' split at h
      all_goals first | exact h | simpa [sentOf, wakeup_sent] using h

theorem run_inv (p : Script) (evs : List Ev) (hn : (starts evs).Nodup) :
    Inv p (run p evs) ∧ ∀ k, sentOf (run p evs) k ≠ [] → k ∈ starts evs := by
  induction evs using List.reverseRecOn with
  | nil => exact ⟨fun _ => .idle, fun k h => absurd rfl h⟩
  | append_singleton evs e ih =>
    have hs : starts (evs ++ [e]) = starts evs ++ starts [e] := List.filterMap_append ..
    rw [hs] at hn
    obtain ⟨h1, h2⟩ := ih (List.nodup_append.1 hn).1
    rw [run_append]
    refine ⟨step_inv h1 e ?_, fun k hk => ?_⟩
    · rintro k rfl
      by_contra hne
      exact (List.nodup_append.1 hn).2.2 k (h2 k hne) k (by simp [starts]) rfl
    · rw [hs]
      rcases sent_before h1 hk with h | rfl
      · exact List.mem_append_left _ (h2 k h)
      · exact List.mem_append_right _ (by simp [starts])

theorem reqs_frames (p : Script) (k n : Nat) (h : n ≤ (p k).length) : (reqs p k n).map (·.2) = (p k).take n := by
  refine List.ext_getElem (by simp [reqs]; omega) fun i h1 h2 => ?_
  simp only [reqs, List.map_map, List.length_map, List.length_range] at h1
  simp [reqs, show i < (p k).length by omega]

theorem oks_reports (k n : Nat) : (oks k n).map (·.2) = List.replicate n (.ok ()) := by
  simp [oks, Function.comp_def]

theorem Phase.proceeds {p : Script} {k : Nat} {S F P} (h : Phase p k S F P) :
    Proceeds (p k) (S.map (·.2)) (F.map (·.2)) := by
  cases h with
  | idle => exact .before
  | awaits m hm => rw [reqs_frames _ _ _ hm, oks_reports]; exact .awaits m hm
  | raised m e hm => rw [reqs_frames _ _ _ hm, List.map_append, oks_reports]; exact .raised m e hm
  | done => rw [reqs_frames _ _ _ (le_refl _), oks_reports, List.take_length]; exact .done

/-- What holds of commands that are answered one at a time. -/
structure Tidy (arr : List Msg) (s : Concurrent.State) : Prop where
  order : s.got.map (·.1) ++ s.woken ++ s.waiting = s.sent.map (·.1)
  fifo : s.got.map (·.2) ++ s.queue = arr
  enough : s.woken.length ≤ s.queue.length
  exact : s.waiting ≠ [] → s.queue.length = s.woken.length
  ends : s.finished = s.got.map fun p => (p.1, Concurrent.verdict p.2)
  one : s.woken.length ≤ 1

theorem Tidy.start {p : Script} {arr : List Msg} {s : Concurrent.State} (h : Tidy arr s) (hw : s.woken = []) (id : Nat) :
    Tidy arr (s.step (prog p) (.start id)) ∧ (s.step (prog p) (.start id)).woken = [] := by
  obtain ⟨queue, waiting, woken, sent, got, finished, cancelled⟩ := s
  obtain ⟨h1, h2, h3, h4, h5, h6⟩ := h
  simp only at h1 h2 h3 h4 h5 hw
  subst hw
  simp only [Concurrent.State.step, Concurrent.State.read, show (prog p id).want = fun _ => false from rfl,
    Concurrent.take_command]
  cases queue with
  | nil =>
    refine ⟨⟨?_, ?_, ?_, ?_, ?_, ?_⟩, ?_⟩ <;> simp [← h1, ← h2, h5]
  | cons m q =>
    have hw : waiting = [] := by
      by_contra hne
      simpa using h4 hne
    subst hw
    refine ⟨⟨?_, ?_, ?_, ?_, ?_, ?_⟩, ?_⟩ <;> simp [← h1, ← h2, h5]

theorem Tidy.follow {p : Script} {arr : List Msg} {k : Nat} : ∀ (rest : List Msg) (j : Nat) (s : Concurrent.State), Tidy arr s →
    s.woken = [] → Tidy arr (follow p k j rest s)
  | [], _, _, h, _ => h
  | _ :: rest, j, s, h, hw => by
    unfold Scripts.follow
    split
    · exact Tidy.follow rest (j + 1) _ (h.start hw _).1 (h.start hw _).2
    · exact h

theorem Tidy.arrive {p : Script} {arr : List Msg} {s : Concurrent.State} (h : Tidy arr s) (hw : s.woken = []) (m : Msg) :
    Tidy (arr ++ [m]) (s.step (prog p) (.arrive m)) := by
  obtain ⟨queue, waiting, woken, sent, got, finished, cancelled⟩ := s
  obtain ⟨h1, h2, h3, h4, h5, h6⟩ := h
  simp only at h1 h2 h3 h4 h5 hw
  subst hw
  simp only [Concurrent.State.step, Concurrent.State.wakeup]
  cases waiting with
  | nil => refine ⟨?_, ?_, ?_, ?_, ?_, ?_⟩ <;> simp [← h1, ← h2, h5]
  | cons id rest =>
    have h4 := h4 (by simp)
    refine ⟨?_, ?_, ?_, ?_, ?_, ?_⟩ <;> simp_all [← h1, ← h2]

theorem Tidy.resume {p : Script} {arr : List Msg} {s : Concurrent.State} (h : Tidy arr s) {id : Nat} {rest : List Nat}
    (hw : s.woken = id :: rest) :
    Tidy arr (s.step (prog p) .resume) ∧ (s.step (prog p) .resume).woken = [] := by
  obtain ⟨queue, waiting, woken, sent, got, finished, cancelled⟩ := s
  obtain ⟨h1, h2, h3, h4, h5, h6⟩ := h
  simp only at h1 h2 h3 h4 h5 h6 hw
  subst hw
  have hr : rest = [] := by simpa using h6
  subst hr
  simp only [Concurrent.State.step, Concurrent.State.read, show (prog p id).want = fun _ => false from rfl,
    Concurrent.take_command]
  cases queue with
  | nil => simp at h3
  | cons m q => refine ⟨⟨?_, ?_, ?_, ?_, ?_, ?_⟩, ?_⟩ <;> simp_all [← h1, ← h2]

end Scripts

open Scripts

/-- C135, the order of the commands: at every moment, whatever arrives, expires or is cancelled, every task has sent a beginning of
its commands, each of these but the last has returned, the next is sent at once when one has returned, and nothing is sent after
an exception. -/
theorem C135_order (p : Script) (evs : List Scripts.Ev) (hn : (starts evs).Nodup) (k : Nat) :
    Proceeds (p k) (sentBy (run p evs) k) (reportsTo (run p evs) k) :=
  ((run_inv p evs hn).1 k).proceeds

/-- C135, what holds of the reports: when nothing times out or is cancelled and every answer is read before the next one arrives
and before another task begins, every command that has ended reports the answer to itself. -/
theorem C135_own_partial (p : Script) (answer : Nat → Msg) (evs : List Scripts.Ev)
    (hc : ∀ e ∈ evs, (match e with | .expire _ => False | .cancel _ => False | _ => True))
    (ho : Spec.Scripts.InOrder p answer evs) (hw : Whenever p (fun s => s.woken = []) evs) :
    Spec.Scripts.Own answer (run p evs) := by
  have key : Tidy (Spec.Scripts.arrivals evs) (run p evs) := by
    clear ho
    induction evs using List.reverseRecOn with
    | nil => exact ⟨rfl, rfl, le_refl _, fun h => absurd rfl h, rfl, Nat.zero_le _⟩
    | append_singleton evs e ih =>
      have hi := ih (fun e he => hc e (List.mem_append_left _ he)) (fun pre e' h => hw pre e' (h.trans (List.prefix_append _ _)))
      have hlast := hw evs e (List.prefix_refl _)
      have ha : Spec.Scripts.arrivals (evs ++ [e]) = Spec.Scripts.arrivals evs ++ Spec.Scripts.arrivals [e] := List.filterMap_append ..
      rw [run_append, ha]
      cases e with
      | start k =>
        simp only [Scripts.step, Spec.Scripts.arrivals, List.filterMap_cons, List.filterMap_nil, List.append_nil]
        split
        · exact hi
        · exact Tidy.follow _ _ _ (hi.start (hlast trivial) _).1 (hi.start (hlast trivial) _).2
      | arrive m => exact hi.arrive (p := p) (hlast trivial) m
      | resume =>
        simp only [Scripts.step, Spec.Scripts.arrivals, List.filterMap_cons, List.filterMap_nil, List.append_nil]
        split
        · exact hi
        · rename_i id rest hwk
          exact Tidy.follow _ _ _ (hi.resume hwk).1 (hi.resume hwk).2
      | expire k => exact absurd (hc (.expire k) (by simp)) id
      | cancel k => exact absurd (hc (.cancel k) (by simp)) id
  have hself := ho evs (by simp)
  have hfst : (run p evs).got.map (·.1) <+: (run p evs).sent.map (·.1) := by
    rw [← key.order, List.append_assoc]
    exact List.prefix_append _ _
  rw [← key.fifo] at hself
  have hpair := Concurrent.paired (a := answer) _ _ hfst (by
    rw [List.map_map]
    exact (List.prefix_append _ _).trans hself)
  intro id r hr
  rw [key.ends] at hr
  obtain ⟨⟨i, m⟩, hm, he⟩ := List.mem_map.1 hr
  injection he with e1 e2
  subst e1 e2
  rw [Concurrent.verdict_eq, show m = answer i from hpair _ hm]

namespace C135

/-- Two tasks: one gives two commands, the other one gives one. -/
def script (a₁ a₂ b : Msg) : Script
  | 0 => [a₁, a₂]
  | 1 => [b]
  | _ => []

/-- The gateway refuses the command of the second task. -/
def answer (id : Nat) : Msg := if id = Nat.pair 1 0 then .nack else .ack

/-- Both first commands are sent; their answers come in one packet; the tasks run on; the last answer comes. -/
def history : List Scripts.Ev := [.start 0, .start 1, .arrive .ack, .arrive .nack, .resume, .resume, .arrive .ack, .resume]

end C135

/-- C135 is false of the reports: when two answers come together, the first task runs on with its second command and takes the
answer to the other one.  It ends with an error although its commands were acknowledged, and the refused command reports
success. -/
theorem C135_own_refuted (a₁ a₂ b : Msg) :
    (starts C135.history).Nodup ∧ Spec.Scripts.InOrder (C135.script a₁ a₂ b) C135.answer C135.history ∧
    (run (C135.script a₁ a₂ b) C135.history).finished =
      [(Nat.pair 0 0, .ok ()), (Nat.pair 0 1, .error .responseError), (Nat.pair 1 0, .ok ())] := by
  refine ⟨by decide, ?_, ?_⟩
  · intro pre hpre
    simp only [C135.history, List.inits, List.map_cons, List.map_nil, List.mem_cons, List.not_mem_nil,
      or_false] at hpre
    rcases hpre with rfl | rfl | rfl | rfl | rfl | rfl | rfl | rfl | rfl <;>
    simp [run, Scripts.step, C135.script, follow, returned, Concurrent.State.step, Concurrent.State.read, Concurrent.take,
      Concurrent.State.wakeup, prog, Concurrent.Req.command, Concurrent.State.init, Concurrent.verdict, Msg.type,
      Spec.Scripts.arrivals, C135.answer]
  · simp [C135.history, run, Scripts.step, C135.script, follow, returned, Concurrent.State.step, Concurrent.State.read,
      Concurrent.take, Concurrent.State.wakeup, prog, Concurrent.Req.command, Concurrent.State.init, Concurrent.verdict, Msg.type]

namespace C135

/-- The same, with every answer read before the next one comes. -/
def calm : List Scripts.Ev := [.start 0, .start 1, .arrive .ack, .resume, .arrive .nack, .resume, .arrive .ack, .resume]

end C135

/-- The hypotheses of `C135_own_partial` can be met by tasks that run at the same time; here two commands return and the one that
was refused raises. -/
example (a₁ a₂ b : Msg) : Spec.Scripts.Own C135.answer (run (C135.script a₁ a₂ b) C135.calm) ∧
    (run (C135.script a₁ a₂ b) C135.calm).finished =
      [(Nat.pair 0 0, .ok ()), (Nat.pair 1 0, .error .responseError), (Nat.pair 0 1, .ok ())] := by
  refine ⟨C135_own_partial _ _ _ (by simp [C135.calm]) ?_ ?_, ?_⟩
  · intro pre hpre
    simp only [C135.calm, List.inits, List.map_cons, List.map_nil, List.mem_cons, List.not_mem_nil, or_false] at hpre
    rcases hpre with rfl | rfl | rfl | rfl | rfl | rfl | rfl | rfl | rfl <;>
    simp [run, Scripts.step, C135.script, follow, returned, Concurrent.State.step, Concurrent.State.read, Concurrent.take,
      Concurrent.State.wakeup, prog, Concurrent.Req.command, Concurrent.State.init, Concurrent.verdict, Msg.type,
      Spec.Scripts.arrivals, C135.answer]
  · intro pre e h he
    obtain ⟨t, ht⟩ := h
    have hl : pre.length < 8 := by
      have := congrArg List.length ht
      simp [C135.calm] at this
      omega
    have hp : pre = C135.calm.take pre.length := by rw [← ht]; simp
    have hx : C135.calm[pre.length]? = some e := by rw [← ht]; simp
    generalize pre.length = i at *
    subst hp
    clear ht
    interval_cases i <;> simp only [C135.calm, List.getElem?_cons_zero, List.getElem?_cons_succ, Option.some.injEq] at hx <;>
      subst hx <;>
      first
        | exact absurd he id
        | simp [run, Scripts.step, C135.script, follow, returned, Concurrent.State.step, Concurrent.State.read, Concurrent.take,
            Concurrent.State.wakeup, prog, Concurrent.Req.command, Concurrent.State.init, Concurrent.verdict, Msg.type, C135.calm]
  · simp [C135.calm, run, Scripts.step, C135.script, follow, returned, Concurrent.State.step, Concurrent.State.read,
      Concurrent.take, Concurrent.State.wakeup, prog, Concurrent.Req.command, Concurrent.State.init, Concurrent.verdict, Msg.type]

/-- `C135_order` for the history of the counterexample: the first task has sent both its commands, the second raised. -/
example (a₁ a₂ b : Msg) : sentBy (run (C135.script a₁ a₂ b) C135.history) 0 = [a₁, a₂] ∧
    reportsTo (run (C135.script a₁ a₂ b) C135.history) 0 = [.ok (), .error .responseError] := by
  constructor <;>
  simp [C135.history, run, Scripts.step, C135.script, follow, returned, Concurrent.State.step, Concurrent.State.read,
    Concurrent.take, Concurrent.State.wakeup, prog, Concurrent.Req.command, Concurrent.State.init, Concurrent.verdict, Msg.type,
    sentBy, reportsTo]
