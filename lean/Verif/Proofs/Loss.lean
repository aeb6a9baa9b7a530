import Verif.Spec.Loss
import Verif.Proofs.Concurrent
import Mathlib.Data.List.Induction

/-! # Lemmas on the end of a connection (for C118, C119) -/

namespace Loss
open Concurrent (Req)
open Spec.Loss

theorem run_append (prog : Nat → Req) (s : State) (e e' : List Ev) : s.run prog (e ++ e') = (s.run prog e).run prog e' :=
  List.foldl_append ..

theorem run_snoc (prog : Nat → Req) (s : State) (evs : List Ev) (e : Ev) :
    s.run prog (evs ++ [e]) = (s.run prog evs).step prog e := by
  rw [run_append]; rfl

theorem run_prefix (prog : Nat → Req) {pre evs : List Ev} (h : pre <+: evs) : ∃ post, run prog evs = (run prog pre).run prog post := by
  obtain ⟨post, rfl⟩ := h
  exact ⟨post, run_append _ _ _ _⟩

/-! ## What a request can do to the rest -/

/-- A read: the task waits with the queue empty, or it ends, with success only if it took an ACK. -/
theorem read_cases (b : Concurrent.State) (want : Msg → Bool) (id : Nat) :
    (∃ got, b.read want id = { b with queue := [], got := got, waiting := b.waiting ++ [id] }) ∨
    (∃ rest got r, b.queue ≠ [] ∧
      b.read want id = { b with queue := rest, got := got, finished := b.finished ++ [(id, r)] }) := by
  have key : ∀ q : List Msg, (∃ taken, Concurrent.take want q = (taken, [], none)) ∨
      ∃ taken rest r, q ≠ [] ∧ Concurrent.take want q = (taken, rest, some r) := by
    intro q
    induction q with
    | nil => exact .inl ⟨[], rfl⟩
    | cons m q ih =>
      rw [Concurrent.take]
      split
      · rcases ih with ⟨t, h⟩ | ⟨t, r, v, _, h⟩
        · left; exact ⟨m :: t, by rw [h]⟩
        · right; exact ⟨m :: t, r, v, by simp, by rw [h]⟩
      · right; exact ⟨[m], q, Concurrent.verdict m, by simp, rfl⟩
  rcases key b.queue with ⟨t, h⟩ | ⟨t, r, v, hn, h⟩
  · left
    refine ⟨b.got ++ t.map (id, ·), ?_⟩
    unfold Concurrent.State.read; rw [h]
  · right
    refine ⟨r, b.got ++ t.map (id, ·), v, hn, ?_⟩
    unfold Concurrent.State.read; rw [h]

/-- `_wakeup_next` only moves a task. -/
theorem wakeup_mem (b : Concurrent.State) (id : Nat) :
    (id ∈ b.wakeup.waiting ∨ id ∈ b.wakeup.woken ↔ id ∈ b.waiting ∨ id ∈ b.woken) ∧ b.wakeup.queue = b.queue ∧
      b.wakeup.finished = b.finished := by
  unfold Concurrent.State.wakeup
  split
  · exact ⟨Iff.rfl, rfl, rfl⟩
  · rename_i i rest h
    rw [h]
    refine ⟨?_, rfl, rfl⟩
    simp only [List.mem_append, List.mem_cons, List.not_mem_nil, or_false]
    tauto

/-- A timeout or a cancellation takes a task out, and nothing into it. -/
theorem expire_mem (prog : Nat → Req) (b : Concurrent.State) (id j : Nat) :
    (j ∈ (b.step prog (.expire id)).waiting ∨ j ∈ (b.step prog (.expire id)).woken → j ∈ b.waiting ∨ j ∈ b.woken) ∧
    (b.step prog (.expire id)).queue = b.queue ∧
    ((b.step prog (.expire id)).finished = b.finished ∨
      (b.step prog (.expire id)).finished = b.finished ++ [(id, .error .timeoutError)]) := by
  unfold Concurrent.State.step; dsimp only
  split
  · exact ⟨fun h => h.imp_left List.mem_of_mem_erase, rfl, .inr rfl⟩
  · split
    · split
      · exact ⟨fun h => h.imp_right List.mem_of_mem_erase, rfl, .inr rfl⟩
      · obtain ⟨h1, h2, h3⟩ := wakeup_mem { b with woken := b.woken.erase id, finished := b.finished ++ [(id, .error .timeoutError)] } j
        exact ⟨fun h => (h1.1 h).imp_right List.mem_of_mem_erase, h2, .inr h3⟩
    · exact ⟨id', rfl, .inl rfl⟩
where id' {α : Prop} (h : α) : α := h

theorem cancel_mem (prog : Nat → Req) (b : Concurrent.State) (id j : Nat) :
    (j ∈ (b.step prog (.cancel id)).waiting ∨ j ∈ (b.step prog (.cancel id)).woken → j ∈ b.waiting ∨ j ∈ b.woken) ∧
    (b.step prog (.cancel id)).queue = b.queue ∧ (b.step prog (.cancel id)).finished = b.finished := by
  unfold Concurrent.State.step; dsimp only
  split
  · exact ⟨fun h => h.imp_left List.mem_of_mem_erase, rfl, rfl⟩
  · split
    · split
      · exact ⟨fun h => h.imp_right List.mem_of_mem_erase, rfl, rfl⟩
      · obtain ⟨h1, h2, h3⟩ := wakeup_mem { b with woken := b.woken.erase id, cancelled := b.cancelled ++ [id] } j
        exact ⟨fun h => (h1.1 h).imp_right List.mem_of_mem_erase, h2, h3⟩
    · exact ⟨fun h => h, rfl, rfl⟩

/-! ## C118 -/

/-- Who waits has written, or waits in vain. -/
structure Inv (prog : Nat → Req) (s : State) : Prop where
  busy : ∀ id, id ∈ s.base.waiting ∨ id ∈ s.base.woken → Written prog s id ∨ (s.ended = true ∧ s.base.queue = [])
  good : ∀ id, Succeeded s id → Written prog s id
  over : s.ended = true → s.closed = true ∨ s.base.queue = []

theorem inv_init (prog : Nat → Req) : Inv prog State.init :=
  ⟨by simp [State.init, Concurrent.State.init], by simp [Succeeded, State.init, Concurrent.State.init], by simp [State.init]⟩

theorem inv_finish {prog : Nat → Req} {s : State} (h : Inv prog s) (id : Nat) (e : Err) : Inv prog (s.finish id (.error e)) :=
  ⟨h.busy, fun j hj => by
    unfold Succeeded State.finish at hj
    simp only [List.mem_append, List.mem_singleton, Prod.mk.injEq, reduceCtorEq, and_false, or_false] at hj
    exact h.good j hj, h.over⟩

/-- A read by a task whose frame is written, or after the end with nothing to read. -/
theorem inv_read {prog : Nat → Req} {s : State} (h : Inv prog s) (id : Nat)
    (hid : Written prog s id ∨ (s.ended = true ∧ s.base.queue = [])) (want : Msg → Bool) :
    Inv prog { s with base := s.base.read want id } := by
  rcases read_cases s.base want id with ⟨got, e⟩ | ⟨rest, got, r, hn, e⟩
  · rw [e]
    refine ⟨fun j hj => ?_, h.good, fun _ => .inr rfl⟩
    dsimp only at hj
    rw [List.mem_append, List.mem_singleton] at hj
    rcases hj with (hj | rfl) | hj
    · exact (h.busy j (.inl hj)).imp (fun h => h) fun h => ⟨h.1, rfl⟩
    · exact hid.imp (fun h => h) fun h => ⟨h.1, rfl⟩
    · exact (h.busy j (.inr hj)).imp (fun h => h) fun h => ⟨h.1, rfl⟩
  · have hw : Written prog s id := hid.resolve_right fun h => hn h.2
    rw [e]
    refine ⟨fun j hj => .inl ((h.busy j hj).resolve_right fun h => hn h.2), fun j hj => ?_,
      fun he => .inl ((h.over he).resolve_right hn)⟩
    unfold Succeeded at hj
    dsimp only at hj
    rw [List.mem_append, List.mem_singleton] at hj
    rcases hj with hj | hj
    · exact h.good j hj
    · cases hj; exact hw

theorem inv_write {prog : Nat → Req} {s : State} (h : Inv prog s) (id : Nat) : Inv prog (s.write prog id) := by
  have hsub : ∀ j, Written prog s j → Written prog
      { s with written := if s.ended || s.closed then s.written else s.written ++ [(id, (prog id).msg)] } j := by
    intro j hj
    unfold Written at hj ⊢
    dsimp only
    split
    · exact hj
    · exact List.mem_append_left _ hj
  have h' : Inv prog { s with written := if s.ended || s.closed then s.written else s.written ++ [(id, (prog id).msg)] } :=
    ⟨fun j hj => (h.busy j hj).imp_left (hsub j), fun j hj => hsub j (h.good j hj), h.over⟩
  unfold State.write
  dsimp only
  split
  · exact inv_finish h' _ _
  · rename_i hc
    have hid : Written prog { s with written := if s.ended || s.closed then s.written else s.written ++ [(id, (prog id).msg)] } id ∨
        (s.ended = true ∧ s.base.queue = []) := by
      cases he : s.ended with
      | true => exact .inr ⟨rfl, (h.over he).resolve_left hc⟩
      | false =>
        left
        unfold Written
        simp [Bool.eq_false_of_not_eq_true hc]
    have h2 : Inv prog { s with
        base := { s.base with sent := s.base.sent ++ [(id, (prog id).msg)] }
        written := if s.ended || s.closed then s.written else s.written ++ [(id, (prog id).msg)] } := ⟨h'.busy, h'.good, h'.over⟩
    exact inv_read h2 id hid (prog id).want

theorem inv_takeOne {prog : Nat → Req} {s : State} (h : Inv prog s) (hc : s.closed = true) : Inv prog (s.takeOne prog) := by
  unfold State.takeOne
  split
  · exact h
  · rename_i id rest hw
    split
    · rename_i hq
      refine ⟨fun j hj => ?_, h.good, fun _ => .inl hc⟩
      dsimp only at hj
      rw [List.mem_append, List.mem_singleton] at hj
      rcases hj with (hj | rfl) | hj
      · exact h.busy j (.inl hj)
      · exact h.busy j (.inr (by rw [hw]; simp))
      · exact h.busy j (.inr (by rw [hw]; simp [hj]))
    · rename_i m q hq
      have hid := (h.busy id (.inr (by rw [hw]; simp))).resolve_right (by rw [hq]; simp)
      refine ⟨fun j hj => ?_, fun j hj => ?_, fun _ => .inl hc⟩
      · have : j ∈ s.base.waiting ∨ j ∈ s.base.woken := hj.imp (fun h => h) fun h => by rw [hw]; simp [show j ∈ rest from h]
        exact .inl ((h.busy j this).resolve_right (by rw [hq]; simp))
      · unfold Succeeded State.finish at hj
        dsimp only at hj
        rw [List.mem_append, List.mem_singleton] at hj
        rcases hj with hj | hj
        · exact h.good j hj
        · rw [(Prod.mk.inj hj).1]; exact hid

theorem inv_step {prog : Nat → Req} {s : State} (h : Inv prog s) (e : Ev)
    (he : e = .lost → s.closed = true ∨ s.base.queue = []) : Inv prog (s.step prog e) := by
  cases e with
  | start id =>
    unfold State.step; dsimp only
    split
    · exact inv_finish h _ _
    · split
      · exact ⟨h.busy, h.good, h.over⟩
      · exact inv_write h id
  | wake id =>
    unfold State.step; dsimp only
    split
    · exact inv_write (s := { s with sending := s.sending.erase id }) ⟨h.busy, h.good, h.over⟩ id
    · exact h
  | arrive m =>
    unfold State.step; dsimp only
    split
    · exact h
    · rename_i ho
      simp only [Bool.or_eq_true, not_or, Bool.not_eq_true] at ho
      obtain ⟨h1, h2, h3⟩ := wakeup_mem { s.base with queue := s.base.queue ++ [m] } 0
      refine ⟨fun j hj => ?_, fun j hj => ?_, fun h => by rw [ho.1] at h; cases h⟩
      · obtain ⟨h1, h2, h3⟩ := wakeup_mem { s.base with queue := s.base.queue ++ [m] } j
        exact .inl ((h.busy j (h1.1 hj)).resolve_right fun h => by rw [ho.1] at h; cases h.1)
      · unfold Succeeded at hj
        change _ ∈ (Concurrent.State.wakeup _).finished at hj
        rw [h3] at hj
        exact h.good j hj
  | resume =>
    unfold State.step; dsimp only
    split
    · rename_i hc; exact inv_takeOne h hc
    · unfold Concurrent.State.step; dsimp only
      split
      · exact h
      · rename_i id rest hw
        refine inv_read (s := { s with base := { s.base with woken := rest } }) ⟨fun j hj => h.busy j ?_, h.good, h.over⟩ id
          (h.busy id (.inr (by rw [hw]; simp))) _
        exact hj.imp (fun h => h) fun h => by rw [hw]; simp [show j ∈ rest from h]
  | expire id =>
    refine ⟨fun j hj => ?_, fun j hj => ?_, fun ho => ?_⟩
    · obtain ⟨h1, h2, _⟩ := expire_mem prog s.base id j
      exact (h.busy j (h1 hj)).imp (fun h => h) fun h => ⟨h.1, by change (s.base.step prog (.expire id)).queue = []; rw [h2, h.2]⟩
    · obtain ⟨_, _, h3⟩ := expire_mem prog s.base id j
      unfold Succeeded at hj
      change _ ∈ (s.base.step prog (.expire id)).finished at hj
      rcases h3 with h3 | h3
      · rw [h3] at hj; exact h.good j hj
      · rw [h3, List.mem_append, List.mem_singleton] at hj
        rcases hj with hj | hj
        · exact h.good j hj
        · cases hj
    · obtain ⟨_, h2, _⟩ := expire_mem prog s.base id id
      exact (h.over ho).imp (fun h => h) fun h => by change (s.base.step prog (.expire id)).queue = []; rw [h2, h]
  | cancel id =>
    unfold State.step; dsimp only
    split
    · exact ⟨h.busy, h.good, h.over⟩
    · refine ⟨fun j hj => ?_, fun j hj => ?_, fun ho => ?_⟩
      · obtain ⟨h1, h2, _⟩ := cancel_mem prog s.base id j
        exact (h.busy j (h1 hj)).imp (fun h => h) fun h => ⟨h.1, by change (s.base.step prog (.cancel id)).queue = []; rw [h2, h.2]⟩
      · obtain ⟨_, _, h3⟩ := cancel_mem prog s.base id j
        unfold Succeeded at hj
        change _ ∈ (s.base.step prog (.cancel id)).finished at hj
        rw [h3] at hj; exact h.good j hj
      · obtain ⟨_, h2, _⟩ := cancel_mem prog s.base id id
        exact (h.over ho).imp (fun h => h) fun h => by change (s.base.step prog (.cancel id)).queue = []; rw [h2, h]
  | pause => unfold State.step; dsimp only; split; · exact h
             · exact ⟨h.busy, h.good, h.over⟩
  | unpause => unfold State.step; dsimp only; split; · exact h
               · exact ⟨h.busy, h.good, h.over⟩
  | lost => exact ⟨fun j hj => (h.busy j hj).imp_right fun h => ⟨rfl, h.2⟩, h.good, fun _ => he rfl⟩
  | close => exact ⟨h.busy, h.good, fun _ => .inl rfl⟩

/-! ## Success needs an ACK -/

/-- Who succeeded has taken an ACK. -/
def Acked (b : Concurrent.State) : Prop := ∀ id, (id, .ok ()) ∈ b.finished → ∃ m, m.type = .ack ∧ (id, m) ∈ b.got

theorem verdict_ok {m : Msg} (h : Concurrent.verdict m = .ok ()) : m.type = .ack := by
  unfold Concurrent.verdict at h
  split at h
  · assumption
  · cases h

theorem take_ok (want : Msg → Bool) (q : List Msg) (h : (Concurrent.take want q).2.2 = some (.ok ())) :
    ∃ m ∈ (Concurrent.take want q).1, m.type = .ack := by
  induction q with
  | nil => cases h
  | cons m q ih =>
    rw [Concurrent.take] at h ⊢
    split
    · rename_i hw
      rw [if_pos hw] at h
      obtain ⟨x, hx, hx'⟩ := ih h
      exact ⟨x, List.mem_cons_of_mem _ hx, hx'⟩
    · rename_i hw
      rw [if_neg hw] at h
      exact ⟨m, List.mem_singleton_self _, verdict_ok (Option.some.inj h)⟩

theorem acked_read {b : Concurrent.State} (h : Acked b) (want : Msg → Bool) (id : Nat) : Acked (b.read want id) := by
  have ht := take_ok want b.queue
  unfold Concurrent.State.read
  generalize Concurrent.take want b.queue = t at ht
  obtain ⟨taken, rest, r⟩ := t
  cases r with
  | none =>
    intro j hj
    obtain ⟨m, h1, h2⟩ := h j hj
    exact ⟨m, h1, List.mem_append_left _ h2⟩
  | some r =>
    intro j hj
    dsimp only at hj
    rw [List.mem_append, List.mem_singleton] at hj
    rcases hj with hj | hj
    · obtain ⟨m, h1, h2⟩ := h j hj
      exact ⟨m, h1, List.mem_append_left _ h2⟩
    · cases hj
      obtain ⟨m, h1, h2⟩ := ht rfl
      exact ⟨m, h2, List.mem_append_right _ (List.mem_map.2 ⟨m, h1, rfl⟩)⟩

theorem acked_wakeup {b : Concurrent.State} (h : Acked b) : Acked b.wakeup := by
  unfold Concurrent.State.wakeup
  split <;> exact h

theorem acked_fail {b : Concurrent.State} (h : Acked b) {b' : Concurrent.State} {id : Nat} {e : Err} (hg : b'.got = b.got)
    (hf : b'.finished = b.finished ++ [(id, .error e)]) : Acked b' := by
  intro j hj
  rw [hf, List.mem_append, List.mem_singleton] at hj
  rw [hg]
  rcases hj with hj | hj
  · exact h j hj
  · cases hj

theorem acked_base {prog : Nat → Req} {b : Concurrent.State} (h : Acked b) (e : Concurrent.Ev) : Acked (b.step prog e) := by
  cases e with
  | start id => exact acked_read (b := { b with sent := b.sent ++ [(id, (prog id).msg)] }) h _ _
  | arrive m => exact acked_wakeup (b := { b with queue := b.queue ++ [m] }) h
  | resume =>
    unfold Concurrent.State.step; dsimp only
    split
    · exact h
    · rename_i id rest _
      exact acked_read (b := { b with woken := rest }) h _ _
  | expire id =>
    unfold Concurrent.State.step; dsimp only
    split
    · exact acked_fail h rfl rfl
    · split
      · have := acked_fail h (b' := { b with woken := b.woken.erase id, finished := b.finished ++ [(id, .error .timeoutError)] }) rfl rfl
        split
        · exact this
        · exact acked_wakeup this
      · exact h
  | cancel id =>
    unfold Concurrent.State.step; dsimp only
    split
    · exact h
    · split
      · split
        · exact h
        · exact acked_wakeup (b := { b with woken := b.woken.erase id, cancelled := b.cancelled ++ [id] }) h
      · exact h

theorem acked_write {prog : Nat → Req} {s : State} (h : Acked s.base) (id : Nat) : Acked (s.write prog id).base := by
  unfold State.write
  dsimp only
  split
  · exact acked_fail h rfl rfl
  · exact acked_base h (.start id)

theorem acked_step {prog : Nat → Req} {s : State} (h : Acked s.base) (e : Ev) : Acked (s.step prog e).base := by
  cases e with
  | start id =>
    unfold State.step; dsimp only
    split
    · exact acked_fail h rfl rfl
    · split
      · exact h
      · exact acked_write h id
  | wake id =>
    unfold State.step; dsimp only
    split
    · exact acked_write (s := { s with sending := s.sending.erase id }) h id
    · exact h
  | arrive m => unfold State.step; dsimp only; split; · exact h
                · exact acked_base (prog := prog) h (.arrive m)
  | resume =>
    unfold State.step; dsimp only
    split
    · unfold State.takeOne
      split
      · exact h
      · rename_i id rest _
        split
        · exact h
        · rename_i m q _
          intro j hj
          unfold State.finish at hj ⊢
          dsimp only at hj ⊢
          rw [List.mem_append, List.mem_singleton] at hj
          rcases hj with hj | hj
          · obtain ⟨x, h1, h2⟩ := h j hj
            exact ⟨x, h1, List.mem_append_left _ h2⟩
          · obtain ⟨rfl, hv⟩ := Prod.mk.inj hj
            split at hv
            · cases hv
            · exact ⟨m, verdict_ok hv.symm, List.mem_append_right _ (List.mem_singleton_self _)⟩
    · exact acked_base h .resume
  | expire id => exact acked_base (prog := prog) h (.expire id)
  | cancel id => unfold State.step; dsimp only; split; · exact h
                 · exact acked_base (prog := prog) h (.cancel id)
  | pause => unfold State.step; dsimp only; split <;> exact h
  | unpause => unfold State.step; dsimp only; split <;> exact h
  | lost => exact h
  | close => exact h

/-! ## After the end, with nothing left to read -/

/-- The connection is over and the queue is empty. -/
def Dead (s : State) : Prop := Over s ∧ s.base.queue = []

theorem read_empty {b : Concurrent.State} (h : b.queue = []) (want : Msg → Bool) (id : Nat) :
    b.read want id = { b with waiting := b.waiting ++ [id] } := by
  unfold Concurrent.State.read
  rw [h]
  simp only [Concurrent.take, List.map_nil, List.append_nil]

theorem dead_write {prog : Nat → Req} {s : State} (h : Dead s) (id : Nat) :
    Dead (s.write prog id) ∧ (s.write prog id).written = s.written ∧ (s.write prog id).sending = s.sending ∧
    (s.write prog id).paused = s.paused ∧ (s.write prog id).ended = s.ended ∧ (s.write prog id).base.woken = s.base.woken ∧
    s.base.waiting <+: (s.write prog id).base.waiting ∧
    ((s.write prog id).base.finished = s.base.finished ∨
      (s.write prog id).base.finished = s.base.finished ++ [(id, .error .invalidSession)]) := by
  have ho : (s.ended || s.closed) = true := by
    rcases h.1 with h | h <;> simp [h]
  unfold State.write
  simp only [ho, if_true]
  split
  · exact ⟨⟨h.1, h.2⟩, rfl, rfl, rfl, rfl, rfl, List.prefix_refl _, .inr rfl⟩
  · unfold Concurrent.State.step; dsimp only
    rw [read_empty (by exact h.2)]
    exact ⟨⟨h.1, h.2⟩, rfl, rfl, rfl, rfl, rfl, List.prefix_append _ _, .inl rfl⟩

/-- What can change after the end, with nothing left to read: no success, no writing, no task is woken. -/
theorem dead_step {prog : Nat → Req} {s : State} (h : Dead s) (e : Ev) :
    Dead (s.step prog e) ∧ (s.step prog e).written = s.written ∧
    ((s.step prog e).base.finished = s.base.finished ∨ ∃ id er, (er = Err.timeoutError ∨ er = .invalidSession) ∧
      (s.step prog e).base.finished = s.base.finished ++ [(id, .error er)]) := by
  have inj : ∀ {s' : State} {id : Nat}, (s'.base.finished = s.base.finished ∨
      s'.base.finished = s.base.finished ++ [(id, .error .invalidSession)]) → (s'.base.finished = s.base.finished ∨
      ∃ id er, (er = Err.timeoutError ∨ er = .invalidSession) ∧ s'.base.finished = s.base.finished ++ [(id, .error er)]) :=
    fun h => h.imp (fun h => h) fun h => ⟨_, _, .inr rfl, h⟩
  cases e with
  | start id =>
    unfold State.step; dsimp only
    split
    · exact ⟨⟨h.1, h.2⟩, rfl, .inr ⟨id, _, .inr rfl, rfl⟩⟩
    · split
      · exact ⟨⟨h.1, h.2⟩, rfl, .inl rfl⟩
      · obtain ⟨h1, h2, _, _, _, _, _, h3⟩ := dead_write (prog := prog) h id
        exact ⟨h1, h2, inj h3⟩
  | wake id =>
    unfold State.step; dsimp only
    split
    · obtain ⟨h1, h2, _, _, _, _, _, h3⟩ := dead_write (prog := prog) (s := { s with sending := s.sending.erase id }) ⟨h.1, h.2⟩ id
      exact ⟨h1, h2, inj h3⟩
    · exact ⟨h, rfl, .inl rfl⟩
  | arrive m =>
    have ho : (s.ended || s.closed) = true := by
      rcases h.1 with h | h <;> simp [h]
    unfold State.step; dsimp only
    rw [if_pos ho]
    exact ⟨h, rfl, .inl rfl⟩
  | resume =>
    unfold State.step; dsimp only
    split
    · unfold State.takeOne
      split
      · exact ⟨h, rfl, .inl rfl⟩
      · rw [h.2]; exact ⟨⟨h.1, h.2⟩, rfl, .inl rfl⟩
    · unfold Concurrent.State.step; dsimp only
      split
      · exact ⟨h, rfl, .inl rfl⟩
      · rw [read_empty (by exact h.2)]; exact ⟨⟨h.1, h.2⟩, rfl, .inl rfl⟩
  | expire id =>
    obtain ⟨_, h2, h3⟩ := expire_mem prog s.base id id
    refine ⟨⟨h.1, h2.trans h.2⟩, rfl, h3.imp (fun h => h) fun h => ⟨_, _, .inl rfl, h⟩⟩
  | cancel id =>
    unfold State.step; dsimp only
    split
    · exact ⟨⟨h.1, h.2⟩, rfl, .inl rfl⟩
    · obtain ⟨_, h2, h3⟩ := cancel_mem prog s.base id id
      exact ⟨⟨h.1, h2.trans h.2⟩, rfl, .inl h3⟩
  | pause => unfold State.step; dsimp only; split; · exact ⟨h, rfl, .inl rfl⟩
             · exact ⟨⟨h.1, h.2⟩, rfl, .inl rfl⟩
  | unpause => unfold State.step; dsimp only; split; · exact ⟨h, rfl, .inl rfl⟩
               · exact ⟨⟨h.1, h.2⟩, rfl, .inl rfl⟩
  | lost => exact ⟨⟨.inl rfl, h.2⟩, rfl, .inl rfl⟩
  | close => exact ⟨⟨.inr rfl, h.2⟩, rfl, .inl rfl⟩

theorem dead_run {prog : Nat → Req} {s : State} (h : Dead s) (evs : List Ev) :
    Dead (s.run prog evs) ∧ (s.run prog evs).written = s.written ∧
    ∃ l, (s.run prog evs).base.finished = s.base.finished ++ l ∧
      ∀ x ∈ l, x.2 = .error .timeoutError ∨ x.2 = .error .invalidSession := by
  induction evs using List.reverseRecOn with
  | nil => exact ⟨h, rfl, [], by simp [State.run], by simp⟩
  | append_singleton evs e ih =>
    rw [run_snoc]
    obtain ⟨h1, h2, l, h3, h4⟩ := ih
    obtain ⟨g1, g2, g3⟩ := dead_step (prog := prog) h1 e
    refine ⟨g1, g2.trans h2, ?_⟩
    rcases g3 with g3 | ⟨id, er, g4, g3⟩
    · exact ⟨l, g3.trans h3, h4⟩
    · refine ⟨l ++ [(id, .error er)], by rw [g3, h3, List.append_assoc], ?_⟩
      intro x hx
      rw [List.mem_append, List.mem_singleton] at hx
      rcases hx with hx | rfl
      · exact h4 x hx
      · rcases g4 with rfl | rfl
        · exact .inl rfl
        · exact .inr rfl

/-- A task that waits after the end, with nothing left to read, goes on waiting. -/
theorem dead_waits {prog : Nat → Req} {s : State} (h : Dead s) {id : Nat} (hw : id ∈ s.base.waiting) (e : Ev)
    (h1 : e ≠ .expire id) (h2 : e ≠ .cancel id) : id ∈ (s.step prog e).base.waiting := by
  cases e with
  | start j =>
    unfold State.step; dsimp only
    split
    · exact hw
    · split
      · exact hw
      · exact (dead_write (prog := prog) h j).2.2.2.2.2.2.1.subset hw
  | wake j =>
    unfold State.step; dsimp only
    split
    · exact (dead_write (prog := prog) (s := { s with sending := s.sending.erase j }) ⟨h.1, h.2⟩ j).2.2.2.2.2.2.1.subset hw
    · exact hw
  | arrive m =>
    have ho : (s.ended || s.closed) = true := by
      rcases h.1 with h | h <;> simp [h]
    unfold State.step; dsimp only
    rw [if_pos ho]
    exact hw
  | resume =>
    unfold State.step; dsimp only
    split
    · unfold State.takeOne
      split
      · exact hw
      · rw [h.2]; exact List.mem_append_left _ hw
    · unfold Concurrent.State.step; dsimp only
      split
      · exact hw
      · rw [read_empty (by exact h.2)]; exact List.mem_append_left _ hw
  | expire j =>
    have hj : id ≠ j := fun e => h1 (by rw [e])
    unfold State.step Concurrent.State.step; dsimp only
    split
    · exact (List.mem_erase_of_ne hj).2 hw
    · split
      · rw [if_pos h.2]; exact hw
      · exact hw
  | cancel j =>
    have hj : id ≠ j := fun e => h2 (by rw [e])
    unfold State.step; dsimp only
    split
    · exact hw
    · unfold Concurrent.State.step; dsimp only
      split
      · exact (List.mem_erase_of_ne hj).2 hw
      · split
        · rw [if_pos h.2]; exact hw
        · exact hw
  | pause => unfold State.step; dsimp only; split <;> exact hw
  | unpause => unfold State.step; dsimp only; split <;> exact hw
  | lost => exact hw
  | close => exact hw

/-! ## A connection lost while writing is paused -/

theorem stuck_step {prog : Nat → Req} {s : State} (h1 : s.ended = true) (h2 : s.paused = true) {id : Nat} (hs : id ∈ s.sending)
    (e : Ev) (he : e ≠ .cancel id) :
    (s.step prog e).ended = true ∧ (s.step prog e).paused = true ∧ id ∈ (s.step prog e).sending := by
  cases e with
  | start j =>
    unfold State.step; dsimp only
    split
    · exact ⟨h1, h2, hs⟩
    · exact ⟨h1, h2, List.mem_append_left _ hs⟩
  | wake j => unfold State.step; dsimp only; rw [if_neg (by rw [h2]; simp)]; exact ⟨h1, h2, hs⟩
  | arrive m => unfold State.step; dsimp only; split <;> exact ⟨h1, h2, hs⟩
  | resume =>
    unfold State.step; dsimp only
    split
    · unfold State.takeOne
      split
      · exact ⟨h1, h2, hs⟩
      · split <;> exact ⟨h1, h2, hs⟩
    · exact ⟨h1, h2, hs⟩
  | expire j => exact ⟨h1, h2, hs⟩
  | cancel j =>
    unfold State.step; dsimp only
    split
    · exact ⟨h1, h2, (List.mem_erase_of_ne fun e => he (by rw [e])).2 hs⟩
    · exact ⟨h1, h2, hs⟩
  | pause => unfold State.step; dsimp only; rw [if_pos h1]; exact ⟨h1, h2, hs⟩
  | unpause => unfold State.step; dsimp only; rw [if_pos h1]; exact ⟨h1, h2, hs⟩
  | lost => exact ⟨rfl, h2, hs⟩
  | close => exact ⟨h1, h2, hs⟩

end Loss
