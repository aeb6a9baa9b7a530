import Verif.Proofs.Loss

/-! # C118 and C119: requests and the end of the connection -/

open Py Spec.Loss Loss
open Concurrent (Req)

/-! ## C118: success means written -/

/-- C118 is refuted: when an ACK is left over, the first command after the loss of the connection takes it and reports success,
though nothing was written.  (In any state.) -/
theorem C118_refuted (prog : Nat → Req) (s : State) (id : Nat) (m : Msg) (q : List Msg) (hp : prog id = .command m)
    (he : s.ended = true) (hc : s.closed = false) (hl : s.paused = false) (hq : s.base.queue = .ack :: q) :
    Succeeded (s.step prog (.start id)) id ∧ (s.step prog (.start id)).written = s.written := by
  unfold State.step; dsimp only
  rw [if_neg (by rw [hc]; simp), if_neg (by rw [hl]; simp)]
  unfold State.write
  simp only [he, hc, Bool.true_or, if_true, Bool.false_eq_true, if_false]
  unfold Concurrent.State.step Concurrent.State.read
  dsimp only
  rw [hq, hp]
  simp [Concurrent.take, Req.command, Concurrent.verdict, Msg.type, Succeeded]

/-- C118 is refuted: it is not so that in every history a request that reports success has been written. -/
theorem C118_history_refuted :
    ¬ ∀ (prog : Nat → Req) (evs : List Ev) (id : Nat), Succeeded (run prog evs) id → Written prog (run prog evs) id := by
  intro h
  have := h (fun n => .command (.normal .lighting ⟨if n = 0 then cs!"1" else cs!"0"⟩ ⟨cs!"12"⟩))
    [.start 0, .expire 0, .arrive .ack, .lost, .start 1] 1
  unfold Succeeded Written at this
  revert this
  decide +kernel

/-- C118: on a connection that stays and is not congested, every frame is written, and the requests behave as in
`Verif/Model/Concurrent.lean`. -/
theorem C118_open (prog : Nat → Req) (evs : List Concurrent.Ev) :
    (run prog (evs.map inLoss)).base = Concurrent.run prog evs ∧
    (run prog (evs.map inLoss)).written = (Concurrent.run prog evs).sent := by
  have : let s := run prog (evs.map inLoss)
      s = ⟨Concurrent.run prog evs, false, [], false, false, (Concurrent.run prog evs).sent⟩ := by
    induction evs using List.reverseRecOn with
    | nil => rfl
    | append_singleton evs e ih =>
      dsimp only at ih ⊢
      rw [List.map_append, List.map_singleton]
      change State.init.run prog _ = _
      rw [run_snoc]
      change (run prog (evs.map inLoss)).step prog _ = _
      rw [ih, Concurrent.run_append]
      generalize Concurrent.run prog evs = b
      change _ = (⟨b.step prog e, false, [], false, false, (b.step prog e).sent⟩ : State)
      have hr : ∀ (b : Concurrent.State) w i, (b.read w i).sent = b.sent := by
        intro b w i
        rcases read_cases b w i with ⟨_, h⟩ | ⟨_, _, _, _, h⟩ <;> rw [h]
      have hw : ∀ b : Concurrent.State, b.wakeup.sent = b.sent := by
        intro b; unfold Concurrent.State.wakeup; split <;> rfl
      have hs : ∀ e, (∀ id, e ≠ .start id) → (b.step prog e).sent = b.sent := by
        intro e he
        cases e with
        | start id => exact absurd rfl (he id)
        | arrive m => exact hw _
        | resume => unfold Concurrent.State.step; dsimp only; split <;> first | rfl | exact hr _ _ _
        | expire id =>
          unfold Concurrent.State.step; dsimp only
          split
          · rfl
          · split
            · split
              · rfl
              · exact hw _
            · rfl
        | cancel id =>
          unfold Concurrent.State.step; dsimp only
          split
          · rfl
          · split
            · split
              · rfl
              · exact hw _
            · rfl
      cases e with
      | start id =>
        have h : (b.step prog (.start id)).sent = b.sent ++ [(id, (prog id).msg)] := hr _ _ _
        rw [h]; rfl
      | arrive m => rw [hs _ (by simp)]; rfl
      | resume => rw [hs _ (by simp)]; rfl
      | expire id => rw [hs _ (by simp)]; rfl
      | cancel id => rw [hs _ (by simp)]; rfl
  rw [this]
  exact ⟨rfl, rfl⟩

/-- C118 as far as it holds: a request that reports success has been written to a connection that was there, in every history in which no
message is left unread when the connection is lost (unless the client was closed before). -/
theorem C118_written_partial (prog : Nat → Req) (evs : List Ev)
    (h : ∀ pre, pre ++ [.lost] <+: evs → (run prog pre).closed = true ∨ (run prog pre).base.queue = []) (id : Nat)
    (hs : Succeeded (run prog evs) id) : Written prog (run prog evs) id := by
  have key : Inv prog (run prog evs) := by
    clear hs
    induction evs using List.reverseRecOn with
    | nil => exact inv_init prog
    | append_singleton evs e ih =>
      have := ih fun pre hp => h pre (hp.trans (List.prefix_append _ _))
      change Inv prog (State.init.run prog (evs ++ [e]))
      rw [run_snoc]
      exact inv_step this e fun he => h evs (by rw [he])
  exact key.good id hs

/-- C118: whatever happens, a request that reports success has taken an ACK. -/
theorem C118_acknowledged (prog : Nat → Req) (evs : List Ev) (id : Nat) (hs : Succeeded (run prog evs) id) :
    ∃ m, m.type = .ack ∧ (id, m) ∈ (run prog evs).base.got := by
  have : Acked (run prog evs).base := by
    clear hs
    induction evs using List.reverseRecOn with
    | nil => intro j hj; simp [run, State.run, State.init, Concurrent.State.init] at hj
    | append_singleton evs e ih =>
      change Acked (State.init.run prog (evs ++ [e])).base
      rw [run_snoc]
      exact acked_step ih e
  exact this id hs

/-- C118: after `close()` a request raises `InvalidSession` at once, and nothing is written any more. -/
theorem C118_closed (prog : Nat → Req) (s : State) (hc : s.closed = true) (id : Nat) :
    (s.step prog (.start id)).base.finished = s.base.finished ++ [(id, .error .invalidSession)] ∧
    ∀ evs, (s.run prog evs).written = s.written := by
  constructor
  · unfold State.step; dsimp only; rw [if_pos hc]; rfl
  · intro evs
    have : (s.run prog evs).closed = true ∧ (s.run prog evs).written = s.written := by
      have wr : ∀ (s : State) j, s.closed = true → (s.write prog j).closed = true ∧ (s.write prog j).written = s.written := by
        intro s j hc
        unfold State.write
        simp only [hc, Bool.or_true, if_true]
        exact ⟨rfl, rfl⟩
      induction evs using List.reverseRecOn with
      | nil => exact ⟨hc, rfl⟩
      | append_singleton evs e ih =>
        rw [run_snoc]
        generalize s.run prog evs = t at ih
        obtain ⟨i1, i2⟩ := ih
        cases e with
        | start j => unfold State.step; dsimp only; rw [if_pos i1]; exact ⟨i1, i2⟩
        | wake j =>
          unfold State.step; dsimp only
          split
          · obtain ⟨w1, w2⟩ := wr { t with sending := t.sending.erase j } j i1
            exact ⟨w1, w2.trans i2⟩
          · exact ⟨i1, i2⟩
        | arrive m => unfold State.step; dsimp only; split <;> exact ⟨i1, i2⟩
        | resume =>
          unfold State.step; dsimp only
          rw [if_pos i1]
          unfold State.takeOne
          split
          · exact ⟨i1, i2⟩
          · split <;> exact ⟨i1, i2⟩
        | expire j => exact ⟨i1, i2⟩
        | cancel j => unfold State.step; dsimp only; split <;> exact ⟨i1, i2⟩
        | pause => unfold State.step; dsimp only; split <;> exact ⟨i1, i2⟩
        | unpause => unfold State.step; dsimp only; split <;> exact ⟨i1, i2⟩
        | lost => exact ⟨i1, i2⟩
        | close => exact ⟨rfl, i2⟩
    exact this.2

/-! ## C119: those who wait -/

/-- C119 is refuted: a request that waits for a message when the connection is lost or the client is closed, with no message left,
goes on waiting, whatever happens, until its own timeout expires or it is cancelled. -/
theorem C119_waits_refuted (prog : Nat → Req) (s : State) (ho : Over s) (hq : s.base.queue = []) (id : Nat)
    (hw : id ∈ s.base.waiting) (evs : List Ev) (h1 : .expire id ∉ evs) (h2 : .cancel id ∉ evs) :
    UnderWay (s.run prog evs) id := by
  have : Dead (s.run prog evs) ∧ id ∈ (s.run prog evs).base.waiting := by
    induction evs using List.reverseRecOn with
    | nil => exact ⟨⟨ho, hq⟩, hw⟩
    | append_singleton evs e ih =>
      simp only [List.mem_append, List.mem_singleton, not_or] at h1 h2
      obtain ⟨i1, i2⟩ := ih h1.1 h2.1
      rw [run_snoc]
      exact ⟨(dead_step i1 e).1, dead_waits i1 i2 e (fun h => h1.2 h.symm) fun h => h2.2 h.symm⟩
  exact .inr (.inl this.2)

/-- C119 is refuted: a request that waits for room to write when the connection is lost waits for ever, whatever happens, unless it is
cancelled; it has no timeout. -/
theorem C119_stuck_refuted (prog : Nat → Req) (s : State) (h1 : s.ended = true) (h2 : s.paused = true) (id : Nat)
    (hs : id ∈ s.sending) (evs : List Ev) (h3 : .cancel id ∉ evs) : UnderWay (s.run prog evs) id := by
  have : (s.run prog evs).ended = true ∧ (s.run prog evs).paused = true ∧ id ∈ (s.run prog evs).sending := by
    induction evs using List.reverseRecOn with
    | nil => exact ⟨h1, h2, hs⟩
    | append_singleton evs e ih =>
      simp only [List.mem_append, List.mem_singleton, not_or] at h3
      obtain ⟨i1, i2, i3⟩ := ih h3.1
      rw [run_snoc]
      exact stuck_step i1 i2 i3 e fun h => h3.2 h.symm
  exact .inl this.2.2

/-- C119 is refuted: so does every request that is begun on such a connection. -/
theorem C119_new_stuck_refuted (prog : Nat → Req) (s : State) (h1 : s.ended = true) (h2 : s.paused = true)
    (hc : s.closed = false) (id : Nat) (evs : List Ev) (h3 : .cancel id ∉ evs) :
    UnderWay ((s.step prog (.start id)).run prog evs) id := by
  have : s.step prog (.start id) = { s with sending := s.sending ++ [id] } := by
    unfold State.step; dsimp only
    rw [if_neg (by rw [hc]; simp), if_pos h2]
  rw [this]
  exact C119_stuck_refuted prog { s with sending := s.sending ++ [id] } h1 h2 id (by simp) evs h3

/-- C119 is refuted: this comes about from every history with the connection there: writing is paused, a request is begun, the connection
is lost. -/
theorem C119_paused_refuted (prog : Nat → Req) (evs : List Ev) (ho : ¬ Over (run prog evs)) (id : Nat) (more : List Ev)
    (h3 : .cancel id ∉ more) : UnderWay (run prog (evs ++ [.pause, .start id, .lost] ++ more)) id := by
  simp only [Over, not_or, Bool.not_eq_true] at ho
  change UnderWay (State.init.run prog _) id
  rw [run_append, run_append]
  change UnderWay (((run prog evs).run prog _).run prog more) id
  have : (run prog evs).run prog [.pause, .start id, .lost] =
      { run prog evs with paused := true, sending := (run prog evs).sending ++ [id], ended := true } := by
    simp [State.run, State.step, ho.1, ho.2]
  rw [this]
  exact C119_stuck_refuted prog { run prog evs with paused := true, sending := (run prog evs).sending ++ [id], ended := true }
    rfl rfl id (by simp) more h3

/-- C119 is refuted: and so does this: a request is begun with nothing to read, and the connection is lost or the client closed. -/
theorem C119_reading_refuted (prog : Nat → Req) (evs : List Ev) (ho : ¬ Over (run prog evs)) (hp : (run prog evs).paused = false)
    (hq : (run prog evs).base.queue = []) (id : Nat) (e : Ev) (he : e = .lost ∨ e = .close) (more : List Ev)
    (h1 : .expire id ∉ more) (h2 : .cancel id ∉ more) : UnderWay (run prog (evs ++ [.start id, e] ++ more)) id := by
  simp only [Over, not_or, Bool.not_eq_true] at ho
  change UnderWay (State.init.run prog _) id
  rw [run_append, run_append]
  change UnderWay (((run prog evs).run prog _).run prog more) id
  have : (run prog evs).step prog (.start id) = { run prog evs with
      base := { (run prog evs).base with
        sent := (run prog evs).base.sent ++ [(id, (prog id).msg)]
        waiting := (run prog evs).base.waiting ++ [id] }
      written := (run prog evs).written ++ [(id, (prog id).msg)] } := by
    unfold State.step; dsimp only
    rw [if_neg (by rw [ho.2]; simp), if_neg (by rw [hp]; simp)]
    unfold State.write
    simp only [ho.1, ho.2, Bool.or_self, Bool.false_eq_true, if_false]
    unfold Concurrent.State.step; dsimp only
    rw [read_empty (by exact hq)]
  have hr : (run prog evs).run prog [.start id, e] = ((run prog evs).step prog (.start id)).step prog e := rfl
  rw [hr, this]
  rcases he with rfl | rfl
  · refine C119_waits_refuted prog _ ?_ ?_ id ?_ more h1 h2
    · exact .inl rfl
    · exact hq
    · exact List.mem_append_right _ (List.mem_singleton_self _)
  · refine C119_waits_refuted prog _ ?_ ?_ id ?_ more h1 h2
    · exact .inr rfl
    · exact hq
    · exact List.mem_append_right _ (List.mem_singleton_self _)

/-- C119 as far as it holds: a request whose answer has arrived when the client is closed, and which is next to run, ends with this answer. -/
theorem C119_answered_partial (prog : Nat → Req) (s : State) (id : Nat) (rest : List Nat) (m : Msg) (q : List Msg)
    (hw : s.base.woken = id :: rest) (hq : s.base.queue = m :: q) (hm : (prog id).want m = false) :
    (s.run prog [.close, .resume]).base.finished = s.base.finished ++ [(id, Concurrent.verdict m)] := by
  simp [State.run, State.step, State.takeOne, State.finish, hw, hq, hm]

/-- C119 as far as it holds: a request that waits for a message ends with `TimeoutError` when its timeout expires, also then. -/
theorem C119_timeout_partial (prog : Nat → Req) (s : State) (id : Nat) (hw : id ∈ s.base.waiting) :
    (id, .error .timeoutError) ∈ (s.step prog (.expire id)).base.finished := by
  unfold State.step Concurrent.State.step; dsimp only
  rw [if_pos hw]
  simp

/-- C119: and once the connection is over with no message left, no request succeeds any more, nothing is written, and what is raised is
`TimeoutError` or `InvalidSession`. -/
theorem C119_fails_partial (prog : Nat → Req) (s : State) (ho : Over s) (hq : s.base.queue = []) (evs : List Ev) :
    (s.run prog evs).written = s.written ∧ ∃ l, (s.run prog evs).base.finished = s.base.finished ++ l ∧
      ∀ x ∈ l, x.2 = .error .timeoutError ∨ x.2 = .error .invalidSession :=
  (dead_run ⟨ho, hq⟩ evs).2

/-! ## Examples -/

namespace Example118

/-- Light 12 is turned on and off. -/
def prog : Nat → Req
  | 0 => .command (.normal .lighting ⟨cs!"1"⟩ ⟨cs!"12"⟩)
  | _ => .command (.normal .lighting ⟨cs!"0"⟩ ⟨cs!"12"⟩)

/-- The answer to the first command comes after its timeout, and then the connection is lost: the second command is reported as carried out. -/
example : (run prog [.start 0, .expire 0, .arrive .ack, .lost, .start 1]).base.finished =
      [(0, .error .timeoutError), (1, .ok ())] ∧
    (run prog [.start 0, .expire 0, .arrive .ack, .lost, .start 1]).written = [(0, (prog 0).msg)] := by decide +kernel

/-- The state before the second command meets the hypotheses of `C118_refuted`. -/
example : let s := run prog [.start 0, .expire 0, .arrive .ack, .lost]
    s.ended = true ∧ s.closed = false ∧ s.paused = false ∧ s.base.queue = [.ack] := by decide +kernel

/-- The hypothesis of `C118_written_partial` is met by a history with a loss. -/
example : ∀ pre, pre ++ [Ev.lost] <+: [.start 0, .arrive .ack, .resume, .lost, .start 1] →
    (run prog pre).closed = true ∨ (run prog pre).base.queue = [] := by
  intro pre hp
  have hm : (pre ++ [Ev.lost]) ∈ [Ev.start 0, .arrive .ack, .resume, .lost, .start 1].inits := (List.mem_inits _ _).2 hp
  simp only [List.inits, List.map_cons, List.map_nil, List.mem_cons, List.not_mem_nil, or_false] at hm
  rcases hm with h | h | h | h | h | h
  · simp at h
  all_goals
    have hl : (pre ++ [Ev.lost]).getLast? = some .lost := by simp
    rw [h] at hl
    simp at hl
  have : pre = [.start 0, .arrive .ack, .resume] := by
    have := congrArg List.dropLast h
    simpa using this
  subst this
  right; decide +kernel

/-- A request that waits when the connection is lost, and when the client is closed. -/
example : (let s := run prog [.start 0, .lost]; Over s ∧ s.base.queue = [] ∧ 0 ∈ s.base.waiting) ∧
    (let s := run prog [.start 0, .close]; Over s ∧ s.base.queue = [] ∧ 0 ∈ s.base.waiting) :=
  ⟨⟨.inl (by decide +kernel), by decide +kernel, by decide +kernel⟩, ⟨.inr (by decide +kernel), by decide +kernel, by decide +kernel⟩⟩

/-- A request that waits for room to write when the connection is lost. -/
example : let s := run prog [.pause, .start 0, .lost]
    s.ended = true ∧ s.paused = true ∧ 0 ∈ s.sending ∧ s.closed = false := by decide +kernel

/-- A connection that is there, with nothing to read and not congested; and a request whose answer has arrived. -/
example : (let s := run prog [.start 0, .arrive .ack, .resume]; ¬ Over s ∧ s.paused = false ∧ s.base.queue = []) ∧
    (let s := run prog [.start 0, .arrive .ack]; s.base.woken = [0] ∧ s.base.queue = [.ack] ∧ (prog 0).want .ack = false) ∧
    Succeeded (run prog [.start 0, .arrive .ack, .close, .resume]) 0 :=
  ⟨⟨fun h => by rcases h with h | h <;> revert h <;> decide +kernel, by decide +kernel, by decide +kernel⟩,
    ⟨by decide +kernel, by decide +kernel, by decide +kernel⟩, by unfold Succeeded; decide +kernel⟩

/-- A status request between two replies when the client is closed: the next reply ends it. -/
example : (run (fun _ => .status ⟨.lighting, ⟨cs!"12"⟩⟩) [.start 0, .arrive (.normal .lighting ⟨cs!"1"⟩ ⟨cs!"12"⟩), .close,
    .resume]).base.finished = [(0, .error .invalidSession)] := by decide +kernel

end Example118
