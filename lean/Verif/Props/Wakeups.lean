import Verif.Proofs.Wakeups

/-! # C96 and C99: requests made at the same time, and cancelled ones -/

open Py Spec Spec.Concurrent Concurrent

/-- C96: every message that arrived was taken by exactly one request, in the order of arrival, or is still in the queue. -/
theorem C96_once (prog : Nat → Req) (evs : List Ev) :
    (run prog evs).got.map (·.2) ++ (run prog evs).queue = arrivals evs := by
  induction evs using List.reverseRecOn with
  | nil => rfl
  | append_singleton evs e ih =>
    rw [run_append]
    generalize run prog evs = s at ih
    have hr : ∀ (s : State) want id, (s.read want id).got.map (·.2) ++ (s.read want id).queue =
        s.got.map (·.2) ++ s.queue := by
      intro s want id
      rcases read_cases' s want id with ⟨taken, h1, h2⟩ | ⟨taken, rest, r, h1, _, h2⟩
      · rw [h2]; simp [Function.comp_def, h1]
      · rw [h2, ← h1]; simp [Function.comp_def]
    have hw : ∀ s : State, s.wakeup.got = s.got ∧ s.wakeup.queue = s.queue := by
      intro s; unfold State.wakeup; split <;> exact ⟨rfl, rfl⟩
    cases e with
    | start id =>
      have : arrivals (evs ++ [.start id]) = arrivals evs := by simp [arrivals]
      rw [this, ← ih]
      exact hr _ _ _
    | arrive m =>
      have : arrivals (evs ++ [.arrive m]) = arrivals evs ++ [m] := by simp [arrivals]
      rw [this, ← ih]
      unfold State.step; dsimp only
      rw [(hw _).1, (hw _).2]
      simp
    | resume =>
      have : arrivals (evs ++ [.resume]) = arrivals evs := by simp [arrivals]
      rw [this, ← ih]
      unfold State.step; dsimp only
      split
      · rfl
      · exact hr _ _ _
    | expire id =>
      have : arrivals (evs ++ [.expire id]) = arrivals evs := by simp [arrivals]
      rw [this, ← ih]
      unfold State.step; dsimp only
      split_ifs
      · rfl
      · rfl
      · rw [(hw _).1, (hw _).2]
      · rfl
    | cancel id =>
      have : arrivals (evs ++ [.cancel id]) = arrivals evs := by simp [arrivals]
      rw [this, ← ih]
      unfold State.step; dsimp only
      split_ifs
      · rfl
      · rfl
      · rw [(hw _).1, (hw _).2]
      · rfl

/-- C96: every request that was begun is waiting, or about to run, or has ended, or was cancelled, and is so once. -/
theorem C96_accounted (prog : Nat → Req) (evs : List Ev) :
    ((run prog evs).waiting ++ (run prog evs).woken ++ (run prog evs).finished.map (·.1) ++
      (run prog evs).cancelled).Perm (starts evs) := by
  rw [List.perm_iff_count]
  intro a
  suffices h : tally (run prog evs) a = (starts evs).count a by
    simp only [List.count_append]; exact h
  induction evs using List.reverseRecOn with
  | nil => rfl
  | append_singleton evs e ih =>
    rw [run_append]
    generalize run prog evs = s at ih
    cases e with
    | start id =>
      have : starts (evs ++ [.start id]) = starts evs ++ [id] := by simp [starts]
      rw [this, List.count_append, ← ih]
      refine (tally_read _ _ _ _).trans ?_
      simp [tally, List.count_cons]
    | arrive m =>
      have : starts (evs ++ [.arrive m]) = starts evs := by simp [starts]
      rw [this, ← ih]
      exact tally_wakeup _ _
    | resume =>
      have : starts (evs ++ [.resume]) = starts evs := by simp [starts]
      rw [this, ← ih]
      unfold State.step; dsimp only
      split
      · rfl
      · rename_i id rest h
        refine (tally_read _ _ _ _).trans ?_
        simp only [tally, h, List.count_cons, beq_iff_eq]
        omega
    | expire id =>
      have : starts (evs ++ [.expire id]) = starts evs := by simp [starts]
      rw [this, ← ih]
      unfold State.step; dsimp only
      split_ifs with h1 h2 h3
      · have := count_erase_add h1 a
        simp only [tally, List.map_append, List.count_append, List.map_cons, List.map_nil, List.count_cons, List.count_nil, beq_iff_eq]
        omega
      · have := count_erase_add h2 a
        simp only [tally, List.map_append, List.count_append, List.map_cons, List.map_nil, List.count_cons, List.count_nil, beq_iff_eq]
        omega
      · have := count_erase_add h2 a
        rw [tally_wakeup]
        simp only [tally, List.map_append, List.count_append, List.map_cons, List.map_nil, List.count_cons, List.count_nil, beq_iff_eq]
        omega
      · rfl
    | cancel id =>
      have : starts (evs ++ [.cancel id]) = starts evs := by simp [starts]
      rw [this, ← ih]
      unfold State.step; dsimp only
      split_ifs with h1 h2 h3
      · have := count_erase_add h1 a
        simp only [tally, List.count_append, List.count_cons, List.count_nil, beq_iff_eq]
        omega
      · have := count_erase_add h2 a
        simp only [tally, List.count_append, List.count_cons, List.count_nil, beq_iff_eq]
        omega
      · have := count_erase_add h2 a
        rw [tally_wakeup]
        simp only [tally, List.count_append, List.count_cons, List.count_nil, beq_iff_eq]
        omega
      · rfl

/-- C96: when a request waits, the messages in the queue are not more than the requests that are about to run: none is left
waiting while there is a message for it. -/
theorem C96_no_lost_wakeup (prog : Nat → Req) (evs : List Ev) (h : (run prog evs).waiting ≠ []) :
    (run prog evs).queue.length ≤ (run prog evs).woken.length := by
  induction evs using List.reverseRecOn with
  | nil => exact absurd rfl h
  | append_singleton evs e ih =>
    rw [run_append] at h ⊢
    generalize run prog evs = s at ih h
    have hw : ∀ s : State, s.queue.length ≤ s.woken.length + 1 → s.wakeup.waiting ≠ [] →
        s.wakeup.queue.length ≤ s.wakeup.woken.length := by
      intro s hs hn
      unfold State.wakeup at hn ⊢
      split
      · rename_i h; rw [h] at hn; exact absurd h hn
      · simpa using hs
    cases e with
    | start id =>
      unfold State.step at h ⊢
      dsimp only at h ⊢
      rcases read_cases' { s with sent := s.sent ++ [(id, (prog id).msg)] } (prog id).want id with
        ⟨taken, h1, h2⟩ | ⟨taken, rest, r, _, h1, h2⟩
      · rw [h2]; simp
      · rw [h2] at h ⊢
        have := ih h
        dsimp only at h1 ⊢
        omega
    | arrive m =>
      unfold State.step at h ⊢
      dsimp only at h ⊢
      refine hw _ ?_ h
      have : s.waiting ≠ [] := by
        rintro e
        rw [State.wakeup] at h
        simp only [e] at h
        exact h rfl
      simpa using ih this
    | resume =>
      unfold State.step at h ⊢
      dsimp only at h ⊢
      rcases hk : s.woken with _ | ⟨id, rest⟩
      · rw [hk] at h; simp only [hk]
        simpa [hk] using ih h
      · simp only [hk] at h ⊢
        rcases read_cases' { s with woken := rest } (prog id).want id with
          ⟨taken, h1, h2⟩ | ⟨taken, rest', r, _, h1, h2⟩
        · rw [h2]; simp
        · rw [h2] at h ⊢
          have := ih h
          rw [hk] at this
          simp at this h1 ⊢
          omega
    | expire id =>
      unfold State.step at h ⊢
      dsimp only at h ⊢
      split_ifs at h ⊢ with h1 h2 h3
      · exact ih (by rintro e; rw [e] at h1; cases h1)
      · simp [h3]
      · refine hw _ ?_ h
        have : s.waiting ≠ [] := by
          rintro e
          rw [State.wakeup] at h
          simp only [e] at h
          exact h rfl
        have := ih this
        have hp := List.length_pos_of_mem h2
        dsimp only
        rw [List.length_erase_of_mem h2]
        omega
      · exact ih h
    | cancel id =>
      unfold State.step at h ⊢
      dsimp only at h ⊢
      split_ifs at h ⊢ with h1 h2 h3
      · exact ih (by rintro e; rw [e] at h1; cases h1)
      · simp [h3]
      · refine hw _ ?_ h
        have : s.waiting ≠ [] := by
          rintro e
          rw [State.wakeup] at h
          simp only [e] at h
          exact h rfl
        have := ih this
        have hp := List.length_pos_of_mem h2
        dsimp only
        rw [List.length_erase_of_mem h2]
        omega
      · exact ih h

/-- C96: once the tasks that were woken have run, either nothing is in the queue or no request waits. -/
theorem C96_served (prog : Nat → Req) (evs : List Ev) :
    ∃ n, (run prog (evs ++ List.replicate n .resume)).woken = [] ∧
      ((run prog (evs ++ List.replicate n .resume)).queue = [] ∨
        (run prog (evs ++ List.replicate n .resume)).waiting = []) := by
  have key : ∀ n evs, (run prog evs).woken.length = n →
      (run prog (evs ++ List.replicate n .resume)).woken = [] := by
    intro n
    induction n with
    | zero => intro evs h; simpa using h
    | succ n ih =>
      intro evs h
      rw [List.replicate_succ, List.append_cons]
      refine ih _ ?_
      rw [run_append]
      unfold State.step; dsimp only
      rcases hk : (run prog evs).woken with _ | ⟨id, rest⟩
      · rw [hk] at h; cases h
      · rw [hk] at h
        dsimp only
        rcases read_cases' { run prog evs with woken := rest } (prog id).want id with
          ⟨taken, _, h2⟩ | ⟨taken, rest', r, _, _, h2⟩ <;>
        · rw [h2]; simpa using h
  refine ⟨_, key _ evs rfl, ?_⟩
  by_cases h : (run prog (evs ++ List.replicate (run prog evs).woken.length .resume)).waiting = []
  · exact .inr h
  · have := C96_no_lost_wakeup prog _ h
    rw [key _ evs rfl] at this
    exact .inl (List.length_eq_zero_iff.1 (Nat.le_zero.1 this))

/-- C96: a request ends at most once, and does not end if it was cancelled. -/
theorem C96_ends_once (prog : Nat → Req) (evs : List Ev) (h : (starts evs).Nodup) :
    ((run prog evs).finished.map (·.1)).Nodup ∧ (run prog evs).cancelled.Nodup ∧
      ∀ id ∈ (run prog evs).cancelled, id ∉ (run prog evs).finished.map (·.1) := by
  have h := List.nodup_append.1 ((C96_accounted prog evs).nodup_iff.2 h)
  exact ⟨(List.nodup_append.1 h.1).2.1, h.2.1, fun id hc hf => h.2.2 id (List.mem_append_right _ hf) id hc rfl⟩

/-! ## C99: cancelled requests -/

/-- C99 is false: whatever the gateway answers, a command that is sent after another one was cancelled reports the answer to
the cancelled one. -/
theorem C99_next_command_refuted (prog : Nat → Req) (hp : ∀ id, (prog id).want = fun _ => false) (a b : Msg) :
    (run prog [.start 0, .cancel 0, .start 1, .arrive a, .arrive b, .resume]).finished = [(1, verdict a)] ∧
    (run prog [.start 0, .cancel 0, .start 1, .arrive a, .arrive b, .resume]).cancelled = [0] ∧
    (run prog [.start 0, .cancel 0, .start 1, .arrive a, .arrive b, .resume]).queue = [b] := by
  simp [run, State.init, State.step, State.read, State.wakeup, take, hp]

/-- C99, what holds: from the moment it is cancelled a request takes no message and does not end; the others are served as
C96 says.  Missing: that they get their own answers. -/
theorem C99_takes_nothing_partial (prog : Nat → Req) (evs more : List Ev) (id : Nat)
    (h : id ∈ (run prog evs).cancelled) (hn : (starts (evs ++ more)).Nodup) :
    takenBy (run prog (evs ++ more)) id = takenBy (run prog evs) id ∧
      id ∉ (run prog (evs ++ more)).finished.map (·.1) := by
  suffices key : id ∈ (run prog (evs ++ more)).cancelled ∧
      takenBy (run prog (evs ++ more)) id = takenBy (run prog evs) id from
    ⟨key.2, (C96_ends_once prog _ hn).2.2 id key.1⟩
  induction more using List.reverseRecOn with
  | nil => simpa using h
  | append_singleton more e ih =>
    rw [← List.append_assoc] at hn ⊢
    have hn' : (starts (evs ++ more)).Nodup := by
      rw [starts, List.filterMap_append] at hn
      exact (List.nodup_append.1 hn).1
    have hacc := C96_accounted prog (evs ++ more)
    obtain ⟨i1, i2⟩ := ih hn'
    rw [run_append]
    refine ⟨cancelled_step prog _ e id i1, ?_⟩
    rw [← i2]
    generalize hs : run prog (evs ++ more) = s at *
    have hr : ∀ (s : State) want k, k ≠ id → takenBy (s.read want k) id = takenBy s id := by
      intro s want k hk
      have : ∀ taken : List Msg, (taken.map (k, ·)).filter (fun p => decide (p.1 = id)) = [] := by
        intro taken; simp [List.filter_eq_nil_iff, hk]
      rcases read_cases' s want k with ⟨_, _, h2⟩ | ⟨_, _, _, _, _, h2⟩ <;> rw [h2] <;>
        simp only [takenBy, List.filter_append, this, List.append_nil]
    have hw : ∀ s : State, takenBy s.wakeup id = takenBy s id := by
      intro s; unfold State.wakeup; split <;> rfl
    cases e with
    | start k =>
      refine (hr _ _ _ ?_).trans rfl
      rintro rfl
      have hk : k ∈ starts (evs ++ more) := hacc.subset (List.mem_append_right _ i1)
      have e1 : starts (evs ++ more ++ [.start k]) = starts (evs ++ more) ++ [k] := by simp [starts]
      rw [e1] at hn
      exact (List.nodup_append.1 hn).2.2 k hk k (by simp) rfl
    | arrive m => exact (hw _).trans rfl
    | resume =>
      unfold State.step; dsimp only
      split
      · rfl
      · rename_i k rest hk
        refine (hr _ _ _ ?_).trans rfl
        rintro rfl
        exact (List.nodup_append.1 (hacc.nodup_iff.2 hn')).2.2 k (by simp [hk]) k i1 rfl
    | expire k =>
      unfold State.step; dsimp only
      split_ifs
      · rfl
      · rfl
      · exact (hw _).trans rfl
      · rfl
    | cancel k =>
      unfold State.step; dsimp only
      split_ifs
      · rfl
      · rfl
      · exact (hw _).trans rfl
      · rfl

/-- C99, what holds: cancelling takes no message away, from anybody: what was taken, what still waits to be taken, what was
sent and how the others ended stay as they are. -/
theorem C99_cancel_partial (prog : Nat → Req) (evs : List Ev) (id : Nat) :
    (run prog (evs ++ [.cancel id])).queue = (run prog evs).queue ∧ (run prog (evs ++ [.cancel id])).got = (run prog evs).got ∧
      (run prog (evs ++ [.cancel id])).sent = (run prog evs).sent ∧
      (run prog (evs ++ [.cancel id])).finished = (run prog evs).finished := by
  rw [run_append]
  generalize run prog evs = s
  have hw : ∀ s : State, s.wakeup.queue = s.queue ∧ s.wakeup.got = s.got ∧ s.wakeup.sent = s.sent ∧
      s.wakeup.finished = s.finished := by
    intro s; unfold State.wakeup; split <;> exact ⟨rfl, rfl, rfl, rfl⟩
  unfold State.step; dsimp only
  split_ifs
  · exact ⟨rfl, rfl, rfl, rfl⟩
  · exact ⟨rfl, rfl, rfl, rfl⟩
  · exact hw _
  · exact ⟨rfl, rfl, rfl, rfl⟩

/-- C99, what holds: if no answer is outstanding or left over when a command is sent, it reports its own answer, an ACK as success and
everything else as `ResponseError`, whatever was cancelled before. -/
theorem C99_next_partial (prog : Nat → Req) (evs : List Ev) (hq : (run prog evs).queue = []) (hw : (run prog evs).waiting = [])
    (hk : (run prog evs).woken = []) (id : Nat) (hp : (prog id).want = fun _ => false) (m : Msg) :
    (run prog (evs ++ [.start id, .arrive m, .resume])).finished =
      (run prog evs).finished ++ [(id, if m = .ack then .ok () else .error .responseError)] := by
  have hv : verdict m = if m = .ack then .ok () else .error .responseError := by
    unfold verdict
    cases m <;> simp [Msg.type]
  rw [← hv]
  simp [run, List.foldl_append] at hq hw hk ⊢
  simp [State.step, State.read, State.wakeup, take, hp, hq, hw, hk]

/-- A status request that is cancelled after its first reply. -/
example : let prog : Nat → Req := fun
      | 0 => .status ⟨.lighting, ⟨cs!"0"⟩⟩
      | _ => .command (.normal .lighting ⟨cs!"1"⟩ ⟨cs!"12"⟩)
    let evs : List Ev := [.start 0, .arrive (.normal .lighting ⟨cs!"1"⟩ ⟨cs!"11"⟩), .resume, .cancel 0]
    let more : List Ev := [.arrive .ack, .start 1, .arrive .nack]
    0 ∈ (run prog evs).cancelled ∧ (starts (evs ++ more)).Nodup ∧ (takenBy (run prog evs) 0).length = 1 ∧
      (run prog (evs ++ more)).finished = [(1, .ok ())] := by decide +kernel

/-- C80: a task that finds all its answer in the queue does what it does on a client of its own (C35 to C37). -/
theorem C80_same_as_alone (want : Msg → Bool) (hw : want .ack = false ∧ want .nack = false)
    (q taken rest : List Msg) (r : Except Err Unit) (h : take want q = (taken, rest, some r)) (w : World)
    (hs : w.started = true) (tail : List InEv) (hin : w.inbox = q.map .msg ++ tail) :
    Item.drain want (fun m => .ok [m]) w =
      ((taken.dropLast, r), w.after (rest.map .msg ++ tail) (taken.map .got)) := by
  induction q generalizing taken w with
  | nil => simp [take] at h
  | cons m q ih =>
    unfold take at h
    split at h
    · rename_i hm
      simp only [Prod.mk.injEq] at h
      obtain ⟨h1, h2, h3⟩ := h
      rw [Item.drain_cons hw hs (rest := q.map .msg ++ tail) (by simpa using hin) hm]
      dsimp only
      rw [ih _ (Prod.ext rfl (Prod.ext h2 h3)) (w.after (q.map InEv.msg ++ tail) [CAct.got m]) (by exact hs) rfl, ← h1]
      have : (take want q).1 ≠ [] := by
        intro e
        have h := take_split want q
        rw [e] at h
        have := h.2.2 (by simp [h3])
        have h1 := congrArg List.length h.1
        simp at h1
        omega
      simp [World.after, List.dropLast_cons_of_ne_nil this]
    · rename_i hm
      simp only [Prod.mk.injEq, Option.some.injEq] at h
      obtain ⟨rfl, rfl, rfl⟩ := h
      rw [Item.drain_ending hw hs (r := verdict m) (rest := q.map .msg ++ tail) (acts := [.got m])]
      · rfl
      · rw [hin]
        unfold verdict
        split
        · rename_i ht
          rw [type_ack.1 ht]
          exact .acknowledged _
        · rename_i ht
          exact .refused m _ (fun e => ht (type_ack.2 e)) hm

/-- Three requests at the same time, one of which times out; a status request, a command and a dimension request. -/
example : let prog : Nat → Req := fun
      | 0 => .status ⟨.lighting, ⟨cs!"0"⟩⟩
      | 1 => .command (.normal .lighting ⟨cs!"1"⟩ ⟨cs!"12"⟩)
      | _ => .dimension ⟨.gateway, ⟨[]⟩⟩ ⟨cs!"0"⟩
    let evs : List Ev := [.start 0, .start 1, .start 2, .arrive (.normal .lighting ⟨cs!"1"⟩ ⟨cs!"11"⟩), .arrive .ack, .expire 1,
      .arrive .nack]
    (run prog evs).waiting = [] ∧ (run prog evs).woken = [0, 2] ∧
      (run prog evs).finished = [(1, .error .timeoutError)] ∧ (run prog evs).queue.length = 3 ∧
      (run prog (evs ++ [.resume, .resume])).finished =
        [(1, .error .timeoutError), (0, .ok ()), (2, .error .responseError)] := by decide +kernel
example : take Msg.isNormal [.normal .lighting ⟨cs!"1"⟩ ⟨cs!"11"⟩, .ack, .nack] =
    ([.normal .lighting ⟨cs!"1"⟩ ⟨cs!"11"⟩, .ack], [.nack], some (.ok ())) := by decide +kernel

/-- The hypotheses of `C99_next_partial`: the answer to a cancelled request came before and was taken by another one. -/
example : let prog : Nat → Req := fun _ => .command (.normal .lighting ⟨cs!"1"⟩ ⟨cs!"12"⟩)
    let s := run prog [.start 0, .cancel 0, .start 1, .arrive .ack, .resume]
    s.queue = [] ∧ s.waiting = [] ∧ s.woken = [] ∧ s.cancelled = [0] ∧ s.finished = [(1, .ok ())] := by decide +kernel
