import Verif.Proofs.Concurrent

/-! # Properties of concurrent requests: C80 -/

open Py Concurrent Spec.Concurrent

/-! ## C80: requests made at the same time

The full claim: for all requests, a gateway that answers them in order, and every history in which no timeout expires and
the tasks run in the order in which they became ready, every request that ended got its own answer. -/

/-- The full claim, for schedules in which `P` holds whenever a request begins. -/
def C80_full (P : State → Prop) : Prop :=
  ∀ (prog : Nat → Req) (answers : Nat → List Msg) (evs : List Ev), (∀ id, Proper (prog id) (answers id)) → Calm evs →
    InOrder answers evs → AtStart prog P evs → Own answers (run prog evs)

namespace C80

/-- Task 0 asks for the status of the lights of ambient 1, every other task switches light 21 on. -/
def prog (id : Nat) : Req :=
  if id = 0 then .status ⟨.lighting, ⟨cs!"1"⟩⟩ else .command (.normal .lighting ⟨cs!"1"⟩ ⟨cs!"21"⟩)

/-- Two lights report their status; the command is acknowledged. -/
def answers (id : Nat) : List Msg :=
  if id = 0 then [.normal .lighting ⟨cs!"1"⟩ ⟨cs!"11"⟩, .normal .lighting ⟨cs!"0"⟩ ⟨cs!"12"⟩, .ack] else [.ack]

/-- The status request waits, then the command waits; the two reports arrive in two packets. -/
def mixed : List Ev :=
  [.start 0, .start 1, .arrive (.normal .lighting ⟨cs!"1"⟩ ⟨cs!"11"⟩), .resume,
   .arrive (.normal .lighting ⟨cs!"0"⟩ ⟨cs!"12"⟩), .resume, .arrive .ack, .resume, .arrive .ack]

theorem proper (id : Nat) : Proper (prog id) (answers id) := by
  by_cases h : id = 0
  · exact ⟨[.normal .lighting ⟨cs!"1"⟩ ⟨cs!"11"⟩, .normal .lighting ⟨cs!"0"⟩ ⟨cs!"12"⟩], .ack, by simp [answers, h],
      by simp [prog, h, Req.status, Msg.isNormal], by simp [prog, h, Req.status, Msg.isNormal]⟩
  · exact ⟨[], .ack, by simp [answers, h], by simp, by simp [prog, h, Req.command]⟩

/-- Two commands, both answered; the first is refused. -/
def prog2 (id : Nat) : Req := .command (.normal .lighting ⟨cs!"1"⟩ ⟨cs!"21"⟩)

/-- The gateway refuses the command of task 0 only. -/
def answers2 (id : Nat) : List Msg := if id = 0 then [.nack] else [.ack]

/-- The answer to the first command has arrived when the second command begins, before the first task has run. -/
def stolen : List Ev := [.start 0, .arrive .nack, .start 1, .resume, .arrive .ack, .resume]

theorem proper2 (id : Nat) : Proper (prog2 id) (answers2 id) :=
  ⟨[], if id = 0 then .nack else .ack, by unfold answers2; split <;> rfl, by simp, rfl⟩

end C80

/-- C80 is false: while a status request waits for its second report, the report goes to a command that was begun in the
meantime.  The command, which the gateway acknowledges, raises `ResponseError`; the report is lost. -/
theorem C80_requests_isolated_refuted : ¬ C80_full Fifo := by
  intro h
  have := h C80.prog C80.answers C80.mixed C80.proper (by unfold Calm; constructor <;> simp [starts, C80.mixed]) (by unfold InOrder; decide)
    (by unfold AtStart Fifo; decide) 1 (.error .responseError) (by decide)
  revert this
  decide

/-- C80: even with commands only, a task that begins to run between the arrival of an answer and the moment its reader runs
(possible with eager tasks) takes that answer: the refused command reports success, the other one is refused. -/
theorem C80_commands_any_schedule_refuted :
    ¬ ∀ (prog : Nat → Req) (answers : Nat → List Msg) (evs : List Ev), (∀ id, ∃ m, prog id = .command m) →
      (∀ id, Proper (prog id) (answers id)) → Calm evs → InOrder answers evs → Own answers (run prog evs) := by
  intro h
  have := h C80.prog2 C80.answers2 C80.stolen (fun id => ⟨_, rfl⟩) C80.proper2 (by unfold Calm; constructor <;> simp [starts, C80.stolen])
    (by unfold InOrder; decide) 0 (.ok ()) (by decide)
  revert this
  decide

/-- C80, what holds: when all requests are commands and the tasks run in the order in which they became ready, then,
whatever the number of commands under way, every command that ended got the answer to itself and reports it. -/
theorem C80_commands_partial (prog : Nat → Req) (answers : Nat → List Msg) (evs : List Ev)
    (hcmd : ∀ id, ∃ m, prog id = .command m) (hp : ∀ id, Proper (prog id) (answers id)) (hc : Calm evs)
    (ho : InOrder answers evs) (hf : AtStart prog Fifo evs) : Own answers (run prog evs) := by
  have hw : ∀ id, (prog id).want = fun _ => false := fun id => by
    obtain ⟨m, hm⟩ := hcmd id
    rw [hm]
    rfl
  have hans : ∀ id, ∃ a, answers id = [a] := fun id => by
    obtain ⟨replies, last, h1, h2, _⟩ := hp id
    rw [hw] at h2
    cases replies with
    | nil => exact ⟨last, h1⟩
    | cons m ms => cases h2 m (by simp)
  choose a ha using hans
  have hi := cmdInv prog hw evs hc hf
  have hself := ho.self
  rw [show answers = fun id => [a id] from funext ha, ← List.map_eq_flatMap, ← hi.fifo] at hself
  have hfst : (run prog evs).got.map (·.1) <+: starts evs := by
    rw [← hi.order, List.append_assoc]
    exact List.prefix_append _ _
  have hpair := paired _ _ hfst ((List.prefix_append _ _).trans hself)
  intro id r hr
  rw [hi.ends] at hr
  obtain ⟨⟨i, m⟩, hm, he⟩ := List.mem_map.1 hr
  injection he with h1 h2
  subst h1 h2
  have hma : m = a i := hpair _ hm
  refine ⟨?_, ?_⟩
  · rw [takenBy, filter_fst _ (hc.1.sublist hfst.sublist) hm, ha, hma]
    rfl
  · rw [ha, verdict_eq, hma]
    simp

/-- C80, what holds: when no request begins while another is under way, every request - command or query - gets its own
answer, all of it, and reports how it ended. -/
theorem C80_one_at_a_time_partial (prog : Nat → Req) (answers : Nat → List Msg) (evs : List Ev)
    (hp : ∀ id, Proper (prog id) (answers id)) (hc : Calm evs) (ho : InOrder answers evs)
    (hf : AtStart prog Alone evs) : Own answers (run prog evs) := by
  obtain ⟨hq, done, hfin, h⟩ := aloneInv prog answers hp evs hc ho hf
  intro id r hr
  rw [hfin] at hr
  obtain ⟨i, hi, he⟩ := List.mem_map.1 hr
  injection he with h1 h2
  subst h1 h2
  refine ⟨?_, rfl⟩
  rcases h with ⟨h1, h2, _⟩ | ⟨c, p, ⟨h1, h2, _⟩, _⟩
  · rw [takenBy, h2, complete_filter answers done (h1 ▸ hc.1) hi]
    simp
  · have hn : (done ++ [c]).Nodup := h1 ▸ hc.1
    have hne : c ≠ i := fun he => (List.nodup_append.1 hn).2.2 i hi c (by simp) he.symm
    rw [takenBy, h2, List.filter_append, complete_filter answers done (List.nodup_append.1 hn).1 hi,
      List.filter_eq_nil_iff.2, List.append_nil]
    · simp
    · intro x hx
      obtain ⟨m, _, rfl⟩ := List.mem_map.1 hx
      simpa using hne

/-- The hypotheses of `C80_commands_partial` are met by two overlapping commands whose answers come in one packet. -/
example : let evs := [Ev.start 0, .start 1, .arrive .nack, .arrive .ack, .resume, .resume]
    Calm evs ∧ InOrder C80.answers2 evs ∧ AtStart C80.prog2 Fifo evs ∧
      (run C80.prog2 evs).finished = [(0, .error .responseError), (1, .ok ())] := by
  refine ⟨by unfold Calm; constructor <;> simp [starts], by unfold InOrder; decide, by unfold AtStart Fifo; decide, by decide⟩

/-- The hypotheses of `C80_one_at_a_time_partial` are met by a query followed by a command. -/
example : let evs := [Ev.start 0, .arrive (.normal .lighting ⟨cs!"1"⟩ ⟨cs!"11"⟩), .resume,
      .arrive (.normal .lighting ⟨cs!"0"⟩ ⟨cs!"12"⟩), .arrive .ack, .resume, .start 1, .arrive .ack, .resume]
    Calm evs ∧ InOrder C80.answers evs ∧ AtStart C80.prog Alone evs ∧
      (run C80.prog evs).finished = [(0, .ok ()), (1, .ok ())] := by
  refine ⟨by unfold Calm; constructor <;> simp [starts], by unfold InOrder; decide, by unfold AtStart Alone; decide, by decide⟩
