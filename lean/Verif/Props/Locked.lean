import Verif.Props.Concurrent
import Verif.Proofs.Locked

/-!
# C138: a lock around each request

The full claim: tasks that share a client and take one lock around each request are served one at a time, in the order of their
calls; every request that does not time out gets its own answer, all of it, and reports what it says.
-/

open Py Locked Spec.Locked

/-- C138: whatever happens, timeouts and cancellations included, at most one request is under way, and it is the one whose task
holds the lock; and the frames are written in the order in which the requests were called. -/
theorem C138_turns (prog : Nat → Concurrent.Req) (evs : List Ev) :
    underWay ((run prog evs).base prog) = (run prog evs).holder.toList ∧
    (((run prog evs).base prog).sent.map (·.1)).Sublist (calls evs) ∧
    ∀ x ∈ ((run prog evs).base prog).sent, x.2 = (prog x.1).msg := by
  refine ⟨(run_inv prog evs).under, ?_, ?_⟩
  · rw [State.base, sent_starts, List.map_map]
    simpa [Function.comp_def] using (List.sublist_append_left _ _).trans (run_sublist prog evs)
  · rw [State.base, sent_starts]
    intro x hx
    obtain ⟨id, _, rfl⟩ := List.mem_map.1 hx
    rfl

/-- C138: a lock is never left lying: if nobody holds it and somebody waits for it, the first in line has been handed it. -/
theorem C138_handed (prog : Nat → Concurrent.Req) (evs : List Ev) (hn : (run prog evs).holder = none)
    (hl : (run prog evs).line ≠ []) : (run prog evs).granted = true := by
  rw [(run_inv prog evs).free hn]
  cases h : (run prog evs).line with
  | nil => exact absurd h hl
  | cons a b => rfl

/-- The full claim about answers. -/
def C138_full : Prop :=
  ∀ (prog : Nat → Concurrent.Req) (answers : Nat → List Msg) (evs : List Ev), (∀ id, Spec.Concurrent.Proper (prog id) (answers id)) →
    (calls evs).Nodup → Spec.Concurrent.InOrder answers (run prog evs).log → OwnInTime answers ((run prog evs).base prog)

/-- C138, what holds: if no timeout expires and nothing is cancelled, every request that ended - command or query, whatever the
others are and whenever they are called - got its own answer and reports it. -/
theorem C138_own_partial (prog : Nat → Concurrent.Req) (answers : Nat → List Msg) (evs : List Ev)
    (hp : ∀ id, Spec.Concurrent.Proper (prog id) (answers id)) (hn : (calls evs).Nodup) (hq : Patient evs)
    (ho : Spec.Concurrent.InOrder answers (run prog evs).log) : OwnInTime answers ((run prog evs).base prog) := by
  obtain ⟨h1, h2⟩ := run_order prog evs hq
  have hc : Spec.Concurrent.Calm (run prog evs).log := ⟨(List.nodup_append.1 (h1 ▸ hn)).1, h2⟩
  intro id r hr _
  exact C80_one_at_a_time_partial prog answers _ hp hc ho (run_inv prog evs).alone id r hr

/-- C138, what holds: and when nothing is left to happen, every request that was called has ended, in the order of the calls. -/
theorem C138_served_partial (prog : Nat → Concurrent.Req) (answers : Nat → List Msg) (evs : List Ev)
    (hp : ∀ id, Spec.Concurrent.Proper (prog id) (answers id)) (hn : (calls evs).Nodup) (hq : Patient evs)
    (ho : Spec.Concurrent.InOrder answers (run prog evs).log) (hr : AtRest prog answers (run prog evs)) :
    ((run prog evs).base prog).finished.map (·.1) = calls evs ∧ (run prog evs).holder = none ∧ (run prog evs).line = [] := by
  obtain ⟨h1, h2⟩ := run_order prog evs hq
  have hc : Spec.Concurrent.Calm (run prog evs).log := ⟨(List.nodup_append.1 (h1 ▸ hn)).1, h2⟩
  have hi := run_inv prog evs
  obtain ⟨ha, done, hf, h⟩ := Concurrent.aloneInv prog answers hp _ hc ho hi.alone
  obtain ⟨r1, r2, r3⟩ := hr
  have hs : ((run prog evs).base prog).sent.map (·.1) = Spec.Concurrent.starts (run prog evs).log := by
    rw [State.base, sent_starts]; simp [Function.comp_def]
  rw [hs] at r3
  have idle : (run prog evs).holder = none ∧ Spec.Concurrent.starts (run prog evs).log = done := by
    rcases h with ⟨g1, _, g3, g4⟩ | ⟨c, p, ⟨g1, g2, g3⟩, g | g⟩
    · refine ⟨?_, g1⟩
      have := hi.under
      rw [State.base, underWay, g3, g4] at this
      cases hh : (run prog evs).holder with
      | none => rfl
      | some c => rw [hh] at this; cases this
    · exfalso
      rw [g2, List.map_append, Concurrent.complete_snd, g.2.2, r3, g1] at ha
      simp only [List.map_map, Function.comp_def, List.map_id', List.append_nil, List.flatMap_append, List.flatMap_cons,
        List.flatMap_nil, List.append_cancel_left_eq] at ha
      obtain ⟨rs, l, e1, _, e3⟩ := hp c
      have := g3 l (by rw [ha, e1]; simp)
      rw [e3] at this
      cases this
    · rw [State.base] at r2
      rw [g.2.1] at r2
      cases r2
  have hl : (run prog evs).line = [] := by
    have := hi.free idle.1
    rw [r1] at this
    cases hh : (run prog evs).line with
    | nil => rfl
    | cons a b => rw [hh] at this; cases this
  refine ⟨?_, idle.1, hl⟩
  rw [State.base, hf, ← h1, hl, idle.2]
  simp [Function.comp_def]

namespace C138

/-- Two commands; the gateway refuses the first and acknowledges the second. -/
def prog : Nat → Concurrent.Req := fun _ => .command .ack

def answers : Nat → List Msg := fun id => if id = 0 then [.nack] else [.ack]

/-- The first command times out, the second begins, and then the answer to the first comes. -/
def late : List Ev := [.call 0, .call 1, .expire 0, .enter, .arrive .nack, .resume]

end C138

/-- C138 is false: a lock does not help against an answer that comes after the timeout of its request.  The next request takes
it: the second command, which the gateway acknowledges, raises `ResponseError`. -/
theorem C138_full_refuted : ¬ C138_full := by
  intro h
  have := h C138.prog C138.answers C138.late
    (fun id => ⟨[], (C138.answers id).head (by unfold C138.answers; split <;> simp),
      by unfold C138.answers; split <;> rfl, by simp, rfl⟩)
    (by decide) (by unfold Spec.Concurrent.InOrder; decide) 1 (.error .responseError) (by decide) (by simp)
  revert this
  decide

/-- The hypotheses are met: a status request with two replies and a command, called while the request is under way; all happens
and nothing is left. -/
example :
    let lamp : Item := ⟨.lighting, ⟨cs!"0"⟩⟩
    let report (a : Str) : Msg := .normal .lighting ⟨cs!"1"⟩ ⟨a⟩
    let prog : Nat → Concurrent.Req := fun id => if id = 0 then .status lamp else .command (report cs!"12")
    let answers : Nat → List Msg := fun id => if id = 0 then [report cs!"11", report cs!"12", .ack] else [.nack]
    let evs : List Ev := [.call 0, .arrive (report cs!"11"), .call 1, .resume, .arrive (report cs!"12"), .arrive .ack, .resume,
      .enter, .arrive .nack, .resume]
    (calls evs).Nodup ∧ Patient evs ∧ (∀ pre ∈ (run prog evs).log.inits,
      Spec.Concurrent.arrivals pre <+: (Spec.Concurrent.starts pre).flatMap answers) ∧
    (run prog evs).granted = false ∧ ((run prog evs).base prog).woken = [] ∧
    ((run prog evs).base prog).finished.map (·.1) = [0, 1] ∧
    Spec.Concurrent.takenBy ((run prog evs).base prog) 0 = answers 0 := by
  refine ⟨by decide, ?_, by decide, by decide, by decide, by decide, by decide⟩
  intro e he id
  simp only [List.mem_cons, List.not_mem_nil, or_false] at he
  rcases he with rfl | rfl | rfl | rfl | rfl | rfl | rfl | rfl | rfl | rfl <;> simp
