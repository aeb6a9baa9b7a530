import Verif.Model.Clients
import Verif.Spec.Events
import Verif.Props.Events
import Mathlib.Data.List.Induction

/-! # C97: several clients in one process -/

open Py Spec Events

/-- What a history means to client `k`: its own steps, and the registrations of all. -/
def Spec.concerns (k : Nat) (h : List (Nat × Step)) : List Step :=
  h.filterMap fun e => match e.2 with
    | .register c m cb => some (.register c m cb)
    | st => if e.1 = k then some st else none

theorem drain_keeps_registry (py : Python) (call : Call) (q : List Msg) (s : State) :
    (drain py call s q).registry = s.registry := by
  induction q generalizing s with
  | nil => rfl
  | cons m q ih =>
    unfold drain
    rcases handle py call s.client s.registry s.items m with ⟨e | ts, items⟩
    · rfl
    · dsimp only
      split
      · rw [ih]
      · rfl
      · rfl

theorem step_keeps_registry (py : Python) (call : Call) (s : State) (st : Step) (h : ∀ c m cb, st ≠ .register c m cb) :
    (s.step py call st).registry = s.registry := by
  cases st with
  | packet d => unfold State.step; dsimp only; split_ifs <;> [split <;> rfl; rfl]
  | lost => unfold State.step; dsimp only; split_ifs <;> rfl
  | close => rfl
  | register c m cb => exact absurd rfl (h c m cb)
  | getItem => rfl
  | loop =>
    unfold State.step State.start; dsimp only
    split_ifs
    · rfl
    · split
      · rfl
      · rfl
      · exact drain_keeps_registry ..
    · rfl
  | resume =>
    unfold State.step; dsimp only
    split_ifs
    · exact drain_keeps_registry ..
    · rfl

/-- C97: a client does with its events what it would do if it were alone and the registrations made through the others had been
made through it. -/
theorem C97_independent (py : Python) (call : Call) (session : Nat → Session) (target : Nat → Nat) (h : List (Nat × Step))
    (k : Nat) :
    ((Clients.init session target).run py call h).view k = after py call (session k) (target k) (concerns k h) := by
  induction h using List.reverseRecOn with
  | nil => rfl
  | append_singleton h e ih =>
    have hrun : (Clients.init session target).run py call (h ++ [e]) =
        ((Clients.init session target).run py call h).step py call e := by simp [Clients.run]
    have hcon : concerns k (h ++ [e]) = concerns k h ++ concerns k [e] := by simp [concerns]
    have haft : ∀ a b, after py call (session k) (target k) (a ++ b) =
        (after py call (session k) (target k) a).run py call b := by
      intro a b; simp [after, State.run]
    rw [hrun, hcon, haft, ← ih]
    generalize (Clients.init session target).run py call h = s
    obtain ⟨j, st⟩ := e
    by_cases hr : ∃ c m cb, st = .register c m cb
    · obtain ⟨c, m, cb, rfl⟩ := hr
      change (s.step py call (j, .register c m cb)).view k = (s.view k).step py call (.register c m cb)
      have hj : ∀ x : State, x.registry = s.registry → x.step py call (.register c m cb) =
          { x with registry := match Events.register c m cb s.registry with | .ok r => r | .error _ => s.registry } := by
        intro x hx
        unfold State.step; dsimp only; rw [hx]
        rcases hc : Events.register c m cb s.registry with _ | r
        · dsimp only; rw [← hx]
        · rfl
      unfold Clients.step Clients.view
      dsimp only
      rw [hj _ rfl, hj _ rfl]
      dsimp only
      by_cases hk : k = j
      · subst hk; rw [Function.update_self]
      · rw [Function.update_of_ne hk]
    · push Not at hr
      have hreg := step_keeps_registry py call (s.view j) st hr
      by_cases hk : j = k
      · subst hk
        have : concerns j [(j, st)] = [st] := by
          cases st <;> simp [concerns] <;> exact absurd rfl (hr _ _ _)
        rw [this]
        unfold Clients.step
        simp only [Clients.view, Function.update_self]
        rfl
      · have : concerns k [(j, st)] = [] := by
          cases st <;> simp [concerns, hk] <;> exact absurd rfl (hr _ _ _)
        rw [this]
        unfold Clients.step
        simp only [Clients.view] at hreg ⊢
        rw [Function.update_of_ne (Ne.symm hk), hreg]
        rfl

/-- C97: so the callbacks a client starts, and everything else about it, are the same in two processes in which it lives
through the same and the same callbacks are registered between its steps. -/
theorem C97_others_do_not_matter (py : Python) (call : Call) (session session' : Nat → Session) (target target' : Nat → Nat)
    (h h' : List (Nat × Step)) (k : Nat) (hs : session k = session' k) (ht : target k = target' k)
    (hc : concerns k h = concerns k h') :
    ((Clients.init session target).run py call h).view k = ((Clients.init session' target').run py call h').view k := by
  rw [C97_independent, C97_independent, hs, ht, hc]

/-- Two clients, each with an event of its own; one callback, started by both. -/
example : let h : List (Nat × Step) := [(0, .register .light .onStatusChange 7), (0, .loop), (1, .loop),
      (0, .packet (bytes "*1*1*12##")), (1, .packet (bytes "*1*0*13##")), (1, .resume), (0, .resume)]
    let s := (Clients.init (fun _ => .event) id).run .upTo312 allStart h
    (s.view 0).trace.length = 1 ∧ (s.view 1).trace.length = 1 ∧ (s.view 0).trace ≠ (s.view 1).trace ∧
    concerns 1 h = [.register .light .onStatusChange 7, .loop, .packet (bytes "*1*0*13##"), .resume] := by
  decide +kernel
