import Verif.Spec.Locked
import Verif.Proofs.Concurrent

/-!
# Lemmas about requests under a lock
-/

open Py

namespace Locked

open Spec.Locked

theorem run_append (prog : Nat → Concurrent.Req) (evs : List Ev) (e : Ev) :
    run prog (evs ++ [e]) = (run prog evs).step prog e := by
  simp [run]

theorem base_append (prog : Nat → Concurrent.Req) (l : List Concurrent.Ev) (e : Concurrent.Ev) (h : Option Nat) (q : List Nat)
    (g : Bool) : State.base prog ⟨l ++ [e], h, q, g⟩ = (Concurrent.run prog l).step prog e := by
  simp [State.base, Concurrent.run]

theorem read_under (s : Concurrent.State) (want : Msg → Bool) (id : Nat) (h : underWay s = []) :
    underWay (s.read want id) = [] ∨ underWay (s.read want id) = [id] := by
  obtain ⟨h1, h2⟩ := List.append_eq_nil_iff.1 h
  unfold Concurrent.State.read underWay
  split
  · right; simp [h1, h2]
  · left; simp [h1, h2]

theorem wakeup_under (s : Concurrent.State) (c : Nat) (h : underWay s = [c]) : underWay s.wakeup = [c] := by
  unfold Concurrent.State.wakeup
  unfold underWay at h ⊢
  split
  · exact h
  · rename_i id rest hw
    rw [hw] at h
    simp only [List.cons_append, List.cons.injEq, List.append_eq_nil_iff] at h
    obtain ⟨rfl, rfl, h⟩ := h
    simp [h]

theorem wakeup_none (s : Concurrent.State) (h : underWay s = []) : underWay s.wakeup = [] := by
  obtain ⟨h1, h2⟩ := List.append_eq_nil_iff.1 h
  simp [Concurrent.State.wakeup, underWay, h1, h2]

theorem under_cases {s : Concurrent.State} {c : Nat} (h : underWay s = [c]) :
    (s.waiting = [c] ∧ s.woken = []) ∨ (s.waiting = [] ∧ s.woken = [c]) := by
  unfold underWay at h
  rcases List.append_eq_singleton_iff.1 h with h | h
  · exact .inr h
  · exact .inl h

/-- Without a request, nothing but a beginning makes one. -/
theorem step_none (prog : Nat → Concurrent.Req) (s : Concurrent.State) (e : Concurrent.Ev) (h : underWay s = [])
    (he : Spec.Concurrent.begins e = false) : underWay (s.step prog e) = [] := by
  obtain ⟨h1, h2⟩ := List.append_eq_nil_iff.1 h
  cases e with
  | start id => cases he
  | arrive m => exact wakeup_none _ h
  | resume => simp only [Concurrent.State.step, h2]; exact h
  | expire id => simp only [Concurrent.State.step, h1, h2, List.not_mem_nil, if_false]; exact h
  | cancel id => simp only [Concurrent.State.step, h1, h2, List.not_mem_nil, if_false]; exact h

/-- A request that is under way ends or stays. -/
theorem step_one (prog : Nat → Concurrent.Req) (s : Concurrent.State) (e : Concurrent.Ev) (c : Nat) (h : underWay s = [c])
    (he : Spec.Concurrent.begins e = false) : underWay (s.step prog e) = [] ∨ underWay (s.step prog e) = [c] := by
  cases e with
  | start id => cases he
  | arrive m => exact .inr (wakeup_under _ c h)
  | resume =>
    rcases under_cases h with ⟨h1, h2⟩ | ⟨h1, h2⟩
    · simp only [Concurrent.State.step, h2]; exact .inr h
    · simp only [Concurrent.State.step, h2]
      exact read_under _ _ _ (by simp [underWay, h1])
  | expire id =>
    rcases under_cases h with ⟨h1, h2⟩ | ⟨h1, h2⟩ <;> by_cases hid : id = c
    · subst hid; left; simp [Concurrent.State.step, h1, h2, underWay]
    · right; simp [Concurrent.State.step, h1, h2, hid, underWay]
    · subst hid; left
      simp only [Concurrent.State.step, h1, h2, List.not_mem_nil, if_false, List.mem_singleton, if_true]
      split
      · simp [underWay]
      · exact wakeup_none _ (by simp [underWay])
    · right; simp [Concurrent.State.step, h1, h2, hid, underWay]
  | cancel id =>
    rcases under_cases h with ⟨h1, h2⟩ | ⟨h1, h2⟩ <;> by_cases hid : id = c
    · subst hid; left; simp [Concurrent.State.step, h1, h2, underWay]
    · right; simp [Concurrent.State.step, h1, h2, hid, underWay]
    · subst hid; left
      simp only [Concurrent.State.step, h1, h2, List.not_mem_nil, if_false, List.mem_singleton, if_true]
      split
      · simp [underWay]
      · exact wakeup_none _ (by simp [underWay])
    · right; simp [Concurrent.State.step, h1, h2, hid, underWay]

/-- The invariant: the request under way is the one of the holder of the lock, requests began alone, and a free lock has been
handed to whoever is first in line. -/
structure Inv (prog : Nat → Concurrent.Req) (s : State) : Prop where
  under : underWay (s.base prog) = s.holder.toList
  alone : Spec.Concurrent.AtStart prog Spec.Concurrent.Alone s.log
  free : s.holder = none → s.granted = !s.line.isEmpty
  held : s.holder ≠ none → s.granted = false

theorem atStart_append {prog : Nat → Concurrent.Req} {P : Concurrent.State → Prop} {l : List Concurrent.Ev} {e : Concurrent.Ev}
    (h : Spec.Concurrent.AtStart prog P l) (he : Spec.Concurrent.begins e = true → P (Concurrent.run prog l)) :
    Spec.Concurrent.AtStart prog P (l ++ [e]) := by
  intro k hk hb
  rcases Nat.lt_or_ge k l.length with hl | hl
  · rw [List.take_append_of_le_length hl.le]
    exact h k hl (by rwa [List.getElem_append_left hl] at hb)
  · have : k = l.length := by simp at hk; omega
    subst this
    rw [List.take_left]
    exact he (by simpa using hb)

theorem release_inv {prog : Nat → Concurrent.Req} {s : State}
    (hu : underWay (s.base prog) = [] ∨ underWay (s.base prog) = s.holder.toList)
    (ha : Spec.Concurrent.AtStart prog Spec.Concurrent.Alone s.log) (hf : s.holder = none → s.granted = !s.line.isEmpty)
    (hh : s.holder ≠ none → s.granted = false) : Inv prog (s.release prog) := by
  obtain ⟨log, holder, line, granted⟩ := s
  cases holder with
  | none => exact ⟨(by rcases hu with h | h <;> exact h : underWay (State.base prog ⟨log, none, line, granted⟩) = []), ha, hf, hh⟩
  | some c =>
    unfold State.release
    simp only [Option.toList_some] at hu
    dsimp only
    split
    · rename_i hc
      refine ⟨hu.resolve_left fun h => ?_, ha, hf, hh⟩
      obtain ⟨h1, h2⟩ := List.append_eq_nil_iff.1 h
      rw [h1, h2] at hc
      simp at hc
    · rename_i hc
      refine ⟨hu.resolve_right fun h => hc ?_, ha, fun _ => rfl, fun h => absurd rfl h⟩
      rcases under_cases h with ⟨h1, _⟩ | ⟨_, h1⟩
      · left; rw [h1]; simp
      · right; rw [h1]; simp

theorem start_inv {prog : Nat → Concurrent.Req} {s : State} (hi : Inv prog s) (hn : s.holder = none) (id : Nat) (line : List Nat) :
    Inv prog (State.happens prog { s with holder := some id, line := line, granted := false } (.start id)) := by
  have hu : underWay (Concurrent.run prog s.log) = [] := by
    have := hi.under
    rw [hn] at this
    exact this
  refine release_inv ?_ (atStart_append hi.alone fun _ => ?_) (fun h => by cases h) fun _ => rfl
  · dsimp only
    rw [base_append]
    exact read_under _ _ _ (by simpa [underWay] using hu)
  · obtain ⟨h1, h2⟩ := List.append_eq_nil_iff.1 hu
    exact ⟨h2, h1⟩

theorem happens_inv {prog : Nat → Concurrent.Req} {s : State} (hi : Inv prog s) (e : Concurrent.Ev)
    (he : Spec.Concurrent.begins e = false) : Inv prog (s.happens prog e) := by
  refine release_inv ?_ (atStart_append hi.alone fun h => by rw [he] at h; cases h) hi.free hi.held
  dsimp only
  rw [base_append]
  have := hi.under
  cases hh : s.holder with
  | none => rw [hh] at this; exact .inl (step_none prog _ e this he)
  | some c => rw [hh] at this; exact step_one prog _ e c this he

theorem step_inv {prog : Nat → Concurrent.Req} {s : State} (hi : Inv prog s) (e : Ev) : Inv prog (s.step prog e) := by
  cases e with
  | call id =>
    dsimp only [State.step]
    split
    · rename_i h
      have hg : s.granted = false := by rw [hi.free h.1, h.2]; rfl
      have := start_inv hi h.1 id s.line
      rw [← hg] at this
      exact this
    · rename_i h
      refine ⟨hi.under, hi.alone, fun hn => ?_, hi.held⟩
      dsimp only at hn ⊢
      have hl : s.line ≠ [] := fun hl => h ⟨hn, hl⟩
      rw [hi.free hn]
      cases hs : s.line with
      | nil => exact absurd hs hl
      | cons a b => simp
  | arrive m => exact happens_inv hi _ rfl
  | resume => exact happens_inv hi _ rfl
  | expire id => exact happens_inv hi _ rfl
  | enter =>
    dsimp only [State.step]
    split
    · rename_i id rest hg hl
      refine start_inv hi ?_ id rest
      by_contra hn
      rw [hi.held hn] at hg
      cases hg
    · exact hi
  | cancel id =>
    dsimp only [State.step]
    split
    · split
      · rename_i hm hg
        refine ⟨hi.under, hi.alone, fun _ => rfl, fun hn => ?_⟩
        have := hi.held hn
        rw [this] at hg
        exact absurd hg.1 (by simp)
      · rename_i hm hg
        refine ⟨hi.under, hi.alone, fun hn => ?_, hi.held⟩
        dsimp only at hn ⊢
        rw [hi.free hn]
        rw [hi.free hn] at hg
        cases hs : s.line with
        | nil => rfl
        | cons a b =>
          have : a ≠ id := fun e => hg (by rw [hs, e]; simp)
          rw [List.erase_cons_tail (by simpa using this)]
          rfl
    · exact happens_inv hi _ rfl

theorem run_inv (prog : Nat → Concurrent.Req) (evs : List Ev) : Inv prog (run prog evs) := by
  induction evs using List.reverseRecOn with
  | nil => exact ⟨rfl, fun k hk => by simp [run, State.init] at hk, fun _ => rfl, fun h => absurd rfl h⟩
  | append_singleton evs e ih => rw [run_append]; exact step_inv ih e

@[simp] theorem release_log (prog : Nat → Concurrent.Req) (s : State) : (s.release prog).log = s.log := by
  unfold State.release; split
  · rfl
  · split <;> rfl

@[simp] theorem release_line (prog : Nat → Concurrent.Req) (s : State) : (s.release prog).line = s.line := by
  unfold State.release; split
  · rfl
  · split <;> rfl

/-- What was begun and what is in line is what was called, in order. -/
theorem run_order (prog : Nat → Concurrent.Req) (evs : List Ev) (hp : Patient evs) :
    Spec.Concurrent.starts (run prog evs).log ++ (run prog evs).line = calls evs ∧
      ∀ e ∈ (run prog evs).log, ∀ id, e ≠ .expire id ∧ e ≠ .cancel id := by
  induction evs using List.reverseRecOn with
  | nil => exact ⟨rfl, by simp [run, State.init]⟩
  | append_singleton evs e ih =>
    obtain ⟨i1, i2⟩ := ih fun e he => hp e (List.mem_append_left _ he)
    have he := hp e (by simp)
    rw [run_append]
    generalize run prog evs = s at i1 i2
    have hc : calls (evs ++ [e]) = calls evs ++ calls [e] := by simp [calls]
    rw [hc, ← i1]
    have other : ∀ x : Concurrent.Ev, (∀ id, x ≠ .expire id ∧ x ≠ .cancel id) →
        ∀ y ∈ s.log ++ [x], ∀ id, y ≠ .expire id ∧ y ≠ .cancel id := by
      intro x hx y hy
      rcases List.mem_append.1 hy with hy | hy
      · exact i2 y hy
      · rw [List.mem_singleton.1 hy]; exact hx
    cases e with
    | call id =>
      dsimp only [State.step]
      split
      · rename_i h
        refine ⟨?_, ?_⟩
        · simp [State.happens, h.2, calls]
        · simp only [State.happens, release_log]
          exact other _ fun id => ⟨by simp, by simp⟩
      · exact ⟨by simp [calls], i2⟩
    | arrive m =>
      refine ⟨by simp [State.step, State.happens, calls], ?_⟩
      simp only [State.step, State.happens, release_log]
      exact other _ fun id => ⟨by simp, by simp⟩
    | resume =>
      refine ⟨by simp [State.step, State.happens, calls], ?_⟩
      simp only [State.step, State.happens, release_log]
      exact other _ fun id => ⟨by simp, by simp⟩
    | enter =>
      dsimp only [State.step]
      split
      · rename_i id rest hg hl
        refine ⟨by simp [State.happens, calls, hl], ?_⟩
        simp only [State.happens, release_log]
        exact other _ fun id => ⟨by simp, by simp⟩
      · exact ⟨by simp [calls], i2⟩
    | expire id => exact absurd rfl (he id).1
    | cancel id => exact absurd rfl (he id).2

theorem sent_read (s : Concurrent.State) (want : Msg → Bool) (id : Nat) : (s.read want id).sent = s.sent := by
  unfold Concurrent.State.read
  split <;> rfl

theorem sent_wakeup (s : Concurrent.State) : s.wakeup.sent = s.sent := by
  unfold Concurrent.State.wakeup
  split <;> rfl

/-- What is written is what was begun. -/
theorem sent_starts (prog : Nat → Concurrent.Req) (l : List Concurrent.Ev) :
    (Concurrent.run prog l).sent = (Spec.Concurrent.starts l).map fun id => (id, (prog id).msg) := by
  induction l using List.reverseRecOn with
  | nil => rfl
  | append_singleton l e ih =>
    rw [Concurrent.run_append]
    cases e with
    | start id => simp [Concurrent.State.step, sent_read, ih]
    | arrive m => simp [Concurrent.State.step, sent_wakeup, ih]
    | resume =>
      simp only [Concurrent.State.step]
      split <;> simp [sent_read, ih]
    | expire id =>
      have : Spec.Concurrent.starts (l ++ [.expire id]) = Spec.Concurrent.starts l := by simp [Spec.Concurrent.starts]
      rw [this, ← ih]
      simp only [Concurrent.State.step]
      split
      · rfl
      · split
        · split
          · rfl
          · exact sent_wakeup _
        · rfl
    | cancel id =>
      have : Spec.Concurrent.starts (l ++ [.cancel id]) = Spec.Concurrent.starts l := by simp [Spec.Concurrent.starts]
      rw [this, ← ih]
      simp only [Concurrent.State.step]
      split
      · rfl
      · split
        · split
          · rfl
          · exact sent_wakeup _
        · rfl

/-- What was begun and what is in line was called, in that order. -/
theorem run_sublist (prog : Nat → Concurrent.Req) (evs : List Ev) :
    (Spec.Concurrent.starts (run prog evs).log ++ (run prog evs).line).Sublist (calls evs) := by
  induction evs using List.reverseRecOn with
  | nil => exact List.Sublist.refl _
  | append_singleton evs e ih =>
    rw [run_append]
    generalize run prog evs = s at ih
    have hc : calls (evs ++ [e]) = calls evs ++ calls [e] := by simp [calls]
    rw [hc]
    have same : ∀ {l : List Nat}, l.Sublist (calls evs) → l.Sublist (calls evs ++ calls [e]) := fun h =>
      h.trans (List.sublist_append_left _ _)
    have quiet : ∀ x : Concurrent.Ev, Spec.Concurrent.begins x = false →
        Spec.Concurrent.starts (s.log ++ [x]) = Spec.Concurrent.starts s.log := by
      intro x hx
      cases x <;> first | (cases hx; done) | simp [Spec.Concurrent.starts]
    cases e with
    | call id =>
      dsimp only [State.step]
      split
      · rename_i h
        simp only [State.happens, release_log, release_line, Spec.Concurrent.starts_start, h.2, List.append_nil] at ih ⊢
        exact List.Sublist.append ih (List.Sublist.refl _)
      · dsimp only
        rw [← List.append_assoc]
        exact List.Sublist.append ih (List.Sublist.refl _)
    | arrive m =>
      simp only [State.step, State.happens, release_log, release_line]
      rw [quiet _ rfl]
      exact same ih
    | resume =>
      simp only [State.step, State.happens, release_log, release_line]
      rw [quiet _ rfl]
      exact same ih
    | expire id =>
      simp only [State.step, State.happens, release_log, release_line]
      rw [quiet _ rfl]
      exact same ih
    | enter =>
      dsimp only [State.step]
      split
      · rename_i id rest hg hl
        simp only [State.happens, release_log, release_line, Spec.Concurrent.starts_start]
        rw [hl] at ih
        exact same (by simpa using ih)
      · exact same ih
    | cancel id =>
      dsimp only [State.step]
      have he : (Spec.Concurrent.starts s.log ++ s.line.erase id).Sublist (calls evs) :=
        (List.Sublist.append (List.Sublist.refl _) List.erase_sublist).trans ih
      split
      · split <;> exact same he
      · simp only [State.happens, release_log, release_line]
        rw [quiet _ rfl]
        exact same ih

end Locked
