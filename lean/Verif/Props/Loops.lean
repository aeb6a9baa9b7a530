import Verif.Proofs.Loops
import Verif.Props.Events

/-! # C90: cancelling `loop()`, calling it again, calling it twice -/

open Py Spec Events

/-- C90: whatever loops are called, resumed and cancelled, one after the other or at the same time, every message received is
handled exactly once, in the order of arrival, or is still in the queue. -/
theorem C90_once (py : Python) (call : Call) (session : Session) (h : List Act) :
    ∃ log, Account py call h ((Many.init session).run py call h).base log := by
  obtain ⟨log, k⟩ := many_kept py call session h
  refine ⟨log, k.once, k.order, k.moment, ?_, ?_⟩
  · rw [k.trace _ k.inv.items (Keeps.refl _)]
    congr 1
    funext e
    rw [begun_eq]
  · intro e he who wher h1 h2 h3 h4
    obtain ⟨c, hc⟩ := Option.isSome_iff_exists.1 h3
    obtain ⟨o, ho⟩ := k.found e he who wher c h1 h2 hc h4
    unfold itemFor
    rw [h1, h2]
    dsimp only
    rw [ho]
    rfl

/-- C90: cancelling a loop touches nothing but this loop. -/
theorem C90_cancel (py : Python) (call : Call) (s : Many) (id : Nat) :
    (s.step py call (.cancel id)).base = s.base ∧ ∀ j, j ≠ id → (s.step py call (.cancel id)).loops j = s.loops j := by
  unfold Many.step; dsimp only
  split
  · exact ⟨rfl, fun j hj => Function.update_of_ne hj _ _⟩
  · exact ⟨rfl, fun _ _ => rfl⟩

/-- C90: a cancelled loop does nothing any more. -/
theorem C90_cancelled (py : Python) (call : Call) (s : Many) (id : Nat) (hs : Suspended s id) (h : List Act) :
    ((s.step py call (.cancel id)).run py call h).loops id = .cancelled := by
  have h0 : (s.step py call (.cancel id)).loops id = .cancelled := by
    obtain ⟨c, hc⟩ := hs
    unfold Many.step; dsimp only; rw [hc]
    exact Function.update_self _ _ _
  generalize s.step py call (.cancel id) = s' at h0
  induction h generalizing s' with
  | nil => exact h0
  | cons a h ih =>
    refine ih _ ?_
    cases a with
    | loop j c =>
      unfold Many.step; dsimp only
      split
      · rename_i hj
        by_cases e : id = j
        · subst e; rw [h0] at hj; cases hj
        · exact (Function.update_of_ne e _ _).trans h0
      · exact h0
    | resume j =>
      unfold Many.step; dsimp only
      split
      · rename_i hj
        by_cases e : id = j
        · subst e; rw [h0] at hj; cases hj
        · exact (Function.update_of_ne e _ _).trans h0
      · exact h0
    | cancel j =>
      unfold Many.step; dsimp only
      split
      · rename_i hj
        by_cases e : id = j
        · subst e; exact Function.update_self _ _ _
        · exact (Function.update_of_ne e _ _).trans h0
      · exact h0
    | _ => exact h0

/-- C90: a loop called on a connected event client, after any history (after a loop was cancelled, for example), handles all
that is in the queue and waits, if the items of the messages can exist. -/
theorem C90_restart (py : Python) (call : Call) (h : List Act) (id client : Nat)
    (h1 : ((Many.init .event).run py call h).loops id = .none)
    (h2 : ((Many.init .event).run py call h).base.transport = .opened)
    (hh : ∀ m ∈ ((Many.init .event).run py call h).base.queue, Harmless m) :
    ((Many.init .event).run py call (h ++ [.loop id client])).base.queue = [] ∧
    Suspended ((Many.init .event).run py call (h ++ [.loop id client])) id := by
  obtain ⟨log, k⟩ := many_kept py call .event h
  have hse : ∀ h, ((Many.init .event).run py call h).base.session = .event := many_session py call .event
  have hs := hse h
  rw [many_append]
  generalize (Many.init .event).run py call h = s at *
  have := loop_harmless (py := py) (call := call) (s := { s.base with task := .none, client := client })
    (inv_congr k.inv rfl rfl) rfl hs h2 hh
  change (s.step py call (.loop id client)).base.queue = [] ∧ Suspended (s.step py call (.loop id client)) id
  unfold Many.step; dsimp only; rw [h1]
  refine ⟨this.1.2.2, client, ?_⟩
  unfold Many.turn
  dsimp only
  rw [Function.update_self, this.1.1]

/-- C90: so does a suspended loop when it is resumed. -/
theorem C90_resume (py : Python) (call : Call) (session : Session) (h : List Act) (id : Nat)
    (h1 : Suspended ((Many.init session).run py call h) id)
    (h2 : ((Many.init session).run py call h).base.transport = .opened)
    (hh : ∀ m ∈ ((Many.init session).run py call h).base.queue, Harmless m) :
    ((Many.init session).run py call (h ++ [.resume id])).base.queue = [] ∧
    Suspended ((Many.init session).run py call (h ++ [.resume id])) id := by
  obtain ⟨log, k⟩ := many_kept py call session h
  rw [many_append]
  generalize (Many.init session).run py call h = s at *
  obtain ⟨client, h1⟩ := h1
  have := resume_harmless (py := py) (call := call) (s := { s.base with task := .waiting, client := client })
    (inv_congr k.inv rfl rfl) ⟨rfl, h2, rfl⟩ hh
  change (s.step py call (.resume id)).base.queue = [] ∧ Suspended (s.step py call (.resume id)) id
  unfold Many.step; dsimp only; rw [h1]
  refine ⟨this.1.2.2, client, ?_⟩
  unfold Many.turn
  dsimp only
  rw [Function.update_self, this.1.1]

/-- C90: with one loop that is never cancelled, this is the client of C45 to C53. -/
theorem C90_one_loop (py : Python) (call : Call) (session : Session) (client : Nat) (h : List Step) :
    { ((Many.init session).run py call (h.map (single client))).base with client := client } =
      after py call session client h ∧
    ((Many.init session).run py call (h.map (single client))).loops 0 =
      if (after py call session client h).task = .none then .none
      else .called client (after py call session client h).task := by
  induction h using List.reverseRecOn with
  | nil => exact ⟨rfl, rfl⟩
  | append_singleton h st ih =>
    have hi := after_inv py call session client h
    obtain ⟨_, k⟩ := many_kept py call session (h.map (single client))
    rw [List.map_append, many_append, after_append]
    generalize (Many.init session).run py call (h.map (single client)) = m at ih k
    generalize after py call session client h = s at ih hi
    obtain ⟨e, hl⟩ := ih
    change { (m.step py call (single client st)).base with client := client } = s.step py call st ∧
      (m.step py call (single client st)).loops 0 =
        if (s.step py call st).task = .none then .none else .called client (s.step py call st).task
    have hcl : ∀ st, { s.step py call st with client := client } = s.step py call st := by
      intro st
      have := (step_session_client (py := py) (call := call) hi st).2
      rw [← e] at this ⊢
      generalize State.step py call _ st = s' at this
      obtain ⟨_, _, _, _, _, _, _, _⟩ := s'
      change _ = client at this
      subst this
      rfl
    have other : ∀ st, st ≠ .loop → st ≠ .resume → m.step py call (single client st) = { m with base := m.base.step py call st } →
        { (m.step py call (single client st)).base with client := client } = s.step py call st ∧
        (m.step py call (single client st)).loops 0 =
          if (s.step py call st).task = .none then .none else .called client (s.step py call st).task := by
      intro st h1 h2 hm
      rw [hm]
      refine ⟨?_, ?_⟩
      · rw [(step_client py call m.base client st h1 h2).1, e]
      · rw [(step_client py call s client st h1 h2).2]; exact hl
    cases st with
    | packet d => exact other _ (by simp) (by simp) rfl
    | lost => exact other _ (by simp) (by simp) rfl
    | close => exact other _ (by simp) (by simp) rfl
    | register c mt cb => exact other _ (by simp) (by simp) rfl
    | getItem who wher cl => exact other _ (by simp) (by simp) rfl
    | loop =>
      simp only [single]
      by_cases ht : s.task = .none
      · rw [if_pos ht] at hl
        have e' : ({ m.base with task := .none, client := client } : State) = s := by
          rw [← e]
          have : m.base.task = .none := by rw [← e] at ht; exact ht
          rw [← this]
        unfold Many.step; dsimp only; rw [hl]
        unfold Many.turn; dsimp only
        rw [e', Function.update_self, if_neg loop_task]
        exact ⟨hcl _, rfl⟩
      · rw [if_neg ht] at hl
        have e1 : s.step py call .loop = s := by unfold State.step; dsimp only; rw [if_neg ht]
        unfold Many.step; dsimp only; rw [hl, e1, if_neg ht]
        exact ⟨e, hl⟩
    | resume =>
      simp only [single]
      by_cases ht : s.task = .waiting
      · rw [ht] at hl
        have e' : ({ m.base with task := .waiting, client := client } : State) = s := by
          rw [← e]
          have : m.base.task = .waiting := by rw [← e] at ht; exact ht
          rw [← this]
        unfold Many.step; dsimp only; rw [hl]
        rw [if_neg (by simp)]
        dsimp only
        unfold Many.turn; dsimp only
        rw [e', Function.update_self]
        refine ⟨hcl _, ?_⟩
        rw [if_neg]
        unfold State.step; dsimp only
        split
        · exact start_task
        · rw [ht]; simp
      · have e1 : s.step py call .resume = s := by unfold State.step; dsimp only; rw [if_neg (by tauto)]
        have e2 : m.step py call (.resume 0) = m := by
          unfold Many.step; dsimp only; rw [hl]
          split
          · rename_i c he
            split at he
            · cases he
            · rw [Loop.called.injEq] at he; exact absurd he.2 ht
          · rfl
        rw [e1, e2]
        exact ⟨e, hl⟩

/-- Non-vacuity: a loop is cancelled with a message in the queue, another one is called and a third one at the same time; all
three events reach the callback. -/
example : ((Many.init .event).run .upTo312 allStart
      [.register .light .onStatusChange 7, .loop 0 0, .packet (bytes "*1*1*11##"), .resume 0, .packet (bytes "*1*0*12##"),
       .cancel 0, .loop 1 0, .loop 2 0, .packet (bytes "*1*1*13##"), .resume 2, .resume 1]).base.trace.map
        (fun x => (x.cb, x.args)) = [(7, [.bool true]), (7, [.bool false]), (7, [.bool true])] := by decide +kernel

/-- Non-vacuity of `C90_restart` and `C90_cancelled`: a loop suspended, cancelled with a message in the queue. -/
example : Suspended ((Many.init .event).run .upTo312 allStart [.loop 0 0, .packet (bytes "*1*0*12##")]) 0 ∧
    ((Many.init .event).run .upTo312 allStart [.loop 0 0, .packet (bytes "*1*0*12##"), .cancel 0]).base.queue =
      [.normal .lighting ⟨cs!"0"⟩ ⟨cs!"12"⟩] ∧
    ((Many.init .event).run .upTo312 allStart [.loop 0 0, .packet (bytes "*1*0*12##"), .cancel 0]).loops 1 = .none ∧
    ((Many.init .event).run .upTo312 allStart [.loop 0 0, .packet (bytes "*1*0*12##"), .cancel 0]).base.transport = .opened :=
  ⟨⟨0, by decide +kernel⟩, by decide +kernel, by decide +kernel, by decide +kernel⟩

/-- Non-vacuity of the account: two messages, handled at two moments. -/
example : arrived [.loop 0 0, .packet (bytes "*1*1*11##"), .resume 0, .packet (bytes "*1*0*12##"), .cancel 0, .lost,
    .packet (bytes "*1*1*13##")] = [.normal .lighting ⟨cs!"1"⟩ ⟨cs!"11"⟩, .normal .lighting ⟨cs!"0"⟩ ⟨cs!"12"⟩] := by
  decide +kernel
