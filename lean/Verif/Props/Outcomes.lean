import Verif.Proofs.Outcomes

/-!
# Exceptions in callbacks (C110)
-/

open Py

open Outcomes

/-- `*1*1*11##`. -/
private def lightOn : Msg := .normal .lighting ⟨cs!"1"⟩ ⟨cs!"11"⟩

private def lamp : Events.Obj := ⟨0, .light, ⟨.lighting, ⟨cs!"11"⟩⟩, 0⟩

private def two : Events.Registry := { Events.Registry.init with light := fun _ => [7, 8] }

private def allStart : Events.Call := fun _ => .ok ()

/-- The callback 8 is called with too few arguments, or is no coroutine function. -/
private def eightFails : Events.Call := fun st => if st.cb = 8 then .error .typeError else .ok ()

/-- C110 (partial): when all calls of callbacks make tasks, what is logged about the callbacks of one event is: nothing until
the last of them has ended; then, when the event loop has run the task that waits for them, exactly the exceptions they
raised, in the order of registration.  Missing: see the refutations. -/
theorem C110_logged_partial (py : Events.Python) (call : Events.Call) (hc : Spec.AllStart call) (pre : List Step)
    (r : Events.Registry) (o : Events.Obj) (m : Msg) :
    (after py call (pre ++ [.dispatch r o m])).made = (after py call pre).made ++ Events.dispatch py call r o m ∧
    ∃ k, ∀ post,
      let h := pre ++ .dispatch r o m :: post
      let a := count py call pre
      let b := count py call (pre ++ [.dispatch r o m])
      (¬ AllEnded (after py call h) a b → logged (after py call h) a b = []) ∧
      (logged (after py call h) a b = [] ∨ logged (after py call h) a b = raisedIn (after py call h) a b) ∧
      (AllEnded (after py call h) a b →
        logged (after py call (h ++ [.check k])) a b = raisedIn (after py call h) a b) := by
  refine ⟨?_, (after py call pre).checks.length, fun post => ?_⟩
  · rw [after_append, ← dispatch_tasks]
    simp only [State.run, List.foldl_cons, List.foldl_nil, State.step, List.append_assoc]
  · have w := Owns.dispatch (good_after py call pre) py call r o m
    have hp : (after py call pre).made.length = count py call pre := rfl
    rw [dispatch_unchecked hc, List.length_nil, Nat.add_zero, hp] at w
    have hb : count py call (pre ++ [.dispatch r o m]) =
        ((after py call pre).step py call (.dispatch r o m)).made.length := by
      unfold count; rw [after_append]; rfl
    have hr : after py call (pre ++ .dispatch r o m :: post) =
        ((after py call pre).step py call (.dispatch r o m)).run py call post := by
      rw [after_append]; rfl
    have w' := w.run py call post
    have w'' := w'.step py call (.check (after py call pre).checks.length)
    rw [← hb, ← hr] at w' w''
    refine ⟨?_, ?_, ?_⟩
    · intro hn
      obtain ⟨d, _, hd, hl⟩ := w'.mine
      cases d with
      | false => exact hl
      | true => exact absurd (hd rfl) hn
    · obtain ⟨d, _, _, hl⟩ := w'.mine
      cases d with
      | false => exact .inl hl
      | true => exact .inr hl
    · intro hall
      rw [after_append]
      obtain ⟨d, hk, hd, hl⟩ := w'.mine
      obtain ⟨d', hk', _, hl'⟩ := w''.mine
      have hst : ∀ x, (after py call (pre ++ .dispatch r o m :: post)).run py call [x] =
        (after py call (pre ++ .dispatch r o m :: post)).step py call x := fun _ => rfl
      rw [hst]
      have he : ((after py call (pre ++ .dispatch r o m :: post)).step py call
          (.check (after py call pre).checks.length)).ended = (after py call (pre ++ .dispatch r o m :: post)).ended :=
        run_checks_ended py call (after py call (pre ++ .dispatch r o m :: post)) [(after py call pre).checks.length]
      have hd' : d' = true := by
        simp only [State.step, hk] at hk'
        split at hk'
        · rw [List.getElem?_set_self (List.getElem?_eq_some_iff.1 hk).1] at hk'
          cases hk'; rfl
        · rename_i hn
          rw [hk] at hk'; cases hk'
          cases d with
          | true => rfl
          | false =>
            refine absurd ⟨rfl, fun t ht => ?_⟩ hn
            simp only [List.mem_range'_1] at ht
            have := w'.le
            exact hall t ht.1 (by have := ht.2; omega)
      rw [hd', if_pos rfl] at hl'
      rw [hl']
      unfold raisedIn
      rw [he]

/-- The hypotheses are met, and the log is as said: of two callbacks of an event the second raises, then the first. -/
example : Spec.AllStart allStart ∧
    (after .upTo312 allStart [.dispatch two lamp lightOn, .ends 1 (.raised 5), .check 0]).log = [] ∧
    (after .upTo312 allStart [.dispatch two lamp lightOn, .ends 1 (.raised 5), .check 0, .ends 0 (.raised 6),
      .check 0]).log = [(0, 6), (1, 5)] :=
  ⟨fun _ => rfl, by decide +kernel, by decide +kernel⟩

/-- C110: the log tells the truth, and nothing is logged twice. -/
theorem C110_once (py : Events.Python) (call : Events.Call) (h : List Step) :
    (∀ t e, (t, e) ∈ (after py call h).log → (after py call h).ended t = some (.raised e)) ∧
    ((after py call h).log.map Prod.fst).Nodup :=
  ⟨fun t e hm => (good_after py call h).sound (t, e) hm, (once_after py call h).nodup⟩

/-- A log with two records. -/
example : ((after .upTo312 allStart [.dispatch two lamp lightOn, .ends 1 (.raised 5), .ends 0 (.raised 6), .check 0,
    .check 0]).log.map Prod.fst).Nodup := (C110_once ..).2

/-- C110: an exception in a callback, or its cancellation, keeps no other callback, of this or of a later event, from being
started: those started depend only on the messages. -/
theorem C110_others (py : Events.Python) (call : Events.Call) (h h' : List Step)
    (hh : h.filter Step.isDispatch = h'.filter Step.isDispatch) : (after py call h).made = (after py call h').made := by
  unfold after
  rw [run_made py call h State.init State.init rfl, run_made py call h' State.init State.init rfl, hh]

/-- Two histories with the same messages; in one of them a callback raises between them. -/
example : (after .upTo312 allStart [.dispatch two lamp lightOn, .ends 0 (.raised 5), .dispatch two lamp lightOn]).made =
    (after .upTo312 allStart [.dispatch two lamp lightOn, .dispatch two lamp lightOn]).made ∧
    (after .upTo312 allStart [.dispatch two lamp lightOn, .dispatch two lamp lightOn]).made.length = 4 :=
  ⟨C110_others _ _ _ _ rfl, by decide +kernel⟩

/-- C110 (partial): when all calls of callbacks make tasks and all callbacks have ended, every exception gets into the log. -/
theorem C110_at_end_partial (py : Events.Python) (call : Events.Call) (hc : Spec.AllStart call) :
    EveryErrorLoggedAtEnd py call := by
  intro h t e hall he
  have ht : t < count py call h := (good_after py call h).endedBelow t (by rw [he]; simp)
  obtain ⟨pre, r, o, m, post, rfl, h1, h2⟩ := task_event py call h t ht
  obtain ⟨_, k, hk⟩ := C110_logged_partial py call hc pre r o m
  obtain ⟨_, _, h5⟩ := hk post
  have hle : count py call (pre ++ [.dispatch r o m]) ≤ count py call (pre ++ .dispatch r o m :: post) := by
    have w := ((Owns.dispatch (good_after py call pre) py call r o m).run py call post).made
    have e1 : count py call (pre ++ [.dispatch r o m]) =
        ((after py call pre).step py call (.dispatch r o m)).made.length := by
      unfold count; rw [after_append]; rfl
    have e2 : count py call (pre ++ .dispatch r o m :: post) =
        (((after py call pre).step py call (.dispatch r o m)).run py call post).made.length := by
      unfold count; rw [after_append]; rfl
    rw [e1, e2]; exact w
  have h6 := h5 (fun t' h7 h8 => hall t' (Nat.zero_le _) (Nat.lt_of_lt_of_le h8 hle))
  refine ⟨[k], ?_⟩
  have : (t, e) ∈ logged (after py call (pre ++ .dispatch r o m :: post ++ [.check k])) (count py call pre)
      (count py call (pre ++ [.dispatch r o m])) := by
    rw [h6, raisedIn, raisedAmong_eq, List.mem_filterMap]
    refine ⟨t, ?_, by unfold Outcomes.failure; rw [he]⟩
    simp only [List.mem_range'_1]; omega
  exact (List.mem_filter.1 this).1

/-- The hypotheses are met. -/
example : AllEnded (after .upTo312 allStart [.dispatch two lamp lightOn, .ends 1 (.raised 5), .ends 0 .returned]) 0 2 ∧
    (after .upTo312 allStart [.dispatch two lamp lightOn, .ends 1 (.raised 5), .ends 0 .returned]).ended 1 =
      some (.raised 5) := by
  refine ⟨?_, by decide +kernel⟩
  intro t _ ht
  rcases t with _ | _ | t
  · decide +kernel
  · decide +kernel
  · omega

/-- C110 is false as stated: a callback of the same event that does not end keeps the exception of another out of the log, and
callbacks may run for ever. -/
theorem C110_hanging_refuted : ¬ EveryErrorLogged .upTo312 allStart := by
  intro h
  obtain ⟨ks, hm⟩ := h [.dispatch two lamp lightOn, .ends 1 (.raised 5)] 1 5 (by decide +kernel)
  obtain ⟨_, k, hk⟩ := C110_logged_partial .upTo312 allStart (fun _ => rfl) [] two lamp lightOn
  obtain ⟨h1, _⟩ := hk (.ends 1 (.raised 5) :: ks.map .check)
  have hb : count .upTo312 allStart ([] ++ [.dispatch two lamp lightOn]) = 2 := by decide +kernel
  have h0 : (after .upTo312 allStart ([.dispatch two lamp lightOn, .ends 1 (.raised 5)] ++ ks.map .check)).ended 0 =
      none := by
    rw [after_append, run_checks_ended]; decide +kernel
  have h2 := h1 (fun hall => hall 0 (Nat.zero_le _) (by rw [hb]; omega) h0)
  rw [hb] at h2
  have : ((1, 5) : Nat × Nat) ∈ logged (after .upTo312 allStart
      ([.dispatch two lamp lightOn, .ends 1 (.raised 5)] ++ ks.map .check)) 0 2 :=
    List.mem_filter.2 ⟨hm, by decide⟩
  rw [show logged (after .upTo312 allStart
      ([.dispatch two lamp lightOn, .ends 1 (.raised 5)] ++ ks.map .check)) 0 2 = [] from h2] at this
  cases this

/-- C110 is false also when all callbacks end: if the call of a later callback raises at once, nobody looks at the tasks
of those before it. -/
theorem C110_unstarted_refuted : ∃ call, ¬ EveryErrorLoggedAtEnd .upTo312 call := by
  refine ⟨eightFails, fun h => ?_⟩
  have hall : AllEnded (after .upTo312 eightFails [.dispatch two lamp lightOn, .ends 0 (.raised 5)]) 0
      (count .upTo312 eightFails [.dispatch two lamp lightOn, .ends 0 (.raised 5)]) := by
    intro t _ ht
    have hb : count .upTo312 eightFails [.dispatch two lamp lightOn, .ends 0 (.raised 5)] = 1 := by decide +kernel
    rw [hb] at ht
    obtain rfl : t = 0 := by omega
    decide +kernel
  obtain ⟨ks, hm⟩ := h [.dispatch two lamp lightOn, .ends 0 (.raised 5)] 0 5 hall (by decide +kernel)
  have w := (Orphans.dispatch Good.init .upTo312 eightFails two lamp lightOn).run .upTo312 eightFails
    (.ends 0 (.raised 5) :: ks.map .check)
  have hu : State.init.made.length + (dispatch .upTo312 eightFails two lamp lightOn).1.length = 1 := by decide +kernel
  rw [hu] at w
  have : ((0, 5) : Nat × Nat) ∈ logged (after .upTo312 eightFails
      ([.dispatch two lamp lightOn, .ends 0 (.raised 5)] ++ ks.map .check)) 0 1 :=
    List.mem_filter.2 ⟨hm, by decide⟩
  rw [show logged (after .upTo312 eightFails
      ([.dispatch two lamp lightOn, .ends 0 (.raised 5)] ++ ks.map .check)) 0 1 = [] from w.log] at this
  cases this
