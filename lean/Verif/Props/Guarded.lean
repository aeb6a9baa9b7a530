import Verif.Props.Locked
import Verif.Proofs.Guarded

/-!
# C139: a lock, and a new connection after each request that is given up

Tasks that share a client take one lock around each request, and a task whose request times out or is cancelled starts the client
again before it releases the lock.
-/

open Py Guarded Spec.Guarded Spec.Locked

/-- The answers on one connection, if no request was given up on it. -/
theorem Guarded.own_quiet {prog : Nat → Concurrent.Req} {answers : Nat → List Msg} {l : List Concurrent.Ev}
    (hp : ∀ id, Spec.Concurrent.Proper (prog id) (answers id)) (hn : (Spec.Concurrent.starts l).Nodup) (hq : Quiet l)
    (ha : Spec.Concurrent.AtStart prog Spec.Concurrent.Alone l) (ho : Spec.Concurrent.InOrder answers l) :
    Spec.Concurrent.Own answers (Concurrent.run prog l) :=
  C80_one_at_a_time_partial prog answers l hp ⟨hn, hq⟩ ho ha

/-- C139: every request that does not time out - command or query, on whatever connection, whatever was given up before and
whenever late answers come - got its own answer, all of it, and reports what it says. -/
theorem C139_own (prog : Nat → Concurrent.Req) (answers : Nat → List Msg) (evs : List Ev)
    (hp : ∀ id, Spec.Concurrent.Proper (prog id) (answers id)) (hn : (called evs).Nodup)
    (ho : ∀ log ∈ connections (run prog evs), Spec.Concurrent.InOrder answers log) :
    ∀ log ∈ connections (run prog evs), OwnInTime answers (Concurrent.run prog log) := by
  have hi := run_inv prog evs
  have hnd : ∀ log ∈ connections (run prog evs), (Spec.Concurrent.starts log).Nodup := fun log hlog => by
    have := (List.sublist_append_left _ _).trans (run_sublist prog evs)
    exact (((List.sublist_flatten_of_mem (List.mem_map_of_mem hlog)).trans (by rwa [← List.flatMap_def])).nodup hn)
  intro log hlog id r hr hne
  have hmem := hlog
  rcases List.mem_append.1 hlog with hlog | hlog
  · obtain ⟨l, e, c, late, rfl, h1, h2, h3, h4⟩ := hi.left log hlog
    have hnl : (Spec.Concurrent.starts l).Nodup := by
      have := hnd _ hmem
      rw [starts_append, starts_append] at this
      exact (List.nodup_append.1 (List.nodup_append.1 this).1).1
    have hol : Spec.Concurrent.InOrder answers l := inOrder_prefix (inOrder_prefix (ho _ hmem))
    have hown := own_quiet hp hnl h2 h1 hol
    obtain ⟨g1, g2, g3, -⟩ := gaveUp (prog := prog) h4 h3
    have hrun : Concurrent.run prog (l ++ [e] ++ late.map Concurrent.Ev.arrive) =
        (late.map Concurrent.Ev.arrive).foldl (Concurrent.State.step prog) ((Concurrent.run prog l).step prog e) := by
      simp [Concurrent.run]
    obtain ⟨k1, k2, -⟩ := lateArrivals prog late _ g2
    rw [hrun] at hr ⊢
    rw [k2] at hr
    obtain ⟨o1, o2⟩ := hown id r (g3 id r hr hne)
    refine ⟨?_, o2⟩
    unfold Spec.Concurrent.takenBy at o1 ⊢
    rw [k1, g1]
    exact o1
  · rw [List.mem_singleton.1 hlog] at hr hmem ⊢
    cases hrs : (run prog evs).restarting with
    | false => exact own_quiet hp (hnd _ hmem) hi.quiet (hi.on hrs).alone (ho _ hmem) id r hr
    | true =>
      rw [(hi.off hrs).1] at hr
      simp [Concurrent.run, Concurrent.State.init] at hr

/-- C139: the frames are written in the order of the calls, over all connections, and each at most once. -/
theorem C139_order (prog : Nat → Concurrent.Req) (evs : List Ev) : (written prog (run prog evs)).Sublist (called evs) := by
  have : written prog (run prog evs) = (connections (run prog evs)).flatMap Spec.Concurrent.starts := by
    unfold written
    congr 1
    funext log
    rw [Locked.sent_starts]
    simp [Function.comp_def]
  rw [this]
  exact (List.sublist_append_left _ _).trans (run_sublist prog evs)

/-- C139: and when nothing is left to happen, every request that was called has ended, unless its task was cancelled. -/
theorem C139_served (prog : Nat → Concurrent.Req) (answers : Nat → List Msg) (evs : List Ev)
    (hp : ∀ id, Spec.Concurrent.Proper (prog id) (answers id)) (hn : (called evs).Nodup)
    (ho : ∀ log ∈ connections (run prog evs), Spec.Concurrent.InOrder answers log) (hr : Settled prog answers (run prog evs)) :
    (run prog evs).lock.holder = none ∧ (run prog evs).lock.line = [] ∧
      ∀ id ∈ called evs, Ended prog (run prog evs) id ∨ Ev.cancel id ∈ evs := by
  have hi := run_inv prog evs
  obtain ⟨hrs, r1, r2, r3⟩ := hr
  have hl := hi.on hrs
  have hnd : ∀ log ∈ connections (run prog evs), (Spec.Concurrent.starts log).Nodup := fun log hlog => by
    have := (List.sublist_append_left _ _).trans (run_sublist prog evs)
    exact (((List.sublist_flatten_of_mem (List.mem_map_of_mem hlog)).trans (by rwa [← List.flatMap_def])).nodup hn)
  have hcur : (run prog evs).lock.log ∈ connections (run prog evs) := by simp [connections]
  have ends : ∀ l, Quiet l → Spec.Concurrent.AtStart prog Spec.Concurrent.Alone l → (Spec.Concurrent.starts l).Nodup →
      Spec.Concurrent.InOrder answers l → ∀ id ∈ Spec.Concurrent.starts l,
      id ∈ (Concurrent.run prog l).finished.map (·.1) ∨ underWay (Concurrent.run prog l) = [id] := by
    intro l h1 h2 h3 h4 id hid
    obtain ⟨-, done, hf, h⟩ := Concurrent.aloneInv prog answers hp l ⟨h3, h1⟩ h4 h2
    have hfin : (Concurrent.run prog l).finished.map (·.1) = done := by rw [hf]; simp [Function.comp_def]
    rw [hfin]
    rcases h with ⟨g1, -⟩ | ⟨c, p, ⟨g1, -⟩, g⟩
    · left; rwa [← g1]
    · rw [g1] at hid
      rcases List.mem_append.1 hid with hid | hid
      · exact .inl hid
      · right
        rw [List.mem_singleton.1 hid]
        rcases g with ⟨g2, g3, -⟩ | ⟨g2, g3, -⟩ <;> simp [underWay, g2, g3]
  have idle : (run prog evs).lock.holder = none := by
    obtain ⟨ha, done, hf, h⟩ := Concurrent.aloneInv prog answers hp _ ⟨hnd _ hcur, hi.quiet⟩ (ho _ hcur) hl.alone
    have hs : ((run prog evs).lock.base prog).sent.map (·.1) = Spec.Concurrent.starts (run prog evs).lock.log := by
      rw [Locked.State.base, Locked.sent_starts]; simp [Function.comp_def]
    rw [hs] at r3
    rcases h with ⟨g1, _, g3, g4⟩ | ⟨c, p, ⟨g1, g2, g3⟩, g | g⟩
    · have := hl.under
      rw [Locked.State.base, underWay, g3, g4] at this
      cases hh : (run prog evs).lock.holder with
      | none => rfl
      | some c => rw [hh] at this; cases this
    · exfalso
      rw [g2, List.map_append, Concurrent.complete_snd, g.2.2, r3, g1] at ha
      simp only [List.map_map, Function.comp_def, List.map_id', List.append_nil, List.flatMap_append, List.flatMap_cons,
        List.flatMap_nil, List.append_cancel_left_eq] at ha
      obtain ⟨rs, l, e1, _, e3⟩ := hp c
      have := g3 l (by rw [ha, e1]; simp)
      rw [e3] at this
      cases this
    · rw [Locked.State.base] at r2
      rw [g.2.1] at r2
      cases r2
  have hline : (run prog evs).lock.line = [] := by
    have := hl.free idle
    rw [r1] at this
    cases hh : (run prog evs).lock.line with
    | nil => rfl
    | cons a b => rw [hh] at this; cases this
  refine ⟨idle, hline, fun id hid => ?_⟩
  rcases run_all prog evs id hid with h | h | h
  · left
    obtain ⟨log, hlog, hs⟩ := List.mem_flatMap.1 h
    refine ⟨log, hlog, ?_⟩
    have hmem := hlog
    rcases List.mem_append.1 hlog with hlog | hlog
    · obtain ⟨l, e, c, late, rfl, h1, h2, h3, h4⟩ := hi.left log hlog
      have hst : Spec.Concurrent.starts (l ++ [e] ++ late.map Concurrent.Ev.arrive) = Spec.Concurrent.starts l := by
        rw [starts_append, starts_append]
        have : Spec.Concurrent.starts (late.map Concurrent.Ev.arrive) = [] := by
          simp [Spec.Concurrent.starts, List.filterMap_eq_nil_iff]
        rw [this]
        rcases h3 with rfl | rfl <;> simp [Spec.Concurrent.starts]
      have hnl := hnd _ hmem
      rw [hst] at hnl hs
      obtain ⟨g1, g2, -, g4, g5⟩ := gaveUp (prog := prog) h4 h3
      have hrun : Concurrent.run prog (l ++ [e] ++ late.map Concurrent.Ev.arrive) =
          (late.map Concurrent.Ev.arrive).foldl (Concurrent.State.step prog) ((Concurrent.run prog l).step prog e) := by
        simp [Concurrent.run]
      obtain ⟨-, k2, k3⟩ := lateArrivals prog late _ g2
      rw [hrun, k2, k3]
      rcases ends l h2 h1 hnl (inOrder_prefix (inOrder_prefix (ho _ hmem))) id hs with h | h
      · left
        obtain ⟨x, hx, rfl⟩ := List.mem_map.1 h
        exact List.mem_map_of_mem (g5 x hx)
      · rw [h] at h4
        cases h4
        exact g4
    · rw [List.mem_singleton.1 hlog] at hs hmem ⊢
      rcases ends _ hi.quiet hl.alone (hnd _ hmem) (ho _ hmem) id hs with h | h
      · exact .inl h
      · have := hl.under
        rw [Locked.State.base, h, idle] at this
        cases this
  · rw [hline] at h; cases h
  · exact .inr h

/-- The hypotheses are met by the history that refutes C138, with a new connection after the timeout: the second command gets its
own answer, although the one to the first comes after it has begun. -/
example :
    let evs : List Ev := [.call 0, .call 1, .expire 0, .restarted, .enter, .late 0 .nack, .arrive .ack, .resume]
    let s := run C138.prog evs
    (called evs).Nodup ∧ (∀ log ∈ connections s, ∀ pre ∈ log.inits,
      Spec.Concurrent.arrivals pre <+: (Spec.Concurrent.starts pre).flatMap C138.answers) ∧
    (connections s).map (fun log => (Concurrent.run C138.prog log).finished) =
      [[(0, .error .timeoutError)], [(1, .ok ())]] ∧
    (s.restarting = false ∧ s.lock.granted = false ∧ s.lock.line = []) := by
  refine ⟨by decide, by decide, by decide, by decide⟩
