import Verif.Spec.Outcomes
import Verif.Proofs.Firing
import Mathlib.Data.List.Induction

/-!
# Lemmas about what becomes of callbacks
-/

open Py

namespace Outcomes

/-! ## Dispatching -/

theorem dispatchIn_tasks (py : Events.Python) (call : Events.Call) (r : Events.Registry) (o : Events.Obj) (m : Msg)
    (bs : List Events.Base) :
    (dispatchIn py call r o m bs).1 ++ (dispatchIn py call r o m bs).2 = Events.dispatchIn py call r o m bs := by
  induction bs with
  | nil => rfl
  | cons b bs ih =>
    unfold dispatchIn Events.dispatchIn
    split
    · rcases b.callCallbacks call r o m with ⟨ts, e | ⟨⟩⟩
      · simp [← ih]
      · simp
    · exact ih

theorem dispatch_tasks (py : Events.Python) (call : Events.Call) (r : Events.Registry) (o : Events.Obj) (m : Msg) :
    (dispatch py call r o m).1 ++ (dispatch py call r o m).2 = Events.dispatch py call r o m :=
  dispatchIn_tasks ..

theorem createTasks_all {call : Events.Call} (hc : Spec.AllStart call) (fs : List Events.Cb) (o : Events.Obj)
    (args : List Events.Arg) : (Events.createTasks call fs o args).2 = .ok () := by
  induction fs with
  | nil => rfl
  | cons f fs ih => unfold Events.createTasks; rw [hc]; exact ih

theorem callCallbacks_error {call : Events.Call} (hc : Spec.AllStart call) (r : Events.Registry) (o : Events.Obj)
    (m : Msg) (b : Events.Base) (e : Err) (h : (b.callCallbacks call r o m).2 = .error e) :
    (b.callCallbacks call r o m).1 = [] := by
  have key : ∀ fs args, (Events.createTasks call fs o args).2 ≠ .error e := by
    intro fs args; rw [createTasks_all hc]; exact fun h => by cases h
  revert h
  cases b <;> simp only [Events.Base.callCallbacks]
  · unfold Events.automationCallbacks
    rcases Events.automationEvent m with e' | args
    · exact fun _ => rfl
    · exact fun h => absurd h (key _ _)
  · unfold Events.cameraCallbacks
    rcases Events.cameraEvent m with e' | args
    · exact fun _ => rfl
    · exact fun h => absurd h (key _ _)
  · unfold Events.energyCallbacks
    split
    · exact fun _ => rfl
    · split
      · exact fun _ => rfl
      · rcases Events.energyEvent m with e' | _ | ⟨k, args⟩
        · exact fun _ => rfl
        · exact fun _ => rfl
        · exact fun h => absurd h (key _ _)
  · unfold Events.gatewayCallbacks
    split
    · exact fun _ => rfl
    · rcases Events.gatewayEvent m with e' | _ | ⟨k, args⟩
      · exact fun _ => rfl
      · exact fun _ => rfl
      · exact fun h => absurd h (key _ _)
  · unfold Events.lightCallbacks
    rcases Events.lightEvent m with e' | _ | ⟨k, args⟩
    · exact fun _ => rfl
    · exact fun _ => rfl
    · exact fun h => absurd h (key _ _)

theorem dispatch_unchecked {call : Events.Call} (hc : Spec.AllStart call) (py : Events.Python) (r : Events.Registry)
    (o : Events.Obj) (m : Msg) : (dispatch py call r o m).1 = [] := by
  unfold dispatch
  induction Events.subclasses with
  | nil => rfl
  | cons b bs ih =>
    unfold dispatchIn
    split
    · have h := callCallbacks_error hc r o m b
      rcases hb : b.callCallbacks call r o m with ⟨ts, e | ⟨⟩⟩
      · rw [hb] at h
        simp only [ih, List.append_nil]
        exact h e rfl
      · rfl
    · exact ih

/-! ## Logs -/

theorem raisedAmong_eq (ended : Nat → Option Outcome) (ts : List Nat) :
    raisedAmong ended ts = ts.filterMap (failure ended) := by
  induction ts with
  | nil => rfl
  | cons t ts ih =>
    unfold raisedAmong
    rw [ih]
    rcases h : ended t with _ | _ | e | _ <;> simp [failure, h]

theorem failure_some {ended : Nat → Option Outcome} {t : Nat} {p : Nat × Nat} (h : failure ended t = some p) :
    p.1 = t ∧ ended t = some (.raised p.2) := by
  unfold failure at h
  split at h
  · cases h; exact ⟨rfl, by assumption⟩
  · cases h

theorem failures_mem {ended : Nat → Option Outcome} {ts : List Nat} {p : Nat × Nat}
    (h : p ∈ ts.filterMap (failure ended)) : p.1 ∈ ts ∧ ended p.1 = some (.raised p.2) := by
  obtain ⟨t, ht, hp⟩ := List.mem_filterMap.1 h
  obtain ⟨h1, h2⟩ := failure_some hp
  rw [h1]; exact ⟨ht, h2⟩

/-! ## Invariants -/

/-- What is always so. -/
structure Good (s : State) : Prop where
  /-- checks are about tasks that were made -/
  below : ∀ c ∈ s.checks, ∀ t ∈ c.tasks, t < s.made.length
  /-- only tasks that were made end -/
  endedBelow : ∀ t, s.ended t ≠ none → t < s.made.length
  /-- the log tells the truth -/
  sound : ∀ p ∈ s.log, s.ended p.1 = some (.raised p.2)

theorem Good.init : Good State.init :=
  ⟨fun _ h => by simp [State.init] at h, fun _ h => absurd rfl h, fun _ h => by simp [State.init] at h⟩

theorem Good.step {s : State} (g : Good s) (py : Events.Python) (call : Events.Call) (x : Step) :
    Good (s.step py call x) := by
  cases x with
  | dispatch r o m =>
    refine ⟨?_, ?_, g.sound⟩
    · intro c hc t ht
      simp only [State.step, List.mem_append, List.mem_singleton] at hc
      simp only [State.step, List.length_append]
      rcases hc with hc | rfl
      · have := g.below c hc t ht; omega
      · simp only [List.mem_range'_1] at ht; omega
    · intro t ht
      have := g.endedBelow t ht
      simp only [State.step, List.length_append]; omega
  | ends task how =>
    simp only [State.step]
    split
    · rename_i h
      refine ⟨g.below, ?_, ?_⟩
      · intro t ht
        by_cases htt : t = task
        · subst htt; exact h.1
        · simp only [Function.update_of_ne htt] at ht; exact g.endedBelow t ht
      · intro p hp
        have := g.sound p hp
        by_cases htt : p.1 = task
        · rw [htt, h.2] at this; cases this
        · simp only [Function.update_of_ne htt]; exact this
    · exact g
  | check k =>
    simp only [State.step]
    split
    · exact g
    · rename_i c hk
      split
      · refine ⟨?_, g.endedBelow, ?_⟩
        · intro c' hc' t ht
          rcases List.mem_or_eq_of_mem_set hc' with h | rfl
          · exact g.below c' h t ht
          · exact g.below c (List.mem_of_getElem? hk) t ht
        · intro p hp
          rcases List.mem_append.1 hp with h | h
          · exact g.sound p h
          · exact (failures_mem h).2
      · exact g

theorem Good.run {s : State} (g : Good s) (py : Events.Python) (call : Events.Call) (h : List Step) :
    Good (s.run py call h) := by
  induction h generalizing s with
  | nil => exact g
  | cons x h ih => exact ih (g.step py call x)

theorem good_after (py : Events.Python) (call : Events.Call) (h : List Step) : Good (after py call h) := Good.init.run ..

theorem after_append (py : Events.Python) (call : Events.Call) (h h' : List Step) :
    after py call (h ++ h') = (after py call h).run py call h' := by
  simp [after, State.run]

/-- The `k`-th check looks at the tasks from `a` up to `b`, and nobody else does. -/
structure Owns (s : State) (k a b : Nat) : Prop where
  le : a ≤ b
  made : b ≤ s.made.length
  mine : ∃ d, s.checks[k]? = some ⟨List.range' a (b - a), d⟩ ∧ (d = true → AllEnded s a b) ∧
    logged s a b = if d then raisedIn s a b else []
  others : ∀ j c, j ≠ k → s.checks[j]? = some c → ∀ t ∈ c.tasks, t < a ∨ b ≤ t

theorem logged_append (s : State) (l : List (Nat × Nat)) (a b : Nat) :
    logged { s with log := s.log ++ l } a b = logged s a b ++ l.filter fun p => a ≤ p.1 ∧ p.1 < b := by
  simp [logged]

theorem Owns.step {s : State} {k a b : Nat} (w : Owns s k a b) (py : Events.Python) (call : Events.Call) (x : Step) :
    Owns (s.step py call x) k a b := by
  obtain ⟨hle, hmade, ⟨d, hk, hd, hl⟩, ho⟩ := w
  cases x with
  | dispatch r o m =>
    have hlt : k < s.checks.length := (List.getElem?_eq_some_iff.1 hk).1
    refine ⟨hle, ?_, ⟨d, ?_, hd, hl⟩, ?_⟩
    · simp only [State.step, List.length_append]; omega
    · simp only [State.step]; rw [List.getElem?_append_left hlt, hk]
    · intro j c hj hc t ht
      simp only [State.step] at hc
      rcases Nat.lt_trichotomy j s.checks.length with h | h | h
      · rw [List.getElem?_append_left h] at hc; exact ho j c hj hc t ht
      · rw [h, List.getElem?_append_right (Nat.le_refl _), Nat.sub_self] at hc
        cases hc
        simp only [List.mem_range'_1] at ht
        omega
      · rw [List.getElem?_eq_none (by simp; omega)] at hc; cases hc
  | ends task how =>
    simp only [State.step]
    split
    · rename_i h
      refine ⟨hle, hmade, ⟨d, hk, ?_, ?_⟩, ho⟩
      · intro hdt t h1 h2
        by_cases htt : t = task
        · subst htt; simp
        · simp only [Function.update_of_ne htt]; exact hd hdt t h1 h2
      · cases d with
        | false => exact hl
        | true =>
          have hn : ∀ t, a ≤ t → t < b → t ≠ task := by
            rintro t h1 h2 rfl; exact hd rfl t h1 h2 h.2
          change logged s a b = _
          rw [hl]
          simp only [if_true, raisedIn, raisedAmong_eq]
          refine List.filterMap_congr fun t ht => ?_
          simp only [List.mem_range'_1] at ht
          unfold failure
          rw [Function.update_of_ne (hn t ht.1 (by omega))]
    · exact ⟨hle, hmade, ⟨d, hk, hd, hl⟩, ho⟩
  | check j =>
    simp only [State.step]
    split
    · exact ⟨hle, hmade, ⟨d, hk, hd, hl⟩, ho⟩
    · rename_i c hj
      split
      · rename_i h
        by_cases hjk : j = k
        · subst hjk
          rw [hk] at hj; cases hj
          have hall : AllEnded s a b := fun t h1 h2 => h.2 t (by simp only [List.mem_range'_1]; omega)
          cases h.1
          refine ⟨hle, hmade, ⟨true, ?_, fun _ => hall, ?_⟩, ?_⟩
          · rw [List.getElem?_set_self (List.getElem?_eq_some_iff.1 hk).1]
          · refine (logged_append s _ a b).trans ?_
            rw [hl]
            simp only [Bool.false_eq_true, if_false, List.nil_append, if_true, raisedIn, raisedAmong_eq]
            refine List.filter_eq_self.2 fun p hp => ?_
            have := (failures_mem hp).1
            simp only [List.mem_range'_1] at this
            simp only [decide_eq_true_eq]
            omega
          · intro i c' hi hc'
            rw [List.getElem?_set_ne (Ne.symm hi)] at hc'
            exact ho i c' hi hc'
        · refine ⟨hle, hmade, ⟨d, ?_, hd, ?_⟩, ?_⟩
          · rw [List.getElem?_set_ne hjk, hk]
          · refine (logged_append s _ a b).trans ?_
            have : (c.tasks.filterMap (failure s.ended)).filter (fun p => decide (a ≤ p.1 ∧ p.1 < b)) = [] := by
              refine List.filter_eq_nil_iff.2 fun p hp => ?_
              have := ho j c hjk hj p.1 (failures_mem hp).1
              simp only [decide_eq_true_eq]
              omega
            rw [this, List.append_nil]; exact hl
          · intro i c' hi hc' t ht
            by_cases hij : i = j
            · subst hij
              rw [List.getElem?_set_self (List.getElem?_eq_some_iff.1 hj).1] at hc'
              cases hc'
              exact ho i c hi hj t ht
            · rw [List.getElem?_set_ne (Ne.symm hij)] at hc'
              exact ho i c' hi hc' t ht
      · exact ⟨hle, hmade, ⟨d, hk, hd, hl⟩, ho⟩

theorem Owns.run {s : State} {k a b : Nat} (w : Owns s k a b) (py : Events.Python) (call : Events.Call)
    (h : List Step) : Owns (s.run py call h) k a b := by
  induction h generalizing s with
  | nil => exact w
  | cons x h ih => exact ih (w.step py call x)

theorem logged_above {s : State} (g : Good s) (a b : Nat) (h : s.made.length ≤ a) : logged s a b = [] := by
  refine List.filter_eq_nil_iff.2 fun p hp => ?_
  have := g.endedBelow p.1 (by rw [g.sound p hp]; simp)
  simp only [decide_eq_true_eq]
  omega

/-- A dispatch makes a check for its tasks. -/
theorem Owns.dispatch {s : State} (g : Good s) (py : Events.Python) (call : Events.Call) (r : Events.Registry)
    (o : Events.Obj) (m : Msg) :
    Owns (s.step py call (.dispatch r o m)) s.checks.length (s.made.length + (dispatch py call r o m).1.length)
      (s.step py call (.dispatch r o m)).made.length := by
  refine ⟨?_, Nat.le_refl _, ⟨false, ?_, (fun h => by cases h), ?_⟩, ?_⟩
  · simp only [State.step, List.length_append]; omega
  · simp only [State.step, List.length_append]
    rw [List.getElem?_append_right (Nat.le_refl _), Nat.sub_self]
    simp only [List.getElem?_cons_zero]
    congr 3
    omega
  · exact logged_above (s := s) g _ _ (Nat.le_add_right _ _)
  · intro j c hj hc t ht
    simp only [State.step] at hc
    have hlt : j < s.checks.length := by
      have := (List.getElem?_eq_some_iff.1 hc).1
      simp only [List.length_append, List.length_singleton] at this
      omega
    rw [List.getElem?_append_left hlt] at hc
    have := g.below c (List.mem_of_getElem? hc) t ht
    omega

/-- Nobody looks at the tasks from `a` up to `b`. -/
structure Orphans (s : State) (a b : Nat) : Prop where
  made : b ≤ s.made.length
  none : ∀ c ∈ s.checks, ∀ t ∈ c.tasks, t < a ∨ b ≤ t
  log : logged s a b = []

theorem Orphans.step {s : State} {a b : Nat} (w : Orphans s a b) (py : Events.Python) (call : Events.Call) (x : Step) :
    Orphans (s.step py call x) a b := by
  cases x with
  | dispatch r o m =>
    refine ⟨?_, ?_, w.log⟩
    · have := w.made; simp only [State.step, List.length_append]; omega
    · intro c hc t ht
      simp only [State.step, List.mem_append, List.mem_singleton] at hc
      rcases hc with hc | rfl
      · exact w.none c hc t ht
      · have := w.made
        simp only [List.mem_range'_1] at ht; omega
  | ends task how =>
    simp only [State.step]
    split
    · exact ⟨w.made, w.none, w.log⟩
    · exact w
  | check k =>
    simp only [State.step]
    split
    · exact w
    · rename_i c hk
      split
      · refine ⟨w.made, ?_, ?_⟩
        · intro c' hc' t ht
          rcases List.mem_or_eq_of_mem_set hc' with h | rfl
          · exact w.none c' h t ht
          · exact w.none c (List.mem_of_getElem? hk) t ht
        · refine (logged_append s _ a b).trans ?_
          rw [w.log, List.nil_append]
          refine List.filter_eq_nil_iff.2 fun p hp => ?_
          have := w.none c (List.mem_of_getElem? hk) p.1 (failures_mem hp).1
          simp only [decide_eq_true_eq]
          omega
      · exact w

theorem Orphans.run {s : State} {a b : Nat} (w : Orphans s a b) (py : Events.Python) (call : Events.Call)
    (h : List Step) : Orphans (s.run py call h) a b := by
  induction h generalizing s with
  | nil => exact w
  | cons x h ih => exact ih (w.step py call x)

theorem Orphans.dispatch {s : State} (g : Good s) (py : Events.Python) (call : Events.Call) (r : Events.Registry)
    (o : Events.Obj) (m : Msg) :
    Orphans (s.step py call (.dispatch r o m)) s.made.length
      (s.made.length + (dispatch py call r o m).1.length) := by
  refine ⟨?_, ?_, logged_above (s := s) g _ _ (Nat.le_refl _)⟩
  · simp only [State.step, List.length_append]; omega
  · intro c hc t ht
    simp only [State.step, List.mem_append, List.mem_singleton] at hc
    rcases hc with hc | rfl
    · exact .inl (g.below c hc t ht)
    · simp only [List.mem_range'_1] at ht; omega

/-! ## Each once -/

/-- Tasks are in one check, once, and in the log only after that check has ended. -/
structure Once (s : State) : Prop where
  nodup : (s.log.map Prod.fst).Nodup
  own : ∀ (k : Nat) (c : Check), s.checks[k]? = some c → c.tasks.Nodup
  apart : ∀ (j k : Nat) (c c' : Check), j ≠ k → s.checks[j]? = some c → s.checks[k]? = some c' → ∀ t ∈ c.tasks, t ∉ c'.tasks
  later : ∀ (k : Nat) (c : Check), s.checks[k]? = some c → c.ended = false → ∀ t ∈ c.tasks, t ∉ s.log.map Prod.fst

theorem Once.init : Once State.init :=
  ⟨by simp [State.init], fun _ _ h => by simp [State.init] at h, fun _ _ _ _ _ h => by simp [State.init] at h,
    fun _ _ h => by simp [State.init] at h⟩

theorem failures_nodup (ended : Nat → Option Outcome) (ts : List Nat) (h : ts.Nodup) :
    ((ts.filterMap (failure ended)).map Prod.fst).Nodup := by
  induction ts with
  | nil => simp
  | cons t ts ih =>
    rw [List.nodup_cons] at h
    rw [List.filterMap_cons]
    split
    · exact ih h.2
    · rename_i p hp
      rw [List.map_cons, List.nodup_cons]
      refine ⟨fun hm => ?_, ih h.2⟩
      obtain ⟨q, hq, hqp⟩ := List.mem_map.1 hm
      rw [(failure_some hp).1] at hqp
      exact h.1 (hqp ▸ (failures_mem hq).1)

theorem Once.step {s : State} (g : Good s) (w : Once s) (py : Events.Python) (call : Events.Call) (x : Step) :
    Once (s.step py call x) := by
  cases x with
  | dispatch r o m =>
    have key : ∀ k c, (s.step py call (.dispatch r o m)).checks[k]? = some c →
        s.checks[k]? = some c ∨ k = s.checks.length ∧
          c.tasks = List.range' (s.made.length + (Outcomes.dispatch py call r o m).1.length)
            (Outcomes.dispatch py call r o m).2.length := by
      intro k c hc
      simp only [State.step] at hc
      rcases Nat.lt_trichotomy k s.checks.length with h | h | h
      · rw [List.getElem?_append_left h] at hc; exact .inl hc
      · rw [h, List.getElem?_append_right (Nat.le_refl _), Nat.sub_self] at hc
        cases hc
        exact .inr ⟨h, rfl⟩
      · rw [List.getElem?_eq_none (by simp; omega)] at hc; cases hc
    have old : ∀ (k : Nat) (c : Check), s.checks[k]? = some c → ∀ t ∈ c.tasks, t < s.made.length :=
      fun k c h => g.below c (List.mem_of_getElem? h)
    refine ⟨w.nodup, ?_, ?_, ?_⟩
    · intro k c hc
      rcases key k c hc with h | ⟨_, h⟩
      · exact w.own k c h
      · rw [h]; exact List.nodup_range'
    · intro j k c c' hjk hj hk t ht ht'
      rcases key j c hj with h | ⟨h1, h⟩ <;> rcases key k c' hk with h' | ⟨h1', h'⟩
      · exact w.apart j k c c' hjk h h' t ht ht'
      · have := old j c h t ht
        rw [h'] at ht'; simp only [List.mem_range'_1] at ht'; omega
      · have := old k c' h' t ht'
        rw [h] at ht; simp only [List.mem_range'_1] at ht; omega
      · exact hjk (h1.trans h1'.symm)
    · intro k c hc he t ht
      rcases key k c hc with h | ⟨_, h⟩
      · exact w.later k c h he t ht
      · rw [h] at ht; simp only [List.mem_range'_1] at ht
        intro hm
        obtain ⟨p, hp, rfl⟩ := List.mem_map.1 hm
        have := g.endedBelow p.1 (by rw [g.sound p hp]; simp)
        omega
  | ends task how =>
    simp only [State.step]
    split
    · exact ⟨w.nodup, w.own, w.apart, w.later⟩
    · exact w
  | check k =>
    simp only [State.step]
    split
    · exact w
    · rename_i c hk
      split
      · rename_i h
        have hlt := (List.getElem?_eq_some_iff.1 hk).1
        have key : ∀ j c', (s.checks.set k { c with ended := true })[j]? = some c' →
            ∃ c'', s.checks[j]? = some c'' ∧ c''.tasks = c'.tasks ∧ (c'.ended = false → j ≠ k ∧ c''.ended = false) := by
          intro j c' hj
          by_cases hjk : j = k
          · subst hjk
            rw [List.getElem?_set_self hlt] at hj
            cases hj
            exact ⟨c, hk, rfl, fun h => by cases h⟩
          · rw [List.getElem?_set_ne (Ne.symm hjk)] at hj
            exact ⟨c', hj, rfl, fun h => ⟨hjk, h⟩⟩
        refine ⟨?_, ?_, ?_, ?_⟩
        · simp only [List.map_append]
          refine List.nodup_append.2 ⟨w.nodup, failures_nodup _ _ (w.own k c hk), ?_⟩
          rintro t ht t' ht' rfl
          obtain ⟨p, hp, rfl⟩ := List.mem_map.1 ht'
          exact w.later k c hk h.1 p.1 (failures_mem hp).1 ht
        · intro j c' hj
          obtain ⟨c'', h1, h2, _⟩ := key j c' hj
          rw [← h2]; exact w.own j c'' h1
        · intro i j c₁ c₂ hij hi hj
          obtain ⟨d₁, h1, h2, _⟩ := key i c₁ hi
          obtain ⟨d₂, h3, h4, _⟩ := key j c₂ hj
          rw [← h2, ← h4]; exact w.apart i j d₁ d₂ hij h1 h3
        · intro j c' hj he t ht hm
          obtain ⟨c'', h1, h2, h3⟩ := key j c' hj
          obtain ⟨hjk, he'⟩ := h3 he
          rw [← h2] at ht
          simp only [List.map_append, List.mem_append] at hm
          rcases hm with hm | hm
          · exact w.later j c'' h1 he' t ht hm
          · obtain ⟨p, hp, rfl⟩ := List.mem_map.1 hm
            exact w.apart j k c'' c hjk h1 hk p.1 ht (failures_mem hp).1
      · exact w

theorem once_after (py : Events.Python) (call : Events.Call) (h : List Step) : Once (after py call h) := by
  have : ∀ s, Good s → Once s → Once (s.run py call h) := by
    intro s g w
    induction h generalizing s with
    | nil => exact w
    | cons x h ih => exact ih _ (g.step py call x) (w.step g py call x)
  exact this _ Good.init Once.init

/-! ## Checks end no callback, callbacks start no callback -/

theorem run_checks_ended (py : Events.Python) (call : Events.Call) (s : State) (ks : List Nat) :
    (s.run py call (ks.map .check)).ended = s.ended := by
  induction ks generalizing s with
  | nil => rfl
  | cons k ks ih =>
    refine (ih _).trans ?_
    simp only [State.step]
    split
    · rfl
    · split <;> rfl

theorem run_made (py : Events.Python) (call : Events.Call) (h : List Step) (s s' : State) (hs : s.made = s'.made) :
    (s.run py call h).made = (s'.run py call (h.filter Step.isDispatch)).made := by
  induction h generalizing s s' with
  | nil => exact hs
  | cons x h ih =>
    cases x with
    | dispatch r o m =>
      exact ih (s.step py call (.dispatch r o m)) (s'.step py call (.dispatch r o m)) (by simp only [State.step, hs])
    | ends t how =>
      refine ih (s.step py call (.ends t how)) s' ?_
      simp only [State.step]; split <;> exact hs
    | check k =>
      refine ih (s.step py call (.check k)) s' ?_
      simp only [State.step]
      split
      · exact hs
      · split <;> exact hs

/-- The event a task belongs to. -/
theorem task_event (py : Events.Python) (call : Events.Call) (h : List Step) (t : Nat) (ht : t < count py call h) :
    ∃ pre r o m post, h = pre ++ .dispatch r o m :: post ∧ count py call pre ≤ t ∧
      t < count py call (pre ++ [.dispatch r o m]) := by
  induction h using List.reverseRecOn with
  | nil => exact absurd ht (Nat.not_lt_zero _)
  | append_singleton h x ih =>
    by_cases hlt : t < count py call h
    · obtain ⟨pre, r, o, m, post, rfl, h1, h2⟩ := ih hlt
      exact ⟨pre, r, o, m, post ++ [x], by simp, h1, h2⟩
    · cases x with
      | dispatch r o m => exact ⟨h, r, o, m, [], rfl, Nat.le_of_not_lt hlt, ht⟩
      | ends t' how =>
        have : count py call (h ++ [.ends t' how]) = count py call h := by
          unfold count; rw [after_append]
          simp only [State.run, List.foldl_cons, List.foldl_nil, State.step]
          split <;> rfl
        exact absurd (this ▸ ht) hlt
      | check k =>
        have : count py call (h ++ [.check k]) = count py call h := by
          unfold count; rw [after_append]
          simp only [State.run, List.foldl_cons, List.foldl_nil, State.step]
          split
          · rfl
          · split <;> rfl
        exact absurd (this ▸ ht) hlt

end Outcomes
