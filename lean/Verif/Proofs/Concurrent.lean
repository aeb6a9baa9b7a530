import Mathlib.Data.List.Infix
import Mathlib.Data.List.Induction
import Verif.Spec.Concurrent

/-! # Helper lemmas on concurrent requests -/

theorem Concurrent.run_append (prog : Nat → Req) (evs : List Ev) (e : Ev) :
    run prog (evs ++ [e]) = (run prog evs).step prog e := by
  simp [run]

namespace Spec.Concurrent
open _root_.Concurrent

@[simp] theorem starts_start (evs : List Ev) (id : Nat) : starts (evs ++ [.start id]) = starts evs ++ [id] := by
  simp [starts]

@[simp] theorem starts_arrive (evs : List Ev) (m : Msg) : starts (evs ++ [.arrive m]) = starts evs := by
  simp [starts]

@[simp] theorem starts_resume (evs : List Ev) : starts (evs ++ [.resume]) = starts evs := by
  simp [starts]

@[simp] theorem arrivals_start (evs : List Ev) (id : Nat) : arrivals (evs ++ [.start id]) = arrivals evs := by
  simp [arrivals]

@[simp] theorem arrivals_arrive (evs : List Ev) (m : Msg) : arrivals (evs ++ [.arrive m]) = arrivals evs ++ [m] := by
  simp [arrivals]

@[simp] theorem arrivals_resume (evs : List Ev) : arrivals (evs ++ [.resume]) = arrivals evs := by
  simp [arrivals]

theorem InOrder.append {answers : Nat → List Msg} {evs : List Ev} {e : Ev} (h : InOrder answers (evs ++ [e])) :
    InOrder answers evs := fun pre hp =>
  h pre ((List.mem_inits _ _).2 (((List.mem_inits _ _).1 hp).trans (List.prefix_append _ _)))

theorem InOrder.self {answers : Nat → List Msg} {evs : List Ev} (h : InOrder answers evs) :
    arrivals evs <+: (starts evs).flatMap answers := h evs ((List.mem_inits _ _).2 (List.prefix_refl _))

theorem AtStart.append {prog : Nat → Req} {P : State → Prop} {evs : List Ev} {e : Ev}
    (h : AtStart prog P (evs ++ [e])) : AtStart prog P evs := fun k hk hb => by
  have := h k (by simp; omega) (by rwa [List.getElem_append_left hk])
  rwa [List.take_append_of_le_length hk.le] at this

theorem AtStart.last {prog : Nat → Req} {P : State → Prop} {evs : List Ev} {id : Nat}
    (h : AtStart prog P (evs ++ [.start id])) : P (run prog evs) := by
  have := h evs.length (by simp) (by simp [begins])
  rwa [List.take_left] at this

theorem Calm.append {evs : List Ev} {e : Ev} (h : Calm (evs ++ [e])) : Calm evs := by
  refine ⟨?_, fun e he => h.2 e (List.mem_append_left _ he)⟩
  have := h.1
  rw [starts, List.filterMap_append] at this
  exact (List.nodup_append.1 this).1

end Spec.Concurrent

namespace Concurrent
open Spec.Concurrent

/-- The invariant for commands. -/
structure CmdInv (evs : List Ev) (s : State) : Prop where
  order : s.got.map (·.1) ++ s.woken ++ s.waiting = starts evs
  fifo : s.got.map (·.2) ++ s.queue = arrivals evs
  enough : s.woken.length ≤ s.queue.length
  exact : s.waiting ≠ [] → s.queue.length = s.woken.length
  ends : s.finished = s.got.map fun p => (p.1, verdict p.2)

theorem take_command (q : List Msg) : take (fun _ => false) q =
    match q with
    | [] => ([], [], none)
    | m :: q => ([m], q, some (verdict m)) := by
  cases q <;> simp [take]

theorem cmdInv (prog : Nat → Req) (hp : ∀ id, (prog id).want = fun _ => false) (evs : List Ev) (hc : Calm evs)
    (hf : AtStart prog Fifo evs) : CmdInv evs (run prog evs) := by
  induction evs using List.reverseRecOn with
  | nil => exact ⟨rfl, rfl, le_refl _, fun h => absurd rfl h, rfl⟩
  | append_singleton evs e ih =>
    have hi := ih hc.append hf.append
    rw [run_append]
    generalize hs : run prog evs = s at hi
    obtain ⟨queue, waiting, woken, sent, got, finished, cancelled⟩ := s
    obtain ⟨h1, h2, h3, h4, h5⟩ := hi
    simp only at h1 h2 h3 h4 h5
    cases e with
    | expire id => exact absurd rfl (hc.2 _ (by simp) id).1
    | cancel id => exact absurd rfl (hc.2 _ (by simp) id).2
    | start id =>
      have hw : woken = [] := by have := hf.last; rw [hs] at this; exact this
      subst hw
      clear ih hc hf hs
      simp only [State.step, State.read, hp, take_command]
      cases queue with
      | nil =>
        refine ⟨?_, ?_, ?_, ?_, ?_⟩ <;> simp [← h1, ← h2, h5]
      | cons m q =>
        have hw : waiting = [] := by
          by_contra hne
          simpa using h4 hne
        subst hw
        refine ⟨?_, ?_, ?_, ?_, ?_⟩ <;> simp [← h1, ← h2, h5]
    | arrive m =>
      clear ih hc hf hs
      simp only [State.step, State.wakeup]
      cases waiting with
      | nil =>
        refine ⟨?_, ?_, ?_, ?_, ?_⟩ <;> simp [← h1, ← h2, h5]
        omega
      | cons id rest =>
        have h4 := h4 (by simp)
        refine ⟨?_, ?_, ?_, ?_, ?_⟩ <;> simp [← h1, ← h2, h5, h4]
    | resume =>
      clear ih hc hf hs
      simp only [State.step]
      cases woken with
      | nil => refine ⟨?_, ?_, ?_, ?_, ?_⟩ <;> simp_all
      | cons id rest =>
        simp only [State.read, hp, take_command]
        cases queue with
        | nil => simp at h3
        | cons m q =>
          refine ⟨?_, ?_, ?_, ?_, ?_⟩ <;> simp_all [← h1, ← h2]

theorem verdict_eq (m : Msg) : verdict m = if m = .ack then .ok () else .error .responseError := by
  cases m <;> simp [verdict, Msg.type]

theorem paired {a : Nat → Msg} : ∀ (got : List (Nat × Msg)) (l : List Nat), got.map (·.1) <+: l →
    got.map (·.2) <+: l.map a → ∀ p ∈ got, p.2 = a p.1
  | [], _, _, _ => by simp
  | (i, m) :: got, [], h, _ => by simp at h
  | (i, m) :: got, j :: l, h1, h2 => by
    simp only [List.map_cons, List.cons_prefix_cons] at h1 h2
    obtain ⟨rfl, h1⟩ := h1
    obtain ⟨rfl, h2⟩ := h2
    intro p hp
    rcases List.mem_cons.1 hp with rfl | hp
    · rfl
    · exact paired got l h1 h2 p hp

theorem filter_fst {id : Nat} {m : Msg} : ∀ (got : List (Nat × Msg)), (got.map (·.1)).Nodup → (id, m) ∈ got →
    got.filter (·.1 = id) = [(id, m)]
  | [], _, h => by simp at h
  | (i, x) :: got, hn, h => by
    simp only [List.map_cons, List.nodup_cons] at hn
    rcases List.mem_cons.1 h with h | h
    · injection h with h1 h2
      subst h1 h2
      have : got.filter (·.1 = id) = [] := by
        rw [List.filter_eq_nil_iff]
        intro p hp he
        have he := of_decide_eq_true he
        exact hn.1 (he ▸ List.mem_map_of_mem hp)
      simp [this]
    · have hne : i ≠ id := fun he => hn.1 (he ▸ List.mem_map_of_mem (f := (·.1)) h)
      rw [List.filter_cons_of_neg (by simpa using hne)]
      exact filter_fst got hn.2 h

theorem take_all {want : Msg → Bool} : ∀ (q : List Msg), (∀ m ∈ q, want m = true) → take want q = (q, [], none)
  | [], _ => rfl
  | m :: q, h => by
    rw [take, if_pos (h m (by simp)), take_all q fun x hx => h x (by simp [hx])]

theorem take_end {want : Msg → Bool} {l : Msg} (hl : want l = false) : ∀ (q : List Msg), (∀ m ∈ q, want m = true) →
    take want (q ++ [l]) = (q ++ [l], [], some (verdict l))
  | [], _ => by simp [take, hl]
  | m :: q, h => by
    rw [List.cons_append, take, if_pos (h m (by simp)), take_end hl q fun x hx => h x (by simp [hx])]

/-- Everything the tasks `done` should take. -/
def complete (answers : Nat → List Msg) (done : List Nat) : List (Nat × Msg) :=
  done.flatMap fun id => (answers id).map (id, ·)

theorem complete_snd (answers : Nat → List Msg) (done : List Nat) :
    (complete answers done).map (·.2) = done.flatMap answers := by
  simp [complete, List.map_flatMap]

theorem complete_filter (answers : Nat → List Msg) {id : Nat} : ∀ (done : List Nat), done.Nodup → id ∈ done →
    (complete answers done).filter (·.1 = id) = (answers id).map (id, ·)
  | [], _, h => by simp at h
  | i :: done, hn, h => by
    have hcons : complete answers (i :: done) = (answers i).map (i, ·) ++ complete answers done := by simp [complete]
    rw [hcons, List.filter_append]
    rw [List.nodup_cons] at hn
    by_cases hi : i = id
    · subst hi
      have h1 : (complete answers done).filter (·.1 = i) = [] := by
        rw [List.filter_eq_nil_iff]
        intro p hp he
        have he := of_decide_eq_true he
        simp only [complete, List.mem_flatMap, List.mem_map] at hp
        obtain ⟨j, hj, m, _, rfl⟩ := hp
        exact hn.1 (he ▸ hj)
      rw [h1, List.append_nil, List.filter_eq_self]
      intro p hp
      simp only [List.mem_map] at hp
      obtain ⟨m, _, rfl⟩ := hp
      simp
    · have h1 : ((answers i).map (i, ·)).filter (·.1 = id) = [] := by
        rw [List.filter_eq_nil_iff]
        intro p hp
        simp only [List.mem_map] at hp
        obtain ⟨m, _, rfl⟩ := hp
        simpa using hi
      rw [h1, List.nil_append]
      exact complete_filter answers done hn.2 ((List.mem_cons.1 h).resolve_left (fun h => hi h.symm))

/-- What a request that got its own answer reports. -/
def outcome (answer : List Msg) : Except Err Unit :=
  if answer.getLast? = some .ack then .ok () else .error .responseError

/-- A request `c` is under way, and took `p` so far. -/
def Busy (prog : Nat → Req) (answers : Nat → List Msg) (evs : List Ev) (s : State) (done : List Nat) (c : Nat)
    (p : List Msg) : Prop :=
  starts evs = done ++ [c] ∧ s.got = complete answers done ++ p.map (c, ·) ∧ (∀ m ∈ p, (prog c).want m = true)

/-- The invariant for requests made one at a time. -/
def AloneInv (prog : Nat → Req) (answers : Nat → List Msg) (evs : List Ev) (s : State) : Prop :=
  s.got.map (·.2) ++ s.queue = arrivals evs ∧
  ∃ done, s.finished = done.map (fun id => (id, outcome (answers id))) ∧
    ((starts evs = done ∧ s.got = complete answers done ∧ s.waiting = [] ∧ s.woken = []) ∨
     ∃ c p, Busy prog answers evs s done c p ∧
      ((s.waiting = [c] ∧ s.woken = [] ∧ s.queue = []) ∨ (s.waiting = [] ∧ s.woken = [c] ∧ s.queue ≠ [])))

theorem read_inv {prog : Nat → Req} {answers : Nat → List Msg} {evs : List Ev} {s : State} {done : List Nat} {c : Nat}
    {p : List Msg} (hpr : Proper (prog c) (answers c)) (ho : arrivals evs <+: (starts evs).flatMap answers)
    (hq : s.got.map (·.2) ++ s.queue = arrivals evs)
    (hf : s.finished = done.map (fun id => (id, outcome (answers id)))) (hb : Busy prog answers evs s done c p)
    (hw : s.waiting = []) (hk : s.woken = []) : AloneInv prog answers evs (s.read (prog c).want c) := by
  obtain ⟨queue, waiting, woken, sent, got, finished, cancelled⟩ := s
  obtain ⟨hb1, hb2, hb3⟩ := hb
  simp only at hb2 hf hw hk hq
  subst hw hk
  obtain ⟨replies, last, ha, hr, hl⟩ := hpr
  have hpre : p ++ queue <+: replies ++ [last] := by
    rw [← hq, hb1, hb2, List.map_append, complete_snd, List.flatMap_append] at ho
    simpa [Function.comp_def, ha] using ho
  rcases List.prefix_concat_iff.1 hpre with heq | hpre
  · rcases List.eq_nil_or_concat queue with rfl | ⟨q0, l, rfl⟩
    · exfalso
      rw [List.append_nil] at heq
      have := hb3 last (by rw [heq]; simp)
      rw [hl] at this
      cases this
    · rw [List.concat_eq_append] at *
      rw [← List.append_assoc] at heq
      obtain ⟨heq', hll⟩ := List.append_inj' heq rfl
      clear heq
      have heq := heq'
      clear heq'
      injection hll with hll
      subst hll
      have hq0 : ∀ m ∈ q0, (prog c).want m = true := fun m hm => hr m (by rw [← heq]; simp [hm])
      have hans : answers c = p ++ (q0 ++ [l]) := by rw [ha, ← heq, List.append_assoc]
      simp only [State.read, take_end hl q0 hq0]
      refine ⟨?_, done ++ [c], ?_, Or.inl ⟨hb1, ?_, rfl, rfl⟩⟩
      · rw [← hq]; simp [Function.comp_def]
      · have : verdict l = outcome (answers c) := by
          rw [verdict_eq, outcome, hans, ← List.append_assoc, List.getLast?_concat]
          simp
        simp [hf, this]
      · simp [hb2, complete, hans]
  · have hq0 : ∀ m ∈ queue, (prog c).want m = true := fun m hm => hr m (hpre.subset (by simp [hm]))
    simp only [State.read, take_all queue hq0]
    refine ⟨?_, done, hf, Or.inr ⟨c, p ++ queue, ⟨hb1, ?_, ?_⟩, Or.inl ⟨rfl, rfl, rfl⟩⟩⟩
    · rw [← hq]; simp [Function.comp_def]
    · simp [hb2]
    · intro m hm
      rcases List.mem_append.1 hm with hm | hm
      · exact hb3 m hm
      · exact hq0 m hm

theorem aloneInv (prog : Nat → Req) (answers : Nat → List Msg) (hp : ∀ id, Proper (prog id) (answers id))
    (evs : List Ev) (hc : Calm evs) (ho : InOrder answers evs) (hf : AtStart prog Alone evs) :
    AloneInv prog answers evs (run prog evs) := by
  induction evs using List.reverseRecOn with
  | nil => exact ⟨rfl, [], rfl, Or.inl ⟨rfl, rfl, rfl, rfl⟩⟩
  | append_singleton evs e ih =>
    have hi := ih hc.append ho.append hf.append
    have hself := ho.self
    rw [run_append]
    cases e with
    | expire id => exact absurd rfl (hc.2 _ (by simp) id).1
    | cancel id => exact absurd rfl (hc.2 _ (by simp) id).2
    | start id =>
      obtain ⟨hk, hw⟩ := hf.last
      generalize run prog evs = s at *
      obtain ⟨hq, done, hfin, h⟩ := hi
      rcases h with ⟨h1, h2, _, _⟩ | ⟨c, p, _, ⟨h, _⟩ | ⟨_, h, _⟩⟩
      · refine read_inv (done := done) (p := []) (hp id) hself (by simpa using hq) hfin ⟨?_, ?_, by simp⟩ hw hk
        · simp [h1]
        · simp [h2]
      · rw [hw] at h; cases h
      · rw [hk] at h; cases h
    | arrive m =>
      generalize run prog evs = s at *
      obtain ⟨queue, waiting, woken, sent, got, finished, cancelled⟩ := s
      obtain ⟨hq, done, hfin, h⟩ := hi
      simp only at hq hfin h
      simp only [starts_arrive, arrivals_arrive] at hself
      rcases h with ⟨h1, h2, _, _⟩ | ⟨c, p, ⟨hb1, hb2, hb3⟩, ⟨hw, hk, hqq⟩ | ⟨hw, hk, hqq⟩⟩
      · exfalso
        rw [← hq, h1, h2, complete_snd] at hself
        have := hself.length_le
        simp at this
        omega
      · subst hw hk hqq
        refine ⟨?_, done, hfin, Or.inr ⟨c, p, ⟨?_, hb2, hb3⟩, Or.inr ⟨rfl, rfl, ?_⟩⟩⟩
        · simpa [State.step, State.wakeup] using hq
        · simpa using hb1
        · simp [State.step, State.wakeup]
      · subst hw hk
        refine ⟨?_, done, hfin, Or.inr ⟨c, p, ⟨?_, hb2, hb3⟩, Or.inr ⟨rfl, rfl, ?_⟩⟩⟩
        · simp [State.step, State.wakeup, ← hq]
        · simpa using hb1
        · simp [State.step, State.wakeup]
    | resume =>
      generalize run prog evs = s at *
      obtain ⟨queue, waiting, woken, sent, got, finished, cancelled⟩ := s
      obtain ⟨hq, done, hfin, h⟩ := hi
      simp only at hq hfin h
      rcases h with ⟨h1, h2, hw, hk⟩ | ⟨c, p, ⟨hb1, hb2, hb3⟩, ⟨hw, hk, hqq⟩ | ⟨hw, hk, hqq⟩⟩
      · subst hw hk
        exact ⟨by simpa [State.step] using hq, done, hfin, Or.inl ⟨by simpa using h1, h2, rfl, rfl⟩⟩
      · subst hw hk
        exact ⟨by simpa [State.step] using hq, done, hfin, Or.inr ⟨c, p, ⟨by simpa using hb1, hb2, hb3⟩, Or.inl ⟨rfl, rfl, hqq⟩⟩⟩
      · subst hw hk
        exact read_inv (done := done) (p := p) (hp c) hself (by simpa using hq) hfin ⟨by simpa using hb1, hb2, hb3⟩ rfl rfl

end Concurrent
