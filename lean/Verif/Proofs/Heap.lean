import Mathlib.Tactic.ByContra
import Verif.Model.Heap

/-! # Helper lemmas on message objects -/

open Py

namespace Heap

/-- Every reference is to a list that exists; generic messages are not tuples. -/
def Bounded (s : State) : Prop :=
  (∀ r ∈ s.user, r < s.lists.length) ∧ (∀ (k r : Nat), s.msgs[k]? = some (.generic r) → r < s.lists.length) ∧
  ∀ (k : Nat) (m : Msg), s.msgs[k]? = some (.fixed m) → ∀ ts, m ≠ .generic ts

theorem Bounded.init : Bounded State.init := ⟨by simp [State.init], by simp [State.init], by simp [State.init]⟩

theorem getElem?_concat {α : Type} (l : List α) (a b : α) (k : Nat) (h : (l ++ [a])[k]? = some b) :
    l[k]? = some b ∨ (k = l.length ∧ a = b) := by
  rw [List.getElem?_append] at h
  split at h
  · exact Or.inl h
  · right
    rename_i hk
    have : k - l.length = 0 := by
      by_contra hne
      obtain ⟨n, hn⟩ := Nat.exists_eq_succ_of_ne_zero hne
      rw [hn] at h
      simp at h
    rw [this] at h
    refine ⟨by omega, by simpa using h⟩

theorem Bounded.fresh {s : State} (h : Bounded s) (m : Msg) : Bounded (s.fresh m) := by
  obtain ⟨h1, h2, h3⟩ := h
  cases m
  case generic ts =>
    refine ⟨fun r hr => ?_, fun k r hk => ?_, fun k m hk => ?_⟩
    · have := h1 r hr; simp [State.fresh]; omega
    · rcases getElem?_concat _ _ _ _ hk with hk | ⟨_, hk⟩
      · have := h2 k r hk; simp [State.fresh]; omega
      · injection hk with hk; simp [State.fresh]; omega
    · rcases getElem?_concat _ _ _ _ hk with hk | ⟨_, hk⟩
      · exact h3 k m hk
      · cases hk
  all_goals
    refine ⟨h1, fun k r hk => ?_, fun k m hk => ?_⟩
    · rcases getElem?_concat _ _ _ _ hk with hk | ⟨_, hk⟩
      · exact h2 k r hk
      · cases hk
    · rcases getElem?_concat _ _ _ _ hk with hk | ⟨_, hk⟩
      · exact h3 k m hk
      · injection hk with hk; subst hk; exact fun ts => nofun

theorem Bounded.addList {s : State} (h : Bounded s) (ts : List Str) :
    Bounded { s with lists := s.lists ++ [ts], user := s.user ++ [s.lists.length] } := by
  obtain ⟨h1, h2, h3⟩ := h
  refine ⟨fun r hr => ?_, fun k r hk => ?_, h3⟩
  · simp at hr ⊢
    rcases hr with hr | hr
    · have := h1 r hr; omega
    · omega
  · have := h2 k r hk; simp; omega

theorem Bounded.addMsg {s : State} (h : Bounded s) {r : Nat} (hr : r ∈ s.user) :
    Bounded { s with msgs := s.msgs ++ [.generic r] } := by
  obtain ⟨h1, h2, h3⟩ := h
  refine ⟨h1, fun k r' hk => ?_, fun k m hk => ?_⟩
  · rcases getElem?_concat _ _ _ _ hk with hk | ⟨_, hk⟩
    · exact h2 k r' hk
    · injection hk with hk; subst hk; exact h1 _ hr
  · rcases getElem?_concat _ _ _ _ hk with hk | ⟨_, hk⟩
    · exact h3 k m hk
    · cases hk

theorem Bounded.step {s : State} (h : Bounded s) (op : Op) : Bounded (s.step op) := by
  cases op with
  | newList ts => exact h.addList ts
  | change r ts =>
    simp only [State.step]
    split
    · obtain ⟨h1, h2, h3⟩ := h
      exact ⟨by simpa using h1, by simpa using h2, h3⟩
    · exact h
  | build r =>
    simp only [State.step]
    split
    · rename_i hr; exact h.addMsg hr
    · exact h
  | parseList r =>
    simp only [State.step]
    split
    · rename_i hr
      split
      · exact h.addMsg hr
      · exact h
    · exact h
  | make m => exact h.fresh m
  | parse text =>
    simp only [State.step]
    split
    · exact h.fresh _
    · exact h
  | tags k =>
    simp only [State.step]
    split
    · exact h.addList _
    · exact h

theorem Bounded.run {s : State} : ∀ (ops : List Op), Bounded s → Bounded (s.run ops)
  | [], h => h
  | op :: ops, h => Bounded.run ops (h.step op)

/-- Message `k` says `m` and the user has no reference to its list. -/
def Safe (s : State) (k : Nat) (m : Msg) : Prop :=
  s.msgs[k]? = some (.fixed m) ∨
  ∃ r ts, s.msgs[k]? = some (.generic r) ∧ m = .generic ts ∧ s.lists[r]? = some ts ∧ r ∉ s.user

theorem Safe.message {s : State} {k : Nat} {m : Msg} (h : Safe s k m) : s.message k = some m := by
  rcases h with h | ⟨r, ts, h, rfl, hl, _⟩
  · simp [State.message, h]
  · simp [State.message, h, hl]

theorem getElem?_append_some {α : Type} {l : List α} {k : Nat} {a : α} (h : l[k]? = some a) (t : List α) :
    (l ++ t)[k]? = some a := by
  rw [List.getElem?_append_left (List.getElem?_eq_some_iff.1 h).1]
  exact h

theorem Safe.weaken {s : State} {k : Nat} {m : Msg} (h : Safe s k m) (ls : List (List Str)) (us : List Nat)
    (ms : List Obj) (hu : ∀ r ∈ us, s.lists.length ≤ r) :
    Safe ⟨s.lists ++ ls, s.user ++ us, s.msgs ++ ms⟩ k m := by
  rcases h with h | ⟨r, ts, h, hm, hl, hr⟩
  · exact Or.inl (getElem?_append_some h _)
  · refine Or.inr ⟨r, ts, getElem?_append_some h _, hm, getElem?_append_some hl _, ?_⟩
    have hlt := (List.getElem?_eq_some_iff.1 hl).1
    intro hmem
    rcases List.mem_append.1 hmem with hmem | hmem
    · exact hr hmem
    · have := hu r hmem; omega

theorem Safe.fresh {s : State} {k : Nat} {m : Msg} (h : Safe s k m) (m' : Msg) : Safe (s.fresh m') k m := by
  cases m'
  case generic ts => simpa [State.fresh] using h.weaken [ts] [] [.generic s.lists.length] (by simp)
  all_goals
    rcases s with ⟨lists, user, msgs⟩
    simpa [State.fresh] using h.weaken [] [] [.fixed _] (by simp)

theorem Safe.step {s : State} {k : Nat} {m : Msg} (h : Safe s k m) (op : Op) : Safe (s.step op) k m := by
  cases op with
  | newList ts => simpa [State.step] using h.weaken [ts] [s.lists.length] [] (by simp)
  | change r ts =>
    simp only [State.step]
    split
    · rename_i hr
      rcases h with h | ⟨r', ts', h, hm, hl, hr'⟩
      · exact Or.inl h
      · refine Or.inr ⟨r', ts', h, hm, ?_, hr'⟩
        rw [List.getElem?_set_ne (fun he : r = r' => hr' (he ▸ hr))]
        exact hl
    · exact h
  | build r =>
    simp only [State.step]
    split
    · simpa using h.weaken [] [] [.generic r] (by simp)
    · exact h
  | parseList r =>
    simp only [State.step]
    split
    · split
      · simpa using h.weaken [] [] [.generic r] (by simp)
      · exact h
    · exact h
  | make m => exact h.fresh m
  | parse text =>
    simp only [State.step]
    split
    · exact h.fresh _
    · exact h
  | tags j =>
    simp only [State.step]
    split
    · simpa using h.weaken [_] [s.lists.length] [] (by simp)
    · exact h

theorem Safe.run {s : State} {k : Nat} {m : Msg} : ∀ (ops : List Op), Safe s k m → (s.run ops).message k = some m
  | [], h => h.message
  | op :: ops, h => Safe.run ops (h.step op)

theorem fresh_safe {s : State} (hb : Bounded s) (m : Msg) : Safe (s.fresh m) s.msgs.length m := by
  cases m
  case generic ts =>
    refine Or.inr ⟨s.lists.length, ts, by simp [State.fresh], rfl, by simp [State.fresh], fun hr => ?_⟩
    exact absurd (hb.1 _ hr) (by simp)
  all_goals exact Or.inl (by simp [State.fresh])

theorem tags_step {s : State} (hb : Bounded s) {k : Nat} {ts : List Str} (hk : s.message k = some (.generic ts)) :
    s.step (.tags k) = ⟨s.lists ++ [ts], s.user ++ [s.lists.length], s.msgs⟩ := by
  simp only [State.message] at hk
  simp only [State.step]
  split at hk
  · rename_i m hm
    injection hk with hk
    exact absurd hk (hb.2.2 _ _ hm ts)
  · rename_i r hm
    injection hk with hk
    injection hk with hk
    simp only [hm, hk]
  · cases hk

theorem change_copy {s : State} (hb : Bounded s) (ts new : List Str) (j : Nat) :
    (State.step ⟨s.lists ++ [ts], s.user ++ [s.lists.length], s.msgs⟩ (.change s.lists.length new)).message j =
      s.message j := by
  have hstep : State.step ⟨s.lists ++ [ts], s.user ++ [s.lists.length], s.msgs⟩ (.change s.lists.length new) =
      ⟨s.lists ++ [new], s.user ++ [s.lists.length], s.msgs⟩ := by
    simp [State.step]
  rw [hstep]
  simp only [State.message]
  cases hm : s.msgs[j]? with
  | none => rfl
  | some o =>
    cases o with
    | fixed m => rfl
    | generic r =>
      have hlt := hb.2.1 _ _ hm
      simp [List.getElem?_append_left hlt]

end Heap
