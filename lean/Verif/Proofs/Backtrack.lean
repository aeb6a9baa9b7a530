import Verif.Model.Cost
import Verif.Proofs.Regex
import Mathlib.Tactic.Ring
import Mathlib.Tactic.Linarith

/-!
# The backtracking matcher

It decides the same language as the derivative matcher; its cost is that of a walk over all attempts.
-/

open Py Spec

namespace Py.Re

/-! ## Correctness -/

theorem orElse_true (a b : Res) : (orElse a b).1 = true ↔ a.1 = true ∨ b.1 = true := by
  unfold orElse
  by_cases h : a.1 = true <;> simp [h]

theorem loop_iff {a : Re} (ih : ∀ s k, (run a s k).1 = true ↔ ∃ u t, s = u ++ t ∧ Lang a u ∧ (k t).1 = true) (n : Nat) :
    ∀ s k, s.length ≤ n → ((loop (run a) (n + 1) s k).1 = true ↔ ∃ u t, s = u ++ t ∧ Lang (star a) u ∧ (k t).1 = true) := by
  induction n with
  | zero =>
    intro s k hs
    obtain rfl : s = [] := List.length_eq_zero_iff.1 (by omega)
    rw [loop, orElse_true, ih]
    constructor
    · rintro (⟨u, t, h1, h2, h3⟩ | h)
      · obtain ⟨rfl, rfl⟩ := List.append_eq_nil_iff.1 h1.symm
        exact ⟨[], [], rfl, .starNil, by simpa using h3⟩
      · exact ⟨[], [], rfl, .starNil, h⟩
    · rintro ⟨u, t, h1, h2, h3⟩
      obtain ⟨rfl, rfl⟩ := List.append_eq_nil_iff.1 h1.symm
      exact .inr h3
  | succ n ihn =>
    intro s k hs
    rw [loop, orElse_true, ih]
    constructor
    · rintro (⟨u, t, h1, h2, h3⟩ | h)
      · by_cases hl : t.length < s.length
        · rw [if_pos hl] at h3
          obtain ⟨v, w, h4, h5, h6⟩ := (ihn t k (by omega)).1 h3
          exact ⟨u ++ v, w, by rw [h1, h4, List.append_assoc], .starCons h2 h5, h6⟩
        · rw [if_neg hl] at h3
          refine ⟨[], t, ?_, .starNil, h3⟩
          have : u.length + t.length = s.length := by rw [h1, List.length_append]
          obtain rfl : u = [] := List.length_eq_zero_iff.1 (by omega)
          exact h1
      · exact ⟨[], s, rfl, .starNil, h⟩
    · rintro ⟨u, t, h1, h2, h3⟩
      obtain ⟨ws, h4, rfl⟩ := (lang_star a u).1 h2
      clear h2
      induction ws with
      | nil => exact .inr (by simpa [h1] using h3)
      | cons w ws ihw =>
        by_cases hw : w = []
        · subst hw
          exact ihw (fun w hw => h4 w (by simp [hw])) (by simpa using h1)
        · left
          refine ⟨w, ws.flatten ++ t, by simpa using h1, h4 w (by simp), ?_⟩
          have hl : 0 < w.length := List.length_pos_iff.2 hw
          have hl' : s.length = w.length + (ws.flatten ++ t).length := by rw [h1]; simp
          rw [if_pos (by omega)]
          exact (ihn _ k (by omega)).2 ⟨ws.flatten, t, rfl, (lang_star a _).2 ⟨ws, fun w hw => h4 w (by simp [hw]), rfl⟩, h3⟩

/-- The backtracking matcher finds a match exactly if there is one. -/
theorem run_iff (r : Re) : ∀ s k, (run r s k).1 = true ↔ ∃ u t, s = u ++ t ∧ Lang r u ∧ (k t).1 = true := by
  induction r with
  | empty =>
    intro s k
    simp only [run]
    constructor
    · intro h; cases h
    · rintro ⟨_, _, _, h, _⟩; cases h
  | eps =>
    intro s k
    simp only [run]
    constructor
    · intro h; exact ⟨[], s, rfl, .eps, h⟩
    · rintro ⟨u, t, h1, h2, h3⟩
      cases h2
      rw [h1]; exact h3
  | cls p =>
    intro s k
    rcases s with _ | ⟨c, s⟩
    · simp only [run]
      constructor
      · intro h; cases h
      · rintro ⟨u, t, h1, h2, h3⟩
        cases h2; cases h1
    · simp only [run]
      by_cases hp : p c = true
      · rw [if_pos hp]
        constructor
        · intro h; exact ⟨[c], s, rfl, .cls hp, h⟩
        · rintro ⟨u, t, h1, h2, h3⟩
          cases h2
          simp only [List.cons_append, List.nil_append, List.cons.injEq] at h1
          rw [h1.2]; exact h3
      · rw [if_neg hp]
        constructor
        · intro h; cases h
        · rintro ⟨u, t, h1, h2, h3⟩
          cases h2 with
          | cls h =>
            simp only [List.cons_append, List.nil_append, List.cons.injEq] at h1
            rw [h1.1] at hp; exact absurd h hp
  | seq a b iha ihb =>
    intro s k
    simp only [run]
    rw [iha]
    constructor
    · rintro ⟨u, t, h1, h2, h3⟩
      obtain ⟨v, w, h4, h5, h6⟩ := (ihb _ _).1 h3
      exact ⟨u ++ v, w, by rw [h1, h4, List.append_assoc], .seq h2 h5, h6⟩
    · rintro ⟨u, t, h1, h2, h3⟩
      cases h2 with
      | seq h4 h5 => exact ⟨_, _, by rw [h1, List.append_assoc], h4, (ihb _ _).2 ⟨_, _, rfl, h5, h3⟩⟩
  | alt a b iha ihb =>
    intro s k
    simp only [run]
    rw [orElse_true, iha, ihb]
    constructor
    · rintro (⟨u, t, h1, h2, h3⟩ | ⟨u, t, h1, h2, h3⟩)
      · exact ⟨u, t, h1, .altL h2, h3⟩
      · exact ⟨u, t, h1, .altR h2, h3⟩
    · rintro ⟨u, t, h1, h2, h3⟩
      cases h2 with
      | altL h => exact .inl ⟨u, t, h1, h, h3⟩
      | altR h => exact .inr ⟨u, t, h1, h, h3⟩
  | star a ih =>
    intro s k
    simp only [run]
    exact loop_iff ih s.length s k le_rfl

/-- The backtracking matcher and the derivative matcher agree. -/
theorem search_eq (r : Re) (s : Str) : (search r s).1 = pyMatch r s := by
  rw [Bool.eq_iff_iff, search, run_iff]
  unfold pyMatch atEnd
  rw [Bool.or_eq_true, accepts_iff]
  constructor
  · rintro ⟨u, t, rfl, h2, h3⟩
    rcases of_decide_eq_true h3 with rfl | rfl
    · exact .inl (by simpa using h2)
    · right
      simpa [accepts_iff] using h2
  · rintro (h | h)
    · exact ⟨s, [], by simp, h, rfl⟩
    · split at h
      · rename_i hl
        obtain ⟨u, rfl⟩ := List.getLast?_eq_some_iff.1 hl
        exact ⟨u, ['\n'], rfl, by simpa [accepts_iff] using h, rfl⟩
      · cases h

/-! ## Cost -/

/-- Where the rest of the pattern is tried by a repetition, in order, if it never matches. -/
def loopEnds (body : Str → List Str) : Nat → Str → List Str
  | 0, s => [s]
  | n + 1, s => (body s).flatMap (fun t => if t.length < s.length then loopEnds body n t else [t]) ++ [s]

/-- Where the rest of the pattern is tried after `r`, in order, if it never matches. -/
def ends : Re → Str → List Str
  | empty, _ => []
  | eps, s => [s]
  | cls p, s =>
    match s with
    | [] => []
    | c :: s => if p c then [s] else []
  | seq a b, s => (ends a s).flatMap (ends b)
  | alt a b, s => ends a s ++ ends b s
  | star a, s => loopEnds (ends a) (s.length + 1) s

/-- Character tests within a repetition if the rest never matches. -/
def loopBase (body : Str → List Str) (cost : Str → Nat) : Nat → Str → Nat
  | 0, _ => 0
  | n + 1, s => cost s + ((body s).map fun t => if t.length < s.length then loopBase body cost n t else 0).sum

/-- Character tests within `r` if the rest never matches. -/
def base : Re → Str → Nat
  | empty, _ => 0
  | eps, _ => 0
  | cls _, _ => 1
  | seq a b, s => base a s + ((ends a s).map (base b)).sum
  | alt a b, s => base a s + base b s
  | star a, s => loopBase (ends a) (base a) (s.length + 1) s

theorem sum_map_add {α : Type} (l : List α) (f g : α → Nat) : (l.map fun x => f x + g x).sum = (l.map f).sum + (l.map g).sum := by
  induction l with
  | nil => rfl
  | cons x l ih => simp only [List.map_cons, List.sum_cons, ih]; omega

theorem sum_flatMap {α β : Type} (l : List α) (f : α → List β) (g : β → Nat) :
    ((l.flatMap f).map g).sum = (l.map fun x => ((f x).map g).sum).sum := by
  induction l with
  | nil => rfl
  | cons x l ih => simp [ih]

theorem sum_le {α : Type} (l : List α) (f g : α → Nat) (h : ∀ x ∈ l, f x ≤ g x) : (l.map f).sum ≤ (l.map g).sum := by
  induction l with
  | nil => simp
  | cons x l ih =>
    simp only [List.map_cons, List.sum_cons]
    have := h x (by simp)
    have := ih fun y hy => h y (by simp [hy])
    omega

theorem sum_eq {α : Type} (l : List α) (f g : α → Nat) (h : ∀ x ∈ l, f x = g x) : (l.map f).sum = (l.map g).sum := by
  rw [List.map_congr_left h]

/-- Cost of a body: at most the walk over all its ends, and exactly that if nothing matches. -/
def Walks (m : (Str → Res) → Res) (es : List Str) (b : Nat) : Prop :=
  ∀ k, (m k).2 ≤ b + (es.map fun t => (k t).2).sum ∧
    ((m k).1 = false → (∀ t ∈ es, (k t).1 = false) ∧ (m k).2 = b + (es.map fun t => (k t).2).sum)

theorem walks_orElse {m m' : (Str → Res) → Res} {es es' : List Str} {b b' : Nat} (h : Walks m es b) (h' : Walks m' es' b') :
    Walks (fun k => orElse (m k) (m' k)) (es ++ es') (b + b') := by
  intro k
  obtain ⟨h1, h2⟩ := h k
  obtain ⟨h3, h4⟩ := h' k
  rw [List.map_append, List.sum_append]
  dsimp only
  unfold orElse
  constructor
  · split
    · omega
    · dsimp only; omega
  · split
    · rename_i hm
      intro hf; rw [hf] at hm; cases hm
    · rename_i hm
      intro hf
      obtain ⟨g1, g2⟩ := h2 (by simpa using hm)
      obtain ⟨g3, g4⟩ := h4 hf
      refine ⟨fun t ht => ?_, by dsimp only; omega⟩
      rcases List.mem_append.1 ht with ht | ht
      · exact g1 t ht
      · exact g3 t ht

theorem walks_bind {m : (Str → Res) → Res} {n : Str → (Str → Res) → Res} {es : List Str} {b : Nat} {f : Str → List Str}
    {g : Str → Nat} (h : Walks m es b) (h' : ∀ t ∈ es, Walks (n t) (f t) (g t)) :
    Walks (fun k => m fun t => n t k) (es.flatMap f) (b + (es.map g).sum) := by
  intro k
  obtain ⟨h1, h2⟩ := h fun t => n t k
  rw [sum_flatMap]
  have le : (es.map fun t => (n t k).2).sum ≤ (es.map fun t => g t + ((f t).map fun t => (k t).2).sum).sum :=
    sum_le _ _ _ fun t ht => (h' t ht k).1
  rw [sum_map_add] at le
  dsimp only
  constructor
  · omega
  · intro hf
    obtain ⟨g1, g2⟩ := h2 hf
    have hall := fun t ht => (h' t ht k).2 (g1 t ht)
    refine ⟨fun t ht => ?_, ?_⟩
    · obtain ⟨u, hu, ht⟩ := List.mem_flatMap.1 ht
      exact (hall u hu).1 t ht
    · rw [g2, sum_eq _ _ _ fun t ht => (hall t ht).2, sum_map_add]
      omega

theorem walks_self (s : Str) : Walks (fun k => k s) [s] 0 := by
  intro k
  simp

theorem walks_loop {m : Str → (Str → Res) → Res} {f : Str → List Str} {g : Str → Nat} (h : ∀ s, Walks (m s) (f s) (g s))
    (n : Nat) : ∀ s, Walks (loop m n s) (loopEnds f n s) (loopBase f g n s) := by
  induction n with
  | zero => intro s; exact walks_self s
  | succ n ih =>
    intro s
    have step : Walks (fun k => m s fun t => if t.length < s.length then loop m n t k else k t)
        ((f s).flatMap fun t => if t.length < s.length then loopEnds f n t else [t])
        (g s + ((f s).map fun t => if t.length < s.length then loopBase f g n t else 0).sum) := by
      refine walks_bind (n := fun t k => if t.length < s.length then loop m n t k else k t) (h s) fun t _ => ?_
      by_cases hl : t.length < s.length
      · simp only [if_pos hl]; exact ih t
      · simp only [if_neg hl]; exact walks_self t
    have := walks_orElse step (walks_self s)
    exact this

/-- Cost of the backtracking matcher. -/
theorem run_walks (r : Re) : ∀ s, Walks (run r s) (ends r s) (base r s) := by
  induction r with
  | empty => intro s k; simp [run, ends, base]
  | eps => intro s; exact walks_self s
  | cls p =>
    intro s
    rcases s with _ | ⟨c, s⟩
    · intro k; simp [run, ends, base]
    · intro k
      by_cases hp : p c = true
      · simp only [run, ends, base, hp, if_true, List.map_cons, List.map_nil, List.sum_cons, List.sum_nil, List.mem_singleton]
        exact ⟨by omega, fun h => ⟨fun t ht => by rw [ht]; exact h, by omega⟩⟩
      · simp [run, ends, base, hp]
  | seq a b iha ihb => intro s; exact walks_bind (n := run b) (iha s) fun t _ => ihb t
  | alt a b iha ihb => intro s; exact walks_orElse (iha s) (ihb s)
  | star a ih => intro s; exact walks_loop ih _ s

/-- Ends are not longer than the text. -/
theorem loopEnds_length {f : Str → List Str} (h : ∀ s, ∀ t ∈ f s, t.length ≤ s.length) (n : Nat) :
    ∀ s, ∀ t ∈ loopEnds f n s, t.length ≤ s.length := by
  induction n with
  | zero => intro s t ht; rw [loopEnds, List.mem_singleton] at ht; rw [ht]
  | succ n ih =>
    intro s t ht
    rw [loopEnds, List.mem_append, List.mem_flatMap, List.mem_singleton] at ht
    rcases ht with ⟨u, hu, ht⟩ | rfl
    · have := h s u hu
      split at ht
      · exact (ih u t ht).trans this
      · rw [List.mem_singleton] at ht; rw [ht]; exact this
    · exact le_rfl

theorem ends_length (r : Re) : ∀ s, ∀ t ∈ ends r s, t.length ≤ s.length := by
  induction r with
  | empty => intro s t ht; simp [ends] at ht
  | eps => intro s t ht; simp [ends] at ht; rw [ht]
  | cls p =>
    intro s t ht
    rcases s with _ | ⟨c, s⟩
    · simp [ends] at ht
    · simp only [ends] at ht
      split at ht
      · rw [List.mem_singleton] at ht; rw [ht]; simp
      · simp at ht
  | seq a b iha ihb =>
    intro s t ht
    obtain ⟨u, hu, ht⟩ := List.mem_flatMap.1 ht
    exact (ihb u t ht).trans (iha s u hu)
  | alt a b iha ihb =>
    intro s t ht
    rcases List.mem_append.1 ht with h | h
    · exact iha s t h
    · exact ihb s t h
  | star a ih => intro s t ht; exact loopEnds_length ih _ s t ht

/-! ## The exponential case -/

/-- Digits followed by something else. -/
abbrev zeros (n : Nat) : Str := List.replicate n '0' ++ cs!"x##"

theorem zeros_succ (n : Nat) : zeros (n + 1) = '0' :: zeros n := rfl

theorem zeros_length (n : Nat) : (zeros n).length = n + 3 := by simp [zeros]

theorem digits_zeros (f n : Nat) (hf : n < f) : loopEnds (ends MsgRe.digit) f (zeros n) = (List.range (n + 1)).map zeros := by
  induction n generalizing f with
  | zero =>
    obtain ⟨f, rfl⟩ : ∃ g, f = g + 1 := ⟨f - 1, by omega⟩
    rfl
  | succ n ih =>
    obtain ⟨f, rfl⟩ : ∃ g, f = g + 1 := ⟨f - 1, by omega⟩
    rw [loopEnds, zeros_succ]
    have : ends MsgRe.digit ('0' :: zeros n) = [zeros n] := rfl
    rw [this, List.flatMap_cons, List.flatMap_nil, if_pos (by simp), ih f (by omega), List.append_nil,
      List.range_succ (n := n + 1), List.map_append]
    rfl

theorem group_zeros (n : Nat) :
    ends (seq MsgRe.digits (seq MsgRe.params (opt (chr '*')))) (zeros n) = (List.range (n + 1)).map zeros := by
  have h1 : ends MsgRe.digits (zeros n) = (List.range (n + 1)).map zeros :=
    digits_zeros _ n (by rw [zeros_length]; omega)
  have h2 : ∀ j, ends (seq MsgRe.params (opt (chr '*'))) (zeros j) = [zeros j] := by
    intro j
    cases j <;> rfl
  change (ends MsgRe.digits (zeros n)).flatMap (ends (seq MsgRe.params (opt (chr '*')))) = _
  rw [h1, List.flatMap_map]
  simp only [h2]
  induction n + 1 with
  | zero => rfl
  | succ m ih => rw [List.range_succ, List.flatMap_append, List.map_append]; rw [ih]; rfl

theorem sum_map_range_le (n : Nat) (f : Nat → Nat) (h : ∀ j < n, 2 ^ j ≤ f j) : 2 ^ n ≤ ((List.range n).map f).sum + 1 := by
  induction n with
  | zero => simp
  | succ n ih =>
    rw [List.range_succ, List.map_append, List.sum_append, pow_succ]
    have := ih fun j hj => h j (by omega)
    have := h n (by omega)
    simp only [List.map_cons, List.map_nil, List.sum_cons, List.sum_nil]
    omega

theorem rounds_zeros (f n : Nat) (hf : n < f) :
    2 ^ n ≤ (loopEnds (ends (seq MsgRe.digits (seq MsgRe.params (opt (chr '*'))))) f (zeros n)).length := by
  induction n using Nat.strong_induction_on generalizing f with
  | _ n ih =>
    obtain ⟨f, rfl⟩ : ∃ g, f = g + 1 := ⟨f - 1, by omega⟩
    rw [loopEnds, group_zeros, List.length_append, List.length_flatMap, List.map_map, List.length_singleton, List.range_succ,
      List.map_append, List.sum_append]
    refine (sum_map_range_le n _ fun j hj => ?_).trans (Nat.add_le_add_right (Nat.le_add_right _ _) 1)
    rw [Function.comp_apply, if_pos (by rw [zeros_length, zeros_length]; omega)]
    exact ih j hj f (by omega)

/-! ## Frames are matched in linear time -/

/-- The repeated part of the generic pattern. -/
def group : Re := seq MsgRe.digits (seq MsgRe.params (opt (chr '*')))

/-- What follows the repetition. -/
def close (t : Str) : Res := run MsgRe.suffix t atEnd

theorem hash_digit : isDigit '#' = false := rfl
theorem star_digit : isDigit '*' = false := rfl

/-- One round of parameters. -/
abbrev param : Re := seq (chr '#') MsgRe.digits

theorem params_two {κ : Str → Res} {c0 c1 c2 : Nat} {b : Bool} (h0 : κ [] = (false, c0)) (h1 : κ ['#'] = (false, c1))
    (h2 : κ ['#', '#'] = (b, c2)) (f : Nat) :
    loop (run param) (f + 3) ['#', '#'] (fun t => run (opt (chr '*')) t κ) = (b, 8 + c0 + c1 + c2) := by
  simp [loop, run, MsgRe.digits, opt, chr, MsgRe.digit, orElse, hash_digit, h0, h1, h2]
  omega

theorem group_nil {κ : Str → Res} {c0 : Nat} (h0 : κ [] = (false, c0)) : run group [] κ = (false, 3 + c0) := by
  simp [group, loop, run, MsgRe.digits, MsgRe.params, opt, chr, MsgRe.digit, orElse, h0]
  omega

theorem group_one {κ : Str → Res} {c0 c1 : Nat} (h0 : κ [] = (false, c0)) (h1 : κ ['#'] = (false, c1)) :
    run group ['#'] κ = (false, 6 + c0 + c1) := by
  simp [group, loop, run, MsgRe.digits, MsgRe.params, opt, chr, MsgRe.digit, orElse, hash_digit, h0, h1]
  omega

theorem group_two {κ : Str → Res} {c0 c1 c2 : Nat} {b : Bool} (h0 : κ [] = (false, c0)) (h1 : κ ['#'] = (false, c1))
    (h2 : κ ['#', '#'] = (b, c2)) : run group ['#', '#'] κ = (b, 9 + c0 + c1 + c2) := by
  simp [group, loop, run, MsgRe.digits, MsgRe.params, opt, chr, MsgRe.digit, orElse, hash_digit, h0, h1, h2]
  omega

theorem close_nil : close [] = (false, 1) := rfl
theorem close_one : close ['#'] = (false, 2) := rfl
theorem close_two : close ['#', '#'] = (true, 3) := rfl

theorem rounds_nil (n : Nat) : loop (run group) (n + 1) [] close = (false, 5) := by
  rw [loop, group_nil (c0 := 1)]
  · simp [orElse, close_nil]
  · rw [if_neg (by simp), close_nil]

theorem rounds_one (n : Nat) : loop (run group) (n + 2) ['#'] close = (false, 15) := by
  rw [loop, group_one (c0 := 5) (c1 := 2)]
  · simp [orElse, close_one]
  · rw [if_pos (by simp), rounds_nil]
  · rw [if_neg (by simp), close_one]

theorem rounds_two (n : Nat) : loop (run group) (n + 3) ['#', '#'] close = (true, 32) := by
  rw [loop, group_two (c0 := 5) (c1 := 15) (c2 := 3) (b := true)]
  · simp [orElse]
  · rw [if_pos (by simp), rounds_nil]
  · rw [if_pos (by simp), rounds_one]
  · rw [if_neg (by simp), close_two]

/-- Characters of frames. -/
def FrameChars (w : Str) : Prop := ∀ c ∈ w, isDigit c = true ∨ c = '#' ∨ c = '*'

/-- Success within a number of tests. -/
def Within (r : Res) (n : Nat) : Prop := r.1 = true ∧ r.2 ≤ n

theorem within_orElse {a b : Res} {n : Nat} (h : Within a n) : Within (orElse a b) n := by
  unfold orElse
  rw [if_pos h.1]
  exact h

theorem within_fail {b : Res} {n c : Nat} (h : Within b n) : Within (orElse (false, c) b) (c + n) := by
  unfold orElse
  rw [if_neg (by simp)]
  exact ⟨h.1, Nat.add_le_add_left h.2 c⟩

/-- The repetition of digits, followed by a repetition of parameters, an optional star and further rounds. -/
theorem digits_within (w : Str)
    (rounds : ∀ v n, v.length < w.length → FrameChars v → v.length + 2 < n →
      Within (loop (run group) n (v ++ ['#', '#']) close) (3 * v.length + 61))
    (hw : FrameChars w) (b : Nat) (hb : w.length + 1 ≤ b) (hb0 : w = [] → 2 ≤ b) (κ E : Str → Res)
    (hκ : ∀ t, t.length ≤ b → ∃ n, t.length < n ∧ κ t = loop (run group) n t close)
    (hE : ∀ t, t.length ≤ w.length + 2 → ∃ f, t.length < f ∧ E t = loop (run param) f t fun t => run (opt (chr '*')) t κ)
    (f : Nat) (hf : w.length + 2 < f) : Within (loop (run MsgRe.digit) f (w ++ ['#', '#']) E) (3 * w.length + 61) := by
  induction w generalizing f E with
  | nil =>
    obtain ⟨f, rfl⟩ : ∃ g, f = g + 1 := ⟨f - 1, by omega⟩
    have hb := hb0 rfl
    obtain ⟨g, hg, hE⟩ := hE ['#', '#'] (by simp)
    obtain ⟨g, rfl⟩ : ∃ g', g = g' + 3 := ⟨g - 3, by simp at hg; omega⟩
    obtain ⟨n0, hn0, h0⟩ := hκ [] (by simp)
    obtain ⟨n0, rfl⟩ : ∃ g', n0 = g' + 1 := ⟨n0 - 1, by simp at hn0; omega⟩
    obtain ⟨n1, hn1, h1⟩ := hκ ['#'] (by simp; omega)
    obtain ⟨n1, rfl⟩ : ∃ g', n1 = g' + 2 := ⟨n1 - 2, by simp at hn1; omega⟩
    obtain ⟨n2, hn2, h2⟩ := hκ ['#', '#'] (by simpa using hb)
    obtain ⟨n2, rfl⟩ : ∃ g', n2 = g' + 3 := ⟨n2 - 3, by simp at hn2; omega⟩
    rw [rounds_nil] at h0
    rw [rounds_one] at h1
    rw [rounds_two] at h2
    rw [List.nil_append, loop, hE, params_two h0 h1 h2]
    simp [run, MsgRe.digit, hash_digit, orElse, Within]
  | cons c w ih =>
    obtain ⟨f, rfl⟩ : ∃ g, f = g + 1 := ⟨f - 1, by omega⟩
    have hw' : FrameChars w := fun x hx => hw x (by simp [hx])
    have rounds' : ∀ v n, v.length < w.length → FrameChars v → v.length + 2 < n →
        Within (loop (run group) n (v ++ ['#', '#']) close) (3 * v.length + 61) :=
      fun v n hv => rounds v n (by simp; omega)
    have hb' : w.length + 1 ≤ b := by simp at hb; omega
    have hb0' : w = [] → 2 ≤ b := fun _ => by simp at hb; omega
    have hlen : (c :: w).length = w.length + 1 := rfl
    rw [List.cons_append, loop]
    by_cases hc : isDigit c = true
    · -- one more digit
      have h := ih rounds' hw' hb' hb0' E (fun t ht => hE t (by simp; omega)) f (by simp at hf; omega)
      refine within_orElse ?_
      have hok : ∀ k, run MsgRe.digit (c :: (w ++ ['#', '#'])) k = ((k (w ++ ['#', '#'])).1, (k (w ++ ['#', '#'])).2 + 1) :=
        fun k => by simp [run, MsgRe.digit, hc]
      rw [hok, if_pos (by simp)]
      exact ⟨h.1, by have := h.2; simp only [hlen]; omega⟩
    · have hfail : ∀ k, run MsgRe.digit (c :: (w ++ ['#', '#'])) k = (false, 1) := fun k => by
        simp [run, MsgRe.digit, hc]
      rw [hfail]
      obtain ⟨g, hg, hEc⟩ := hE (c :: (w ++ ['#', '#'])) (by simp)
      obtain ⟨g, rfl⟩ : ∃ g', g = g' + 1 := ⟨g - 1, by omega⟩
      rw [hEc, loop]
      rcases (hw c (by simp)).resolve_left hc with rfl | rfl
      · -- one more parameter
        have h := ih rounds' hw' hb' hb0'
          (fun t => if t.length < ('#' :: (w ++ ['#', '#'])).length then
            loop (run param) g t (fun t => run (opt (chr '*')) t κ) else run (opt (chr '*')) t κ)
          (fun t ht => ⟨g, by simp at hg; omega, by rw [if_pos (by simp; omega)]⟩)
          ((w ++ ['#', '#']).length + 1) (by simp)
        have : Within (run param ('#' :: (w ++ ['#', '#'])) fun t =>
            if t.length < ('#' :: (w ++ ['#', '#'])).length then
              loop (run param) g t (fun t => run (opt (chr '*')) t κ) else run (opt (chr '*')) t κ)
            (3 * w.length + 61 + 1) := by
          exact ⟨h.1, Nat.succ_le_succ h.2⟩
        have := within_fail (c := 1) (within_orElse (b := run (opt (chr '*')) ('#' :: (w ++ ['#', '#'])) κ) this)
        exact ⟨this.1, by have := this.2; simp only [hlen]; omega⟩
      · -- a star: next round
        have hp : ∀ k, run param ('*' :: (w ++ ['#', '#'])) k = (false, 1) := fun k => rfl
        rw [hp]
        obtain ⟨n, hn, hκw⟩ := hκ (w ++ ['#', '#']) (by simp at hb ⊢; omega)
        have h := rounds w n (by simp) hw' (by simpa using hn)
        rw [← hκw] at h
        have : Within (run (opt (chr '*')) ('*' :: (w ++ ['#', '#'])) κ) (3 * w.length + 61 + 1) := by
          refine within_orElse (a := ((κ (w ++ ['#', '#'])).1, (κ (w ++ ['#', '#'])).2 + 1)) ?_
          exact ⟨h.1, Nat.succ_le_succ h.2⟩
        have := within_fail (c := 1) (within_fail (c := 1) this)
        exact ⟨this.1, by have := this.2; simp only [hlen]; omega⟩

/-- One round, then further rounds. -/
theorem group_within (w : Str)
    (rounds : ∀ v n, v.length < w.length → FrameChars v → v.length + 2 < n →
      Within (loop (run group) n (v ++ ['#', '#']) close) (3 * v.length + 61))
    (hw : FrameChars w) (b : Nat) (hb : w.length + 1 ≤ b) (hb0 : w = [] → 2 ≤ b) (κ : Str → Res)
    (hκ : ∀ t, t.length ≤ b → ∃ n, t.length < n ∧ κ t = loop (run group) n t close) :
    Within (run group (w ++ ['#', '#']) κ) (3 * w.length + 61) :=
  digits_within w rounds hw b hb hb0 κ _ hκ (fun t _ => ⟨t.length + 1, by omega, rfl⟩) _ (by simp)

theorem rounds_within (m : Nat) : ∀ w n, w.length = m → FrameChars w → w.length + 2 < n →
    Within (loop (run group) n (w ++ ['#', '#']) close) (3 * w.length + 61) := by
  induction m using Nat.strong_induction_on with
  | _ m ih =>
    intro w n hm hw hn
    obtain ⟨n, rfl⟩ : ∃ g, n = g + 1 := ⟨n - 1, by omega⟩
    rcases w with _ | ⟨c, w⟩
    · obtain ⟨n, rfl⟩ : ∃ g, n = g + 2 := ⟨n - 2, by simp at hn; omega⟩
      rw [List.nil_append, rounds_two]
      exact ⟨rfl, by simp⟩
    · rw [loop]
      refine within_orElse (group_within _ (fun v n hv => ih v.length (by omega) v n rfl) hw (w.length + 2) (by simp)
        (fun h => by cases h) _ fun t ht => ⟨n, by simp at hn; omega, if_pos (by simp; omega)⟩)

/-- A frame is matched within a linear number of tests. -/
theorem generic_within (w : Str) (hw : FrameChars w) :
    Within (search MsgRe.generic ('*' :: (w ++ ['#', '#']))) (3 * w.length + 62) := by
  have h := group_within w (fun v n _ => rounds_within v.length v n rfl) hw (w.length + 2) (by omega) (by simp)
    (fun t => loop (run group) (t.length + 1) t close) fun t _ => ⟨t.length + 1, by omega, rfl⟩
  exact ⟨h.1, Nat.succ_le_succ h.2⟩

/-- A round that begins with `c` goes on with what follows it. -/
theorem marked_same (c : Char) (r : Re) (s : Str) :
    ends (Re.seq (Re.chr c) r) (c :: s) = ends r s ∧ base (Re.seq (Re.chr c) r) (c :: s) = 1 + base r s := by
  simp [ends, base, Re.chr]

end Py.Re
