import Verif.Proofs.Backtrack

/-!
# The patterns of the message classes need a linear number of character tests, on every text

A tag `[0-9]*(?:#[0-9]*)*` reaches every position in one way only, and what follows it - a `*`, or the end - fails at once in
the middle of a tag.
-/

open Py

namespace Re.Linear
open Py.Re

/-- Digits and `#`. -/
def dh (c : Char) : Bool := isDigit c || c == '#'

/-- The rest of the pattern needs a linear number of tests. -/
def Lin (e : Nat) (k : Str → Res) : Prop := ∀ t, (k t).2 ≤ 9 * (t.length + 1) + e

/-- The sum of `f` over the positions in the first characters that satisfy `p`, one more for each, `w` at each. -/
def total (w : Nat) (p : Char → Bool) (f : Str → Nat) : Str → Nat
  | [] => w + f []
  | c :: s => w + f (c :: s) + if p c then total w p f s else 0

theorem orElse_le (a b : Res) : (orElse a b).2 ≤ a.2 + b.2 := by
  unfold orElse
  split <;> simp

theorem total_mono {w : Nat} {p : Char → Bool} {f g : Str → Nat} (h : ∀ t, f t ≤ g t) (s : Str) : total w p f s ≤ total w p g s := by
  induction s with
  | nil => simpa [total] using h []
  | cons c s ih =>
    have := h (c :: s)
    unfold total
    split <;> omega

theorem le_total (w : Nat) (p : Char → Bool) (f : Str → Nat) (s : Str) : f s ≤ total w p f s := by
  cases s <;> unfold total <;> omega

/-- Repetition of a class of characters. -/
theorem loop_cls (p : Char → Bool) (k : Str → Res) (n : Nat) (s : Str) :
    (loop (run (cls p)) n s k).2 ≤ total 1 p (fun t => (k t).2) s := by
  induction n generalizing s with
  | zero => exact le_total 1 p (fun t => (k t).2) s
  | succ n ih =>
    unfold loop
    refine (orElse_le _ _).trans ?_
    cases s with
    | nil => simp [run, total]
    | cons c s =>
      have := ih s
      by_cases hc : p c = true
      · have hr : run (cls p) (c :: s) (fun t => if t.length < (c :: s).length then loop (run (cls p)) n t k else k t) =
            ((loop (run (cls p)) n s k).1, (loop (run (cls p)) n s k).2 + 1) := by
          rw [run]
          simp [hc]
        rw [hr]
        simp only [total, hc, if_true]
        omega
      · have hr : run (cls p) (c :: s) (fun t => if t.length < (c :: s).length then loop (run (cls p)) n t k else k t) = (false, 1) := by
          rw [run]
          simp [hc]
        rw [hr]
        simp only [total, hc]
        omega

theorem digits_le (k : Str → Res) (s : Str) : (run MsgRe.digits s k).2 ≤ total 1 isDigit (fun t => (k t).2) s :=
  loop_cls isDigit k _ s

/-- Tests of the parameters of a tag, at a digit and elsewhere. -/
def params (k : Str → Res) (t : Str) : Nat :=
  match t with
  | [] => total 4 dh (fun t => (k t).2) []
  | c :: s => if isDigit c then 1 + (k (c :: s)).2 else total 4 dh (fun t => (k t).2) (c :: s)

theorem params_cons (k : Str → Res) (c : Char) (s : Str) :
    params k (c :: s) = if isDigit c then 1 + (k (c :: s)).2 else total 4 dh (fun t => (k t).2) (c :: s) := rfl

theorem le_params (k : Str → Res) (t : Str) : (k t).2 ≤ params k t := by
  cases t with
  | nil => exact le_total 4 dh (fun t => (k t).2) []
  | cons c s =>
    rw [params_cons]
    split
    · omega
    · exact le_total 4 dh (fun t => (k t).2) (c :: s)

theorem total_params (k : Str → Res) (s : Str) : total 1 isDigit (params k) s ≤ 1 + total 4 dh (fun t => (k t).2) s := by
  induction s with
  | nil => simp [total, params]
  | cons c s ih =>
    by_cases h : isDigit c
    · simp only [total, params, h, dh, Bool.true_or, if_true]
      have : total 1 isDigit (params k) s ≤ 1 + total 4 dh (fun t => (k t).2) s := ih
      change 1 + (1 + (k (c :: s)).2) + total 1 isDigit (params k) s ≤ 1 + (4 + (k (c :: s)).2 + total 4 dh (fun t => (k t).2) s)
      omega
    · have hp : params k (c :: s) = total 4 dh (fun t => (k t).2) (c :: s) := by simp [params, h]
      rw [total, hp]
      simp [h]

theorem params_le (k : Str → Res) (n : Nat) (s : Str) :
    (loop (run (seq (chr '#') MsgRe.digits)) n s k).2 ≤ params k s := by
  induction n generalizing s with
  | zero => exact le_params k s
  | succ n ih =>
    unfold loop
    refine (orElse_le _ _).trans ?_
    cases s with
    | nil =>
      simp only [run, chr, params, total]
      omega
    | cons c s =>
      by_cases hc : c = '#'
      · subst hc
        simp only [run, chr, beq_self_eq_true, if_true]
        have h1 := digits_le (fun t => if t.length < ('#' :: s).length then loop (run (seq (chr '#') MsgRe.digits)) n t k else k t) s
        have h2 : total 1 isDigit (fun t => ((if t.length < ('#' :: s).length then loop (run (seq (chr '#') MsgRe.digits)) n t k
            else k t) : Res).2) s ≤ total 1 isDigit (params k) s := by
          refine total_mono (fun t => ?_) s
          split
          · exact ih t
          · exact le_params k t
        have h3 := total_params k s
        have h4 : params k ('#' :: s) = 4 + (k ('#' :: s)).2 + total 4 dh (fun t => (k t).2) s := by
          have h5 : isDigit '#' = false := by decide
          have h6 : dh '#' = true := by decide
          simp [params, h5, total, h6]
        rw [h4]
        change (run MsgRe.digits s fun t => if t.length < ('#' :: s).length then loop (run (seq (chr '#') MsgRe.digits)) n t k
            else k t).2 + 1 + (k ('#' :: s)).2 ≤ _
        omega
      · have hb : (c == '#') = false := by simpa using hc
        have : (run (seq (chr '#') MsgRe.digits) (c :: s)
            fun t => if t.length < (c :: s).length then loop (run (seq (chr '#') MsgRe.digits)) n t k else k t).2 = 1 := by
          simp [run, chr, hb]
        rw [this, params_cons]
        split
        · omega
        · unfold total
          omega

/-- A tag. -/
theorem tag_le (k : Str → Res) (s : Str) : (run MsgRe.tagRe s k).2 ≤ 1 + total 4 dh (fun t => (k t).2) s := by
  refine (digits_le _ s).trans ((total_mono (fun t => ?_) s).trans (total_params k s))
  exact params_le k _ t

/-- `[0-9#]+` -/
theorem who_le (k : Str → Res) (s : Str) : (run MsgRe.who s k).2 ≤ 1 + total 4 dh (fun t => (k t).2) s := by
  have hw : ∀ t, total 1 dh (fun t => (k t).2) t ≤ total 4 dh (fun t => (k t).2) t := by
    intro t
    induction t with
    | nil => simp [total]
    | cons c t ih =>
      unfold total
      split <;> omega
  cases s with
  | nil =>
    simp only [MsgRe.who, plus, run, total]
    omega
  | cons c s =>
    simp only [MsgRe.who, plus, run, total]
    by_cases h : dh c = true
    · have h' : (isDigit c || c == '#') = true := h
      have := (loop_cls dh k (s.length + 1) s).trans (hw s)
      simp only [h, h', if_true]
      change (loop (run (cls dh)) (s.length + 1) s k).2 + 1 ≤ _
      omega
    · have h' : (isDigit c || c == '#') = false := by simpa [dh] using h
      simp only [h']
      simp

/-- What comes after a tag: it fails at once at a digit or `#`, or makes at most three tests there. -/
theorem total_lin {f : Str → Nat} {e : Nat} (hn : f [] ≤ 4) (h1 : ∀ c s, dh c = true → f (c :: s) ≤ 4)
    (h2 : ∀ c s, dh c = false → f (c :: s) ≤ 9 * (s.length + 2) + e) (s : Str) : total 4 dh f s ≤ 9 * (s.length + 1) + e + 4 := by
  induction s with
  | nil => unfold total; simp only [List.length_nil]; omega
  | cons c s ih =>
    unfold total
    simp only [List.length_cons]
    by_cases h : dh c = true
    · have := h1 c s h
      simp only [h, if_true]
      omega
    · have := h2 c s (by simpa using h)
      simp only [h]
      simp only [Bool.false_eq_true, if_false]
      omega

theorem Lin.chr {e : Nat} {k : Str → Res} (c : Char) (h : Lin e k) : Lin e fun s => run (chr c) s k := by
  intro s
  cases s with
  | nil => simp [run, Py.Re.chr]; omega
  | cons d s =>
    have := h s
    simp only [run, Py.Re.chr, List.length_cons]
    split
    · simp only; omega
    · simp only; omega

/-- A star and the rest, after a tag. -/
theorem star_total {e : Nat} {k : Str → Res} (h : Lin e k) (s : Str) :
    total 4 dh (fun t => (run (chr '*') t k).2) s ≤ 9 * (s.length + 1) + e + 4 := by
  refine total_lin ?_ ?_ ?_ s
  · simp [run, chr]
  · intro c s hc
    have : (c == '*') = false := by
      by_contra hne
      have : c = '*' := by simpa using hne
      subst this
      exact absurd hc (by decide)
    simp [run, chr, this]
  · intro c s _
    have := h s
    simp only [run, chr]
    split
    · simp only; omega
    · simp only; omega

theorem Lin.tag_star {e : Nat} {k : Str → Res} (h : Lin e k) : Lin (e + 5) fun s => run MsgRe.tagRe s fun t => run (Py.Re.chr '*') t k := by
  intro s
  have h1 := tag_le (fun t => run (Py.Re.chr '*') t k) s
  have h2 := star_total h s
  dsimp only at h1 ⊢
  omega

theorem Lin.who_star {e : Nat} {k : Str → Res} (h : Lin e k) : Lin (e + 5) fun s => run MsgRe.who s fun t => run (Py.Re.chr '*') t k := by
  intro s
  have h1 := who_le (fun t => run (Py.Re.chr '*') t k) s
  have h2 := star_total h s
  dsimp only at h1 ⊢
  omega

theorem suffix_le (t : Str) : (run MsgRe.suffix t atEnd).2 ≤ 3 := by
  rcases t with _ | ⟨c, _ | ⟨d, t⟩⟩
  · simp [MsgRe.suffix, run, chr]
  · simp only [MsgRe.suffix, run, chr]
    split <;> simp
  · simp only [MsgRe.suffix, run, chr, atEnd]
    split
    · split <;> simp
    · simp

theorem Lin.digits {e : Nat} {k : Str → Res} (h1 : ∀ c s, isDigit c = true → (k (c :: s)).2 ≤ 5) (h : Lin e k) :
    Lin (e + 1) fun s => run MsgRe.digits s k := by
  intro s
  refine (digits_le k s).trans ?_
  induction s with
  | nil => have := h []; simp only [total, List.length_nil] at this ⊢; omega
  | cons c s ih =>
    unfold total
    simp only [List.length_cons]
    by_cases hc : isDigit c = true
    · have := h1 c s hc
      simp only [hc, if_true]
      omega
    · have := h (c :: s)
      simp only [List.length_cons] at this
      simp only [hc, Bool.false_eq_true, if_false]
      omega

/-- The end of a frame, after a tag. -/
theorem tag_suffix : Lin 5 fun s => run MsgRe.tagRe s fun t => run MsgRe.suffix t atEnd := by
  intro s
  have h1 := tag_le (fun t => run MsgRe.suffix t atEnd) s
  have h2 := total_lin (f := fun t => (run MsgRe.suffix t atEnd).2) (e := 0) ((suffix_le _).trans (by omega))
    (fun c s _ => (suffix_le _).trans (by omega)) (fun c s _ => (suffix_le _).trans (by omega)) s
  dsimp only at h1 ⊢
  omega

/-- What the values and the end of a frame cost: little in the middle of a tag. -/
theorem values_le (n : Nat) (s : Str) :
    (loop (run (seq (chr '*') MsgRe.tagRe)) n s fun t => run MsgRe.suffix t atEnd).2 ≤
      match s with
      | [] => 4
      | c :: s => if c = '*' then 9 * (s.length + 2) else 4 := by
  induction n generalizing s with
  | zero =>
    unfold loop
    refine (suffix_le s).trans ?_
    split
    · omega
    · split <;> omega
  | succ n ih =>
    unfold loop
    refine (orElse_le _ _).trans ?_
    have h0 := suffix_le s
    cases s with
    | nil => simp only [run, chr]; omega
    | cons c s =>
      by_cases hc : c = '*'
      · subst hc
        simp only [run, chr, beq_self_eq_true, if_true]
        have h1 := tag_le (fun t => if t.length < ('*' :: s).length then
          loop (run (seq (chr '*') MsgRe.tagRe)) n t (fun t => run MsgRe.suffix t atEnd) else run MsgRe.suffix t atEnd) s
        have h2 : ∀ t, ((if t.length < ('*' :: s).length then
            loop (run (seq (chr '*') MsgRe.tagRe)) n t (fun t => run MsgRe.suffix t atEnd) else run MsgRe.suffix t atEnd) : Res).2 ≤
            match t with
            | [] => 4
            | c :: s => if c = '*' then 9 * (s.length + 2) else 4 := by
          intro t
          split
          · exact ih t
          · refine (suffix_le t).trans ?_
            split
            · omega
            · split <;> omega
        have h3 := total_lin (f := fun t => ((if t.length < ('*' :: s).length then
            loop (run (seq (chr '*') MsgRe.tagRe)) n t (fun t => run MsgRe.suffix t atEnd) else run MsgRe.suffix t atEnd) : Res).2)
          (e := 0) (h2 []) (fun c s hc => by
            have := h2 (c :: s)
            have hne : c ≠ '*' := by
              rintro rfl
              exact absurd hc (by decide)
            simpa [hne] using this)
          (fun c s _ => by
            refine (h2 (c :: s)).trans ?_
            dsimp only
            split <;> omega) s
        change (run MsgRe.tagRe s fun t => if t.length < ('*' :: s).length then
          loop (run (seq (chr '*') MsgRe.tagRe)) n t (fun t => run MsgRe.suffix t atEnd) else run MsgRe.suffix t atEnd).2 + 1 +
            (run MsgRe.suffix ('*' :: s) atEnd).2 ≤ _
        omega
      · have hb : (c == '*') = false := by simpa using hc
        have : (run (seq (chr '*') MsgRe.tagRe) (c :: s) fun t => if t.length < (c :: s).length then
            loop (run (seq (chr '*') MsgRe.tagRe)) n t (fun t => run MsgRe.suffix t atEnd) else run MsgRe.suffix t atEnd).2 = 1 := by
          simp [run, chr, hb]
        rw [this]
        simp only [hc, if_false]
        omega

theorem values_suffix_le (s : Str) : (run MsgRe.values s fun t => run MsgRe.suffix t atEnd).2 ≤
    match s with
    | [] => 4
    | c :: s => if c = '*' then 9 * (s.length + 2) else 4 := values_le _ s

theorem values_suffix : Lin 0 fun s => run MsgRe.values s fun t => run MsgRe.suffix t atEnd := by
  intro s
  refine (values_suffix_le s).trans ?_
  cases s with
  | nil => simp
  | cons c s => simp only [List.length_cons]; split <;> omega

theorem tag_values : Lin 5 fun s => run MsgRe.tagRe s fun t => run MsgRe.values t fun t => run MsgRe.suffix t atEnd := by
  intro s
  have h1 := tag_le (fun t => run MsgRe.values t fun t => run MsgRe.suffix t atEnd) s
  have h2 := total_lin (f := fun t => (run MsgRe.values t fun t => run MsgRe.suffix t atEnd).2) (e := 0)
    (values_suffix_le []) (fun c s hc => by
      have := values_suffix_le (c :: s)
      have hne : c ≠ '*' := by
        rintro rfl
        exact absurd hc (by decide)
      simpa [hne] using this)
    (fun c s _ => by
      refine (values_suffix_le (c :: s)).trans ?_
      dsimp only
      split <;> omega) s
  dsimp only at h1 ⊢
  omega

theorem suffix_lin : Lin 0 fun s => run MsgRe.suffix s atEnd := fun s => (suffix_le s).trans (by omega)

/-- The seven patterns. -/
theorem classes_linear (s : Str) : classTests s messageClasses ≤ 63 * (s.length + 1) + 62 := by
  have b1 : (search MsgRe.ack s).2 ≤ 9 * (s.length + 1) :=
    (suffix_lin.chr '1' |>.chr '*' |>.chr '#' |>.chr '*') s
  have b2 : (search MsgRe.dimReq s).2 ≤ 9 * (s.length + 1) + 11 :=
    ((suffix_lin.digits fun c s _ => (suffix_le _).trans (by omega)).tag_star.who_star |>.chr '#' |>.chr '*') s
  have b3 : (search MsgRe.dimWrite s).2 ≤ 9 * (s.length + 1) + 11 :=
    ((values_suffix.digits fun c s hc => by
      refine (values_suffix_le (c :: s)).trans ?_
      have hne : c ≠ '*' := by
        rintro rfl
        exact absurd hc (by decide)
      simp [hne]).chr '#' |>.tag_star.who_star |>.chr '#' |>.chr '*') s
  have b4 : (search MsgRe.dimResp s).2 ≤ 9 * (s.length + 1) + 15 :=
    (tag_values.tag_star.who_star |>.chr '#' |>.chr '*') s
  have b5 : (search MsgRe.nack s).2 ≤ 9 * (s.length + 1) :=
    (suffix_lin.chr '0' |>.chr '*' |>.chr '#' |>.chr '*') s
  have b6 : (search MsgRe.normal s).2 ≤ 9 * (s.length + 1) + 15 := (tag_suffix.tag_star.who_star |>.chr '*') s
  have b7 : (search MsgRe.status s).2 ≤ 9 * (s.length + 1) + 10 := (tag_suffix.who_star |>.chr '#' |>.chr '*') s
  have step : ∀ (r : Re) (p : List Str → Except Err Msg) rest,
      classTests s ((r, p) :: rest) ≤ (search r s).2 + classTests s rest := by
    intro r p rest
    rw [classTests]
    split <;> omega
  have e : classTests s [] = 0 := rfl
  have s7 := step MsgRe.status Msg.parseStatus []
  have s6 := step MsgRe.normal Msg.parseNormal [(MsgRe.status, Msg.parseStatus)]
  have s5 := step MsgRe.nack Msg.parseNack [(MsgRe.normal, Msg.parseNormal), (MsgRe.status, Msg.parseStatus)]
  have s4 := step MsgRe.dimResp Msg.parseDimResp [(MsgRe.nack, Msg.parseNack), (MsgRe.normal, Msg.parseNormal),
    (MsgRe.status, Msg.parseStatus)]
  have s3 := step MsgRe.dimWrite Msg.parseDimWrite [(MsgRe.dimResp, Msg.parseDimResp), (MsgRe.nack, Msg.parseNack),
    (MsgRe.normal, Msg.parseNormal), (MsgRe.status, Msg.parseStatus)]
  have s2 := step MsgRe.dimReq Msg.parseDimReq [(MsgRe.dimWrite, Msg.parseDimWrite), (MsgRe.dimResp, Msg.parseDimResp),
    (MsgRe.nack, Msg.parseNack), (MsgRe.normal, Msg.parseNormal), (MsgRe.status, Msg.parseStatus)]
  have s1 := step MsgRe.ack Msg.parseAck [(MsgRe.dimReq, Msg.parseDimReq), (MsgRe.dimWrite, Msg.parseDimWrite),
    (MsgRe.dimResp, Msg.parseDimResp), (MsgRe.nack, Msg.parseNack), (MsgRe.normal, Msg.parseNormal),
    (MsgRe.status, Msg.parseStatus)]
  change classTests s ((MsgRe.ack, Msg.parseAck) :: _) ≤ _
  omega

end Re.Linear
