import Verif.Props.Programs
import Verif.Props.Gateway
import Verif.Props.Energy
import Verif.Props.Queries

/-! # Lemmas on the example programs -/

open Py Spec Client M Examples

theorem await_ok {α : Type} {x : M α} {k : α → Gen Line} {w w' : World} {a : α} (h : x w = (.ok a, w')) :
    await x k w = k a w' := by
  unfold await
  rw [h]

theorem await_error {α : Type} {x : M α} {k : α → Gen Line} {w w' : World} {e : Err} (h : x w = (.error e, w')) :
    await x k w = (([], .error e), w') := by
  unfold await
  rw [h]

theorem finish_run {w : World} (h : w.started = true) :
    finish w = (([], .ok ()), ⟨w.network, false, [], w.trace ++ [.closed]⟩) := by
  simp [finish, await, close, h]

theorem print_run {l : Line} {k : Gen Line} {w w' : World} {ls : List Line} {r : Except Err Unit} (h : k w = ((ls, r), w')) :
    print l k w = ((l :: ls, r), w') := by
  unfold print
  rw [h]

/-- Printing the answer is printing the mapped answer. -/
theorem await_print {α : Type} (x : M α) (f : α → Line) (k : Gen Line) :
    await x (fun a => print (f a) k) = await (do let a ← x; return f a) (fun l => print l k) := by
  funext w
  rcases h : x w with ⟨e | a, w'⟩
  · rw [await_error h, await_error (bind_error h)]
  · have : (do let a ← x; return f a : M Line) w = (.ok (f a), w') := bind_ok h
    rw [await_ok h, await_ok this]

/-- A question whose answer is turned into a line. -/
theorem asks_map {α β : Type} {cfg : Config} {g : M α} {text : Str} {decode : List Tag → Except Err α} (h : Asks cfg g text decode)
    (f : α → β) : Asks cfg (do let a ← g; return f a) text (fun vs => (decode vs).map f) := by
  intro w
  refine ⟨fun hr => bind_error ((h w).1 hr), fun hr rs tail r rest acts h1 h2 h3 => ?_⟩
  have := (h w).2 hr rs tail r rest acts h1 h2 h3
  rcases r with e | ⟨⟩
  · exact bind_error this
  · rcases rs with _ | ⟨m, rs⟩
    · exact bind_error this
    · dsimp only at this ⊢
      cases hd : decode m.values with
      | error e =>
        rw [hd] at this
        exact bind_error this
      | ok a =>
        rw [hd] at this
        exact bind_ok this

theorem reads_asks {α : Type} {cfg : Config} {g : Option Msg → M α} {text : Str} {decode : List Tag → Except Err α}
    (h : Reads cfg g text decode) : Asks cfg (g none) text decode := h.2

/-- Answered questions. -/
theorem tell_answered {cfg : Config} (hc : cfg.session ≠ .event) {gs more : List (M Line)} {inbox rest : List InEv}
    {ls : List Line} {acts : List CAct} (h : Answered cfg gs inbox rest ls acts) {w : World} (hw : w.started = true)
    (hi : w.inbox = inbox) :
    tell (gs ++ more) w =
      ((ls ++ (tell more (w.after rest acts)).1.1, (tell more (w.after rest acts)).1.2), (tell more (w.after rest acts)).2) := by
  induction h generalizing w with
  | nil rest =>
    subst hi
    simp [World.after]
  | @cons g text decode first others l gs inbox rest ls acts ha hd hl _ ih =>
    have := (ha w).2 ⟨hw, hc⟩ (first :: others) (.msg .ack :: inbox) (.ok ()) inbox [.got .ack] hd hi (.acknowledged _)
    dsimp only at this
    rw [hl] at this
    have e1 : tell (g :: gs ++ more) w = print l (tell (gs ++ more)) _ := await_ok this
    have e2 := ih (w := w.after inbox (.sent text :: ((first :: others).map .got ++ [.got .ack]))) (by exact hw) rfl
    rw [e1, print_run e2]
    have e3 : (w.after inbox (.sent text :: ((first :: others).map .got ++ [.got .ack]))).after rest acts =
        w.after rest (.sent text :: ((first :: others).map .got ++ .got .ack :: acts)) := by
      simp [World.after]
    rw [e3]
    rfl

theorem pyEq_nack (m : Msg) : m.pyEq .nack = true ↔ m = .nack := by
  cases m <;> simp [Msg.pyEq]

theorem pyEq_ack (m : Msg) : m.pyEq .ack = true ↔ m = .ack := by
  cases m <;> simp [Msg.pyEq]

theorem orTimeout_msg {w : World} (hw : w.started = true) {m : Msg} {rest : List InEv} (hi : w.inbox = .msg m :: rest) :
    orTimeout readMessage w = (.ok (some m), w.after rest [.got m]) := by
  simp [orTimeout, readMessage, hw, hi, World.after]

theorem orTimeout_quiet {w : World} (hw : w.started = true) (hi : w.inbox = [] ∨ ∃ rest, w.inbox = .silence :: rest) :
    orTimeout readMessage w = (.ok none, w.after w.inbox.tail []) := by
  rcases hi with hi | ⟨rest, hi⟩ <;> simp [orTimeout, readMessage, hw, hi, World.after]
  obtain ⟨n, s, i, t⟩ := w
  simp_all

theorem lastFour_ok (pre : List Str) (a b c d : Str) : lastFour (pre ++ [a, b, c, d]) = .ok (.address a b c d) := by
  unfold lastFour
  have : (pre ++ [a, b, c, d]).drop ((pre ++ [a, b, c, d]).length - 4) = [a, b, c, d] := by simp
  rw [this]
  rfl

theorem lastFour_short (ts : List Str) (h : ts.length < 4) : lastFour ts = .error .indexError := by
  unfold lastFour
  match ts, h with
  | [], _ => rfl
  | [_], _ => rfl
  | [_, _], _ => rfl
  | [_, _, _], _ => rfl

theorem measureOf_ok {d : Tag} {vs : List Tag} {month day tag value : Str} (h : Measure d vs month day tag value) :
    measureOf d vs = .ok (.measure month day tag value) := by
  cases h with
  | mk dim _ _ more t v vs h1 h2 h3 h4 =>
    unfold measureOf Tag.parameters
    dsimp only
    rw [split1_append_sep h1, split1_append_sep h2]
    rcases h4 with rfl | ⟨x, rfl⟩
    · rw [List.append_nil, split1_of_not_mem h3]
      rfl
    · rw [split1_append_sep h3]
      rfl

theorem measureOf_total (d : Tag) (vs : List Tag) :
    (∃ month day tag value, Measure d vs month day tag value) ∨ measureOf d vs = .error .indexError := by
  obtain ⟨s⟩ := d
  unfold measureOf Tag.parameters
  dsimp only
  have hj := join_split1 '#' s
  have hm : ∀ p ∈ split1 '#' s, '#' ∉ p := fun p hp => not_mem_of_mem_split1 hp
  match hs : split1 '#' s, split1_ne_nil '#' s with
  | [a], _ => exact .inr rfl
  | [a, b], _ => exact .inr rfl
  | a :: b :: c :: more, _ =>
    match vs with
    | [] => exact .inr rfl
    | [t] => exact .inr rfl
    | t :: v :: vs =>
      left
      rw [hs] at hj hm
      refine ⟨b, c, t.string, v.string, ?_⟩
      have hk : ∃ x, s = a ++ '#' :: (b ++ '#' :: (c ++ x)) ∧ (x = [] ∨ ∃ y, x = '#' :: y) := by
        cases more with
        | nil => exact ⟨[], by rw [← hj]; simp [join], .inl rfl⟩
        | cons d more => exact ⟨'#' :: join ['#'] (d :: more), by rw [← hj]; simp [join], .inr ⟨_, rfl⟩⟩
      obtain ⟨x, rfl, hx⟩ := hk
      exact .mk a b c _ t v vs (hm a (by simp)) (hm b (by simp)) (hm c (by simp)) hx

theorem measures_ceases {w : World} (hw : w.started = true) {rest : List InEv} {acts : List CAct}
    (h : Ceases w.inbox rest acts) : measures w = (([], .ok ()), w.after rest acts) := by
  generalize hi : w.inbox = inbox at h
  cases h with
  | acknowledged =>
    have : readMessage w = (.ok .ack, w.after rest [.got .ack]) := by simp [readMessage, hw, hi, World.after]
    rw [measures]
    split
    · rename_i e _ h; rw [this] at h; cases h
    · rename_i h; rw [this] at h; cases h; rfl
  | silent =>
    have : readMessage w = (.error .timeoutError, w.after rest []) := by simp [readMessage, hw, hi, World.after]
    rw [measures]
    split
    · rename_i e _ h; rw [this] at h; cases h; rfl
    · rename_i h; rw [this] at h; cases h
  | nothing =>
    have : readMessage w = (.error .timeoutError, w.after [] []) := by
      obtain ⟨n, s, i, t⟩ := w
      simp_all [readMessage, World.after]
    rw [measures]
    split
    · rename_i e _ h; rw [this] at h; cases h; rfl
    · rename_i h; rw [this] at h; cases h

theorem measures_shown {w : World} (hw : w.started = true) {m : Msg} {ls : List Line} (hs : Shown m ls) {rest : List InEv}
    (hi : w.inbox = .msg m :: rest) :
    measures w = ((ls ++ (measures (w.after rest [.got m])).1.1, (measures (w.after rest [.got m])).1.2),
      (measures (w.after rest [.got m])).2) := by
  have hr : readMessage w = (.ok m, w.after rest [.got m]) := by simp [readMessage, hw, hi, World.after]
  conv_lhs => rw [measures]
  split
  · rename_i e _ h; rw [hr] at h; cases h
  · rename_i h
    rw [hr] at h
    cases h
    cases hs with
    | measure wo we d vs month day tag value hm =>
      dsimp only
      rw [measureOf_ok hm]
      rfl
    | other m h1 h2 =>
      cases m with
      | ack => exact absurd rfl h1
      | dimResp wo we d vs => exact absurd ⟨_, _, _, _, rfl⟩ h2
      | _ => rfl

theorem measures_bad {w : World} (hw : w.started = true) {wo : Who} {we d : Tag} {vs : List Tag}
    (hm : ∀ month day tag value, ¬ Measure d vs month day tag value) {rest : List InEv}
    (hi : w.inbox = .msg (.dimResp wo we d vs) :: rest) :
    measures w = (([], .error .indexError), w.after rest [.got (.dimResp wo we d vs)]) := by
  have hr : readMessage w = (.ok (.dimResp wo we d vs), w.after rest [.got (.dimResp wo we d vs)]) := by
    simp [readMessage, hw, hi, World.after]
  have he : measureOf d vs = .error .indexError := by
    rcases measureOf_total d vs with ⟨a, b, c, e, h⟩ | h
    · exact absurd h (hm a b c e)
    · exact h
  rw [measures]
  split
  · rename_i e _ h; rw [hr] at h; cases h
  · rename_i h
    rw [hr] at h
    cases h
    dsimp only
    rw [he]

theorem measures_run {ms : List Msg} {lss : List (List Line)} (hs : List.Forall₂ Shown ms lss) {w : World}
    (hw : w.started = true) {tail : List InEv} (hi : w.inbox = ms.map .msg ++ tail) :
    measures w = ((lss.flatten ++ (measures (w.after tail (ms.map .got))).1.1, (measures (w.after tail (ms.map .got))).1.2),
      (measures (w.after tail (ms.map .got))).2) := by
  induction hs generalizing w with
  | nil =>
    subst hi
    simp [World.after]
  | @cons m ls ms lss h1 _ ih =>
    have hi' : w.inbox = .msg m :: (ms.map .msg ++ tail) := hi
    rw [measures_shown hw h1 hi', ih (w := w.after (ms.map InEv.msg ++ tail) [.got m]) hw rfl]
    simp [World.after]
