import Verif.Model.Nested
import Verif.Spec.Nested
import Verif.Proofs.Items

namespace Nested

open Py Spec Spec.Nested M Client Item Examples

/-- The end of the replies. -/
theorem rounds_ending {β : Type} {want : Msg → Bool} (hw : want .ack = false ∧ want .nack = false)
    {body : Msg → Except Err (List β)} {act : β → M Unit} {w : World} (h : w.started = true) {r : Except Err Unit}
    {rest : List InEv} {acts : List CAct} (he : Ending (fun m => want m = true) w.inbox r rest acts) :
    rounds want body act w = (r, w.after rest acts) := by
  rcases nextReply_run hw h with ⟨m, rest', h1, h2, h3⟩ | ⟨r', rest', acts', h1, h2⟩
  · rw [h1] at he
    cases he with
    | acknowledged => simp [hw.1] at h2
    | refused _ _ _ h' => exact absurd h2 h'
  · have : r' = r ∧ rest' = rest ∧ acts' = acts := by
      generalize w.inbox = i at *
      cases h1 <;> cases he <;> simp_all
    obtain ⟨rfl, rfl, rfl⟩ := this
    rw [rounds]
    split
    · rename_i e w' h'
      rw [h2] at h'
      cases r' <;> cases h'
      rfl
    · rename_i w' h'
      rw [h2] at h'
      cases r' <;> cases h'
      rfl
    · rename_i m w' h'
      rw [h2] at h'
      cases r' <;> cases h'

/-- One reply whose values are known, and a body that takes nothing or something from the queue. -/
theorem rounds_cons {β : Type} {want : Msg → Bool} (hw : want .ack = false ∧ want .nack = false)
    {body : Msg → Except Err (List β)} {act : β → M Unit} {w : World} (h : w.started = true) {m : Msg} {rest : List InEv}
    (hi : w.inbox = .msg m :: rest) (hm : want m = true) {ys : List β} (hb : body m = .ok ys) :
    rounds want body act w =
      match perform (ys.map act) (w.after rest [.got m]) with
      | (.error e, w'') => (.error e, w'')
      | (.ok (), w'') => if w''.inbox.length ≤ rest.length then rounds want body act w'' else (.error .timeoutError, w'') := by
  rcases nextReply_run hw h with ⟨m', rest', h1, h2, h3⟩ | ⟨r', rest', acts', h1, h2⟩
  · rw [hi] at h1
    cases h1
    rw [rounds]
    split
    · rename_i e w' h'
      rw [h3] at h'; cases h'
    · rename_i w' h'
      rw [h3] at h'; cases h'
    · rename_i m w' h'
      rw [h3] at h'; cases h'
      rw [hb]
      dsimp only
      split
      · rename_i e w'' h''
        rw [h'']
      · rename_i w'' h''
        rw [h'']
        dsimp only
        by_cases hle : w''.inbox.length ≤ rest.length
        · rw [if_pos hle]
          exact dif_pos hle
        · rw [if_neg hle]
          exact dif_neg hle
  · rw [hi] at h1
    cases h1 with
    | acknowledged => simp [hw.1] at hm
    | refused _ _ _ h' => exact absurd hm h'

/-- Replies that give no value are passed over. -/
theorem rounds_skip {β : Type} {want : Msg → Bool} (hw : want .ack = false ∧ want .nack = false)
    {body : Msg → Except Err (List β)} {act : β → M Unit} (rs : List Msg) (hr : ∀ m ∈ rs, want m = true ∧ body m = .ok [])
    {w : World} (h : w.started = true) {tail : List InEv} (hi : w.inbox = rs.map .msg ++ tail) :
    rounds want body act w = rounds want body act (w.after tail (rs.map .got)) := by
  induction rs generalizing w with
  | nil =>
    have : w.inbox = tail := hi
    subst this
    simp [World.after]
  | cons m rs ih =>
    obtain ⟨h1, h2⟩ := hr m List.mem_cons_self
    rw [List.map_cons, List.cons_append] at hi
    rw [rounds_cons hw h hi h1 h2]
    have hp : perform (([] : List β).map act) (w.after (rs.map .msg ++ tail) [.got m]) =
      (.ok (), w.after (rs.map .msg ++ tail) [.got m]) := rfl
    rw [hp]
    dsimp only
    rw [if_pos (by exact le_refl _), ih (fun x hx => hr x (List.mem_cons_of_mem _ hx)) (by exact h) rfl]
    simp [World.after]

/-- Commands that are answered in order. -/
theorem perform_answered {β : Type} {cfg : Config} (hc : cfg.session ≠ .event) {act : β → M Unit} {f : β → Str}
    (hs : ∀ y, Sends cfg (act y) (f y)) (ys : List β) (answers : List Msg) (hl : answers.length = ys.length) {w : World}
    (h : w.started = true) {rest : List InEv} (hi : w.inbox = answers.map .msg ++ rest) :
    ∃ rest' acts, perform (ys.map act) w = (calledFor answers, w.after rest' acts) ∧ written acts = given f ys answers := by
  induction ys generalizing answers w with
  | nil =>
    obtain rfl := List.length_eq_zero_iff.1 hl
    exact ⟨w.inbox, [], by simp [perform, calledFor, World.after], by simp [written, given]⟩
  | cons y ys ih =>
    rcases answers with _ | ⟨a, answers⟩
    · simp at hl
    by_cases ha : a = .ack
    · subst ha
      have hr := (hs y w).1 ⟨h, hc⟩ (.ok ()) (answers.map .msg ++ rest) [.got .ack] (by rw [hi]; exact .acknowledged _)
      obtain ⟨rest', acts, h1, h2⟩ := ih answers (by simpa using hl)
        (w := w.after (answers.map .msg ++ rest) [.sent (f y), .got .ack]) (by exact h) rfl
      refine ⟨rest', .sent (f y) :: .got .ack :: acts, ?_, ?_⟩
      · have hx : perform ((y :: ys).map act) w = perform (ys.map act) _ := bind_ok hr
        rw [hx, h1]
        simp [calledFor, World.after]
      · simp only [given, if_pos]
        rw [← h2]
        simp [written]
    · have hr := (hs y w).1 ⟨h, hc⟩ (.error .responseError) (answers.map .msg ++ rest) [.got a]
        (by rw [hi]; exact .refused _ _ ha (by simp))
      refine ⟨answers.map .msg ++ rest, [.sent (f y), .got a], ?_, ?_⟩
      · have hx : perform ((y :: ys).map act) w = _ := bind_error hr
        rw [hx, calledFor, if_neg ha]
      · simp [given, ha, written]

end Nested
