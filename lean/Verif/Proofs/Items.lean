import Verif.Model.Items
import Verif.Spec.Replies
import Verif.Proofs.Cut

/-! # Running commands and queries -/

open Py Spec M Client

namespace World
variable (w : World) (r r' : List InEv) (a a' : List CAct)

@[simp] theorem after_started : (w.after r a).started = w.started := rfl
@[simp] theorem after_inbox : (w.after r a).inbox = r := rfl
@[simp] theorem after_trace : (w.after r a).trace = w.trace ++ a := rfl
@[simp] theorem after_network : (w.after r a).network = w.network := rfl
@[simp] theorem after_after : (w.after r a).after r' a' = w.after r' (a ++ a') := by simp [after]
@[simp] theorem after_nil : w.after w.inbox [] = w := by simp [after]

end World

namespace Item

/-- Outside a connected command session nothing is sent. -/
theorem send_denied {cfg : Config} {w : World} {m : Msg} (h : w.started = false ∨ cfg.session = .event) :
    sendMessage cfg m false w = (.error .invalidSession, w) := by
  unfold sendMessage isCmdSession
  rcases h with h | h
  · simp [h]
  · simp [h]

theorem send_allowed {cfg : Config} {w : World} {m : Msg} (h : w.started = true) (hs : cfg.session ≠ .event)
    (hm : ∀ t ∈ m.tags, TagText t) :
    sendMessage cfg m false w = (.ok (), (w.after w.inbox [.sent m.str])) := by
  obtain ⟨b, hb⟩ := bytes_ok hm
  unfold sendMessage isCmdSession
  cases hc : cfg.session <;> simp_all [World.after]

theorem command_run {cfg : Config} {w : World} {m : Msg} (h : w.started = true) (hs : cfg.session ≠ .event)
    (hm : ∀ t ∈ m.tags, TagText t) :
    (∀ r rest, w.inbox = .msg r :: rest → command cfg m w =
      (if r = .ack then .ok () else .error .responseError,
        (w.after rest ([.sent m.str, .got r])))) ∧
    (Quiet w.inbox → command cfg m w =
      (.error .timeoutError, (w.after (w.inbox.drop 1) ([.sent m.str])))) := by
  unfold command
  rw [bind_ok (send_allowed h hs hm)]
  constructor
  · intro r rest hi
    rw [bind_ok (read_msg (by exact h) (by exact hi))]
    by_cases hr : r = .ack
    · rw [if_pos hr, if_neg (by rw [not_not, type_ack]; exact hr)]
      simp [World.after]
    · rw [if_neg hr, if_pos (by rw [Ne, type_ack]; exact hr)]
      simp [World.after]
  · intro hq
    rcases read_cases (w := (w.after w.inbox [.sent m.str])) h with ⟨r, rest, h1, _⟩ | ⟨_, h2⟩
    · exact absurd h1 (hq r rest)
    · rw [bind_error h2]; rfl

/-- One round of the reply loop. -/
theorem nextReply_run {want : Msg → Bool} (hw : want .ack = false ∧ want .nack = false) {w : World}
    (h : w.started = true) :
    (∃ m rest, w.inbox = .msg m :: rest ∧ want m = true ∧
      nextReply want w = (.ok (some m), (w.after rest ([.got m])))) ∨
    (∃ r rest acts, Ending (fun m => want m = true) w.inbox r rest acts ∧
      nextReply want w = (r.map (fun _ => none), (w.after rest acts))) := by
  unfold nextReply
  rcases read_cases h with ⟨m, rest, h1, h2⟩ | ⟨h1, h2⟩
  · rw [bind_ok h2, h1]
    by_cases hn : m = .nack
    · right
      refine ⟨_, _, _, .refused m rest (by rw [hn]; simp) (by rw [hn]; simp [hw.2]), ?_⟩
      rw [if_pos (type_nack.2 hn)]; rfl
    · rw [if_neg (by rw [type_nack]; exact hn)]
      by_cases ha : m = .ack
      · right
        subst ha
        refine ⟨_, _, _, .acknowledged rest, ?_⟩
        rw [if_pos (by rfl)]; rfl
      · rw [if_neg (by rw [type_ack]; exact ha)]
        cases hm : want m with
        | false =>
          right
          exact ⟨_, _, _, .refused m rest ha (by simp [hm]), rfl⟩
        | true =>
          left
          exact ⟨m, rest, rfl, hm, rfl⟩
  · right
    rw [bind_error h2]
    rcases hi : w.inbox with _ | ⟨_ | _, r⟩
    · exact ⟨_, _, _, .nothing, by simp [World.after]⟩
    · exact absurd hi (h1 _ _)
    · exact ⟨_, _, _, .silent r, by simp [World.after]⟩

theorem drain_ending {β : Type} {want : Msg → Bool} (hw : want .ack = false ∧ want .nack = false)
    {body : Msg → Except Err (List β)} {w : World} (h : w.started = true) {r : Except Err Unit} {rest : List InEv} {acts : List CAct}
    (he : Ending (fun m => want m = true) w.inbox r rest acts) :
    drain want body w = (([], r), (w.after rest acts)) := by
  rcases nextReply_run hw h with ⟨m, rest', h1, h2, h3⟩ | ⟨r', rest', acts', h1, h2⟩
  · rw [h1] at he
    cases he with
    | acknowledged => simp [hw.1] at h2
    | refused _ _ _ h' => exact absurd h2 h'
  · have : r' = r ∧ rest' = rest ∧ acts' = acts := by
      generalize w.inbox = i at *
      cases h1 <;> cases he <;> simp_all
    obtain ⟨rfl, rfl, rfl⟩ := this
    rw [drain]
    split
    · rename_i e w' h'
      rw [h2] at h'
      cases r' <;> cases h'
      rfl
    · rename_i w' h'
      rw [h2] at h'
      cases r' <;> cases h'
      rfl
    · rename_i m w' h'
      rw [h2] at h'
      cases r' <;> cases h'

theorem drain_cons {β : Type} {want : Msg → Bool} (hw : want .ack = false ∧ want .nack = false)
    {body : Msg → Except Err (List β)} {w : World} (h : w.started = true) {m : Msg} {rest : List InEv}
    (hi : w.inbox = .msg m :: rest) (hm : want m = true) :
    drain want body w =
      match body m with
      | .error e => (([], .error e), (w.after rest ([.got m])))
      | .ok ys =>
        let r := drain want body (w.after rest ([.got m]))
        ((ys ++ r.1.1, r.1.2), r.2) := by
  rcases nextReply_run hw h with ⟨m', rest', h1, h2, h3⟩ | ⟨r', rest', acts', h1, h2⟩
  · rw [hi] at h1
    cases h1
    rw [drain]
    split
    · rename_i e w' h'
      rw [h3] at h'; cases h'
    · rename_i w' h'
      rw [h3] at h'; cases h'
    · rename_i m w' h'
      rw [h3] at h'; cases h'
      rfl
  · rw [hi] at h1
    cases h1 with
    | acknowledged => simp [hw.1] at hm
    | refused _ _ _ h' => exact absurd hm h'

/-- Replies whose bodies succeed. -/
theorem drain_replies {β : Type} {want : Msg → Bool} (hw : want .ack = false ∧ want .nack = false)
    {body : Msg → Except Err (List β)} (rs : List Msg) (ys : List (List β)) (w : World) (h : w.started = true)
    (tail : List InEv) (hi : w.inbox = rs.map .msg ++ tail) (hr : ∀ m ∈ rs, want m = true)
    (hb : rs.mapM body = .ok ys) :
    drain want body w =
      let r := drain want body (w.after tail (rs.map .got))
      ((ys.flatten ++ r.1.1, r.1.2), r.2) := by
  induction rs generalizing w ys with
  | nil =>
    simp at hb hi
    subst hb
    rw [← hi]
    simp
  | cons m rs ih =>
    rw [List.mapM_cons] at hb
    cases hbm : body m with
    | error e => rw [hbm] at hb; cases hb
    | ok y =>
      rw [hbm, ok_bind] at hb
      cases hbs : rs.mapM body with
      | error e => rw [hbs] at hb; cases hb
      | ok zs =>
        rw [hbs] at hb
        cases hb
        rw [drain_cons hw h (by rw [hi]; rfl) (hr m (by simp)), hbm]
        dsimp only
        have := ih zs (w.after (rs.map .msg ++ tail) ([.got m])) h rfl
          (fun m hm => hr m (by simp [hm])) hbs
        have e : (rs.map InEv.msg).append tail = rs.map InEv.msg ++ tail := rfl
        rw [e, this]
        simp

/-- Every inbox is some wanted replies followed by an end. -/
theorem split_inbox (want : Msg → Bool) (inbox : List InEv) :
    ∃ (rs : List Msg) (tail : List InEv) (r : Except Err Unit) (rest : List InEv) (acts : List CAct),
      inbox = rs.map .msg ++ tail ∧ (∀ m ∈ rs, want m = true) ∧
      Ending (fun m => want m = true) tail r rest acts := by
  induction inbox with
  | nil => exact ⟨[], [], _, _, _, rfl, by simp, .nothing⟩
  | cons e l ih =>
    cases e with
    | silence => exact ⟨[], _, _, _, _, rfl, by simp, .silent l⟩
    | msg m =>
      by_cases hm : want m = true
      · obtain ⟨rs, tail, r, rest, acts, h1, h2, h3⟩ := ih
        refine ⟨m :: rs, tail, r, rest, acts, by rw [h1]; rfl, ?_, h3⟩
        intro x hx
        rcases List.mem_cons.1 hx with rfl | hx
        · exact hm
        · exact h2 x hx
      · by_cases ha : m = .ack
        · subst ha; exact ⟨[], _, _, _, _, rfl, by simp, .acknowledged l⟩
        · exact ⟨[], _, _, _, _, rfl, by simp, .refused m l ha hm⟩

theorem mapM_ok {α β : Type} (f : α → β) (l : List α) :
    l.mapM (fun a => (Except.ok (f a) : Except Err β)) = .ok (l.map f) := by
  induction l with
  | nil => rfl
  | cons a l ih => rw [List.mapM_cons, ih]; rfl

theorem flatten_singles {α : Type} (l : List α) : (l.map fun a => [a]).flatten = l := by
  induction l with
  | nil => rfl
  | cons a l ih => simp [ih]

theorem normal_ends : Msg.isNormal .ack = false ∧ Msg.isNormal .nack = false := ⟨rfl, rfl⟩
theorem dimResp_ends : Msg.isDimResp .ack = false ∧ Msg.isDimResp .nack = false := ⟨rfl, rfl⟩

/-- The texts the commands and queries write. -/
theorem str_normal (i : Item) (w : Tag) :
    (i.normalMessageTag w).str = frame [i.who.code, w.string, i.wher.string] := by
  simp [normalMessageTag, Msg.str, frame, body]
theorem str_status (i : Item) : i.statusMessage.str = frame ['#' :: i.who.code, i.wher.string] := by
  simp [statusMessage, Msg.str, frame, body]
theorem str_request (i : Item) (d : Tag) :
    (i.requestMessage d).str = frame ['#' :: i.who.code, i.wher.string, d.string] := by
  simp [requestMessage, Msg.str, frame, body]
theorem body_join (v : Tag) (vs : List Tag) :
    '*' :: join cs!"*" ((v :: vs).map (·.string)) = body ((v :: vs).map (·.string)) := by
  induction vs generalizing v with
  | nil => simp [join, body]
  | cons u us ih =>
    have := ih u
    simp only [List.map_cons, join, body] at this ⊢
    rw [← this]
    simp
theorem str_writing (i : Item) (d : Tag) (vs : List Tag) (h : vs ≠ []) :
    (i.writingMessage d vs).str =
      frame (('#' :: i.who.code) :: i.wher.string :: ('#' :: d.string) :: vs.map (·.string)) := by
  obtain ⟨v, vs, rfl⟩ := List.exists_cons_of_ne_nil h
  have := body_join v vs
  simp only [writingMessage, Msg.str, frame, body] at *
  rw [← this]
  simp

theorem code_tagText (w : Who) : TagText w.code := by cases w <;> decide +kernel

theorem tags_normal {i : Item} {w : Tag} (hi : TagText i.wher.string) (hw : TagText w.string) :
    ∀ t ∈ (i.normalMessageTag w).tags, TagText t := by
  simp [normalMessageTag, Msg.tags, code_tagText, hi, hw]
theorem tags_status {i : Item} (hi : TagText i.wher.string) : ∀ t ∈ i.statusMessage.tags, TagText t := by
  simp [statusMessage, Msg.tags, code_tagText, hi]
theorem tags_request {i : Item} {d : Tag} (hi : TagText i.wher.string) (hd : TagText d.string) :
    ∀ t ∈ (i.requestMessage d).tags, TagText t := by
  simp [requestMessage, Msg.tags, code_tagText, hi, hd]
theorem tags_writing {i : Item} {d : Tag} {vs : List Tag} (hi : TagText i.wher.string) (hd : TagText d.string)
    (hv : ∀ v ∈ vs, TagText v.string) : ∀ t ∈ (i.writingMessage d vs).tags, TagText t := by
  simp only [writingMessage, Msg.tags, List.mem_cons, List.mem_map]
  rintro t (rfl | rfl | rfl | ⟨v, hv', rfl⟩)
  · exact code_tagText _
  · exact hi
  · exact hd
  · exact hv v hv'

theorem ofStr_ok {s : Str} (h : TagText s) : Tag.ofStr s = .ok ⟨s⟩ := Tag.ofStr_ok h

end Item
