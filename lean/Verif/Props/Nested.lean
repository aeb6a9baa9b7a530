import Verif.Proofs.Nested
import Verif.Props.Items
import Verif.Props.Commands
import Verif.Props.Queries

/-!
# C140: commands given while the replies of a query are being read

The full claim, for a program that gives one command for each value a status request reports: the commands are given one after
the other for as long as the gateway says ACK, and the program ends as the gateway's answers to them say.  It is stated of the
program `run`, which either commands while it reads (`Nested.whileReading`) or reads to the end first (`Nested.afterReading`).
-/

open Py Spec Spec.Nested M Client Item Nested Examples

/-- The full claim about the program `run`. -/
def C140_full (cfg : Config) (run : {β : Type} → Item → (Msg → Except Err (List β)) → (β → M Unit) → M Unit) : Prop :=
  ∀ {β : Type} (i : Item) (body : Msg → Except Err (List β)) (act : β → M Unit) (f : β → Str),
    TagText i.wher.string → (∀ y, Sends cfg (act y) (f y)) → ∀ (w : World), Ready cfg w →
    ∀ (rs : List Msg) (ys : List (List β)) (answers : List Msg) (rest : List InEv), (∀ m ∈ rs, m.isNormal = true) →
      rs.mapM body = .ok ys → answers.length = ys.flatten.length →
      w.inbox = rs.map .msg ++ .msg .ack :: (answers.map .msg ++ rest) →
      (run i body act w).1 = calledFor answers ∧
      written (run i body act w).2.trace =
        written w.trace ++ frame ['#' :: i.who.code, i.wher.string] :: given f ys.flatten answers

/-- C140, what goes wrong: in `async for x in item.get_status(): await act(x)`, if any reply follows the first one that gives a
value, the command for that value takes the next reply for its answer and raises `ResponseError`, whatever the gateway answers;
one command has been written, and the other replies, the ACK and the answers are left in the queue. -/
theorem C140_next_reply {β : Type} (cfg : Config) (i : Item) (body : Msg → Except Err (List β)) (act : β → M Unit) (f : β → Str)
    (hi : TagText i.wher.string) (hs : ∀ y, Sends cfg (act y) (f y)) (w : World) (hw : Ready cfg w) (pre : List Msg)
    (r next : Msg) (y : β) (more : List β) (tail : List InEv) (hp : ∀ m ∈ pre, m.isNormal = true ∧ body m = .ok [])
    (hr : r.isNormal = true) (hb : body r = .ok (y :: more)) (hn : next.isNormal = true)
    (hin : w.inbox = pre.map .msg ++ .msg r :: .msg next :: tail) :
    whileReading cfg i body act w = (.error .responseError, w.after tail
      (.sent (frame ['#' :: i.who.code, i.wher.string]) :: (pre.map .got ++ [.got r, .sent (f y), .got next]))) := by
  unfold whileReading
  rw [send_allowed hw.1 hw.2 (tags_status hi)]
  dsimp only
  rw [rounds_skip normal_ends pre hp (by exact hw.1) (by exact hin),
    rounds_cons normal_ends (by exact hw.1) rfl hr hb]
  have h := (hs y (((w.after w.inbox [.sent i.statusMessage.str]).after (.msg r :: .msg next :: tail) (pre.map .got)).after
    (.msg next :: tail) [.got r])).1 ⟨hw.1, hw.2⟩ (.error .responseError) tail [.got next]
    (.refused _ _ (by rintro rfl; cases hn) (by simp))
  have hx : perform ((y :: more).map act) _ = _ := bind_error h
  rw [hx]
  simp [World.after, str_status]

/-- C140 is false for a program that commands while it reads: two lights are on, the gateway acknowledges everything, and the
first command raises. -/
theorem C140_while_reading_refuted (cfg : Config) (hc : cfg.session ≠ .event) : ¬ C140_full cfg (whileReading cfg) := by
  intro h
  obtain ⟨text, -, hs⟩ := C39_command_table_partial cfg .lightTurnOff (by simp) ⟨cs!"11"⟩ (by decide +kernel)
  have hw : Ready cfg ⟨[], true, [.msg (.normal .lighting ⟨cs!"1"⟩ ⟨cs!"11"⟩),
    .msg (.normal .lighting ⟨cs!"1"⟩ ⟨cs!"12"⟩), .msg .ack, .msg .ack, .msg .ack], []⟩ := ⟨rfl, hc⟩
  have h1 := (h ⟨.lighting, ⟨cs!"1"⟩⟩ Light.statusBody _ (fun _ => text) (by decide +kernel)
    (fun _ => hs) _ hw [.normal .lighting ⟨cs!"1"⟩ ⟨cs!"11"⟩, .normal .lighting ⟨cs!"1"⟩ ⟨cs!"12"⟩]
    [[(⟨cs!"11"⟩, true)], [(⟨cs!"12"⟩, true)]] [.ack, .ack] [] (by simp [Msg.isNormal]) rfl rfl rfl).1
  beta_reduce at h1
  rw [C140_next_reply _ _ _ _ (fun _ => text) (by decide +kernel) (fun _ => hs) _ hw [] _ _ (⟨cs!"11"⟩, true) [] _ (by simp)
    rfl rfl rfl rfl] at h1
  cases h1

/-- C140, and the answers are shifted: if the query has one reply, the first command of the body takes the ACK that ends the
query for its own and reports success even if the gateway refuses it, the body goes on and gives its second command, and that
one takes the answer to the first. -/
theorem C140_shifted_refuted {β : Type} (cfg : Config) (i : Item) (body : Msg → Except Err (List β)) (cmd cmd' : M Unit)
    (f f' : Str) (hi : TagText i.wher.string) (hs : Sends cfg cmd f) (hs' : Sends cfg cmd' f') (w : World) (hw : Ready cfg w)
    (r : Msg) (y : β) (a : Msg) (tail : List InEv) (hr : r.isNormal = true) (hb : body r = .ok [y]) (ha : a ≠ .ack)
    (hin : w.inbox = [.msg r, .msg .ack, .msg a] ++ tail) :
    whileReading cfg i body (fun _ => perform [cmd, cmd']) w = (.error .responseError, w.after tail
      [.sent (frame ['#' :: i.who.code, i.wher.string]), .got r, .sent f, .got .ack, .sent f', .got a]) := by
  unfold whileReading
  rw [send_allowed hw.1 hw.2 (tags_status hi)]
  dsimp only
  rw [rounds_cons normal_ends (by exact hw.1) (by exact hin) hr hb]
  have h1 := (hs ((w.after w.inbox [.sent i.statusMessage.str]).after (.msg .ack :: .msg a :: tail) [.got r])).1 ⟨hw.1, hw.2⟩
    (.ok ()) (.msg a :: tail) [.got .ack] (.acknowledged _)
  have h2 := (hs' (((w.after w.inbox [.sent i.statusMessage.str]).after (.msg .ack :: .msg a :: tail) [.got r]).after
    (.msg a :: tail) [.sent f, .got .ack])).1 ⟨hw.1, hw.2⟩ (.error .responseError) tail [.got a] (.refused _ _ ha (by simp))
  have h3 : perform [cmd, cmd'] _ = _ := (bind_ok h1).trans (bind_error h2)
  have h4 : perform ([y].map fun _ => perform [cmd, cmd']) _ = _ := bind_error h3
  dsimp only [List.append_eq, List.cons_append, List.nil_append] at h4 ⊢
  rw [h4]
  simp [World.after, str_status]

/-- C140, where there is nothing to command: if no reply gives a value, the program that commands while it reads ends as the query
does, and writes no command. -/
theorem C140_no_value_partial {β : Type} (cfg : Config) (i : Item) (body : Msg → Except Err (List β)) (act : β → M Unit)
    (hi : TagText i.wher.string) (w : World) (hw : Ready cfg w) (rs : List Msg)
    (hp : ∀ m ∈ rs, m.isNormal = true ∧ body m = .ok []) (tail rest : List InEv) (r : Except Err Unit) (acts : List CAct)
    (he : Ending (fun m => m.isNormal = true) tail r rest acts) (hin : w.inbox = rs.map .msg ++ tail) :
    whileReading cfg i body act w = (r, w.after rest
      (.sent (frame ['#' :: i.who.code, i.wher.string]) :: (rs.map .got ++ acts))) := by
  unfold whileReading
  rw [send_allowed hw.1 hw.2 (tags_status hi)]
  dsimp only
  rw [rounds_skip normal_ends rs hp (by exact hw.1) (by exact hin), rounds_ending normal_ends (by exact hw.1) (by exact he)]
  simp [World.after, str_status]

/-- C140, where the two forms do not differ: if only the last reply gives a value, and only one, the program that commands while it
reads ends as the answer to its command says; but it takes the ACK of the query for the answer, and the answer for the end of the
query. -/
theorem C140_one_partial {β : Type} (cfg : Config) (i : Item) (body : Msg → Except Err (List β)) (act : β → M Unit) (f : β → Str)
    (hi : TagText i.wher.string) (hs : ∀ y, Sends cfg (act y) (f y)) (w : World) (hw : Ready cfg w) (pre : List Msg)
    (r a : Msg) (y : β) (tail : List InEv) (hp : ∀ m ∈ pre, m.isNormal = true ∧ body m = .ok [])
    (hr : r.isNormal = true) (hb : body r = .ok [y]) (ha : a.isNormal = false)
    (hin : w.inbox = pre.map .msg ++ .msg r :: .msg .ack :: .msg a :: tail) :
    whileReading cfg i body act w = (calledFor [a], w.after tail
      (.sent (frame ['#' :: i.who.code, i.wher.string]) :: (pre.map .got ++ [.got r, .sent (f y), .got .ack, .got a]))) := by
  unfold whileReading
  rw [send_allowed hw.1 hw.2 (tags_status hi)]
  dsimp only
  rw [rounds_skip normal_ends pre hp (by exact hw.1) (by exact hin),
    rounds_cons normal_ends (by exact hw.1) rfl hr hb]
  have h := (hs y (((w.after w.inbox [.sent i.statusMessage.str]).after (.msg r :: .msg .ack :: .msg a :: tail) (pre.map .got)).after
    (.msg .ack :: .msg a :: tail) [.got r])).1 ⟨hw.1, hw.2⟩ (.ok ()) (.msg a :: tail) [.got .ack] (.acknowledged _)
  have hx : perform ([y].map act) _ = (.ok (), _) := (bind_ok h).trans rfl
  rw [hx]
  have he : Ending (fun m => m.isNormal = true) (.msg a :: tail) (calledFor [a]) tail [.got a] := by
    by_cases h : a = .ack
    · subst h; exact .acknowledged _
    · rw [calledFor, if_neg h]
      exact .refused _ _ h (by simp [ha])
  show (if _ then _ else _) = _
  rw [if_pos (by simp [World.after]), rounds_ending normal_ends (by exact hw.1) (by exact he)]
  simp [World.after, str_status]

/-- C140, what holds: a program that reads the query to its end and then gives its commands does what the claim asks, for any
number of replies and whatever the answers. -/
theorem C140_after_reading_partial (cfg : Config) : C140_full cfg (afterReading cfg) := by
  intro β i body act f hi hs w hw rs ys answers rest hn hb hl hin
  have hq : statusStream cfg i body w = ((ys.flatten, .ok ()), w.after (answers.map .msg ++ rest)
      (.sent (frame ['#' :: i.who.code, i.wher.string]) :: (rs.map .got ++ [.got .ack]))) := by
    unfold statusStream stream
    rw [send_allowed hw.1 hw.2 (tags_status hi)]
    dsimp only
    rw [drain_replies normal_ends rs ys _ (by exact hw.1) _ (by exact hin) hn hb,
      drain_ending normal_ends (by exact hw.1) (.acknowledged _)]
    simp [World.after, str_status]
  obtain ⟨rest', acts, h1, h2⟩ := perform_answered hw.2 hs ys.flatten answers hl
    (w := w.after (answers.map .msg ++ rest)
      (.sent (frame ['#' :: i.who.code, i.wher.string]) :: (rs.map .got ++ [.got .ack]))) (by exact hw.1) rfl
  have h3 : afterReading cfg i body act w = perform (ys.flatten.map act) (w.after (answers.map .msg ++ rest)
      (.sent (frame ['#' :: i.who.code, i.wher.string]) :: (rs.map .got ++ [.got .ack]))) := by
    unfold afterReading
    rw [hq]
  beta_reduce
  rw [h3, h1]
  refine ⟨rfl, ?_⟩
  rw [← h2]
  simp [World.after, written, List.filterMap_append]

/-- Two lights are on.  The gateway acknowledges the first command and refuses the second: read first, both are written and the
program raises; read and command in turn, one is written and the program raises at once. -/
example (cfg : Config) (hc : cfg.session = .command) :
    (afterReading cfg ⟨.lighting, ⟨cs!"1"⟩⟩ Light.statusBody (fun _ => Cmd.lightTurnOff.run cfg ⟨.lighting, ⟨cs!"11"⟩⟩)
      ⟨[], true, [.msg (.normal .lighting ⟨cs!"1"⟩ ⟨cs!"11"⟩), .msg (.normal .lighting ⟨cs!"1"⟩ ⟨cs!"12"⟩), .msg .ack,
        .msg .ack, .msg .nack], []⟩).1 = .error .responseError ∧
    (whileReading cfg ⟨.lighting, ⟨cs!"1"⟩⟩ Light.statusBody (fun _ => Cmd.lightTurnOff.run cfg ⟨.lighting, ⟨cs!"11"⟩⟩)
      ⟨[], true, [.msg (.normal .lighting ⟨cs!"1"⟩ ⟨cs!"11"⟩), .msg (.normal .lighting ⟨cs!"1"⟩ ⟨cs!"12"⟩), .msg .ack,
        .msg .ack, .msg .nack], []⟩).2.inbox = [.msg .ack, .msg .ack, .msg .nack] := by
  obtain ⟨text, -, hs⟩ := C39_command_table_partial cfg .lightTurnOff (by simp) ⟨cs!"11"⟩ (by decide +kernel)
  constructor
  · exact (C140_after_reading_partial cfg _ _ _ (fun _ => text) (by decide +kernel) (fun _ => hs) _ ⟨rfl, by simp [hc]⟩
      [.normal .lighting ⟨cs!"1"⟩ ⟨cs!"11"⟩, .normal .lighting ⟨cs!"1"⟩ ⟨cs!"12"⟩]
      [[(⟨cs!"11"⟩, true)], [(⟨cs!"12"⟩, true)]] [.ack, .nack] [] (by simp [Msg.isNormal]) rfl rfl rfl).1
  · have h := C140_next_reply cfg ⟨.lighting, ⟨cs!"1"⟩⟩ Light.statusBody
      (fun _ => Cmd.lightTurnOff.run cfg ⟨.lighting, ⟨cs!"11"⟩⟩) (fun _ => text) (by decide +kernel) (fun _ => hs)
      ⟨[], true, [.msg (.normal .lighting ⟨cs!"1"⟩ ⟨cs!"11"⟩), .msg (.normal .lighting ⟨cs!"1"⟩ ⟨cs!"12"⟩), .msg .ack,
        .msg .ack, .msg .nack], []⟩ ⟨rfl, by simp [hc]⟩ [] _ _ (⟨cs!"11"⟩, true) [] _ (by simp) rfl rfl rfl rfl
    rw [h]
    rfl

/-- One light is on, and the gateway refuses to turn it off: the body goes on to its second command. -/
example (cfg : Config) (hc : cfg.session = .command) :
    (whileReading cfg ⟨.lighting, ⟨cs!"1"⟩⟩ Light.statusBody (fun _ => perform
      [Cmd.lightTurnOff.run cfg ⟨.lighting, ⟨cs!"11"⟩⟩, Cmd.lightTurnOn.run cfg ⟨.lighting, ⟨cs!"12"⟩⟩])
      ⟨[], true, [.msg (.normal .lighting ⟨cs!"1"⟩ ⟨cs!"11"⟩), .msg .ack, .msg .nack], []⟩).2.trace =
    [.sent cs!"*#1*1##", .got (.normal .lighting ⟨cs!"1"⟩ ⟨cs!"11"⟩), .sent cs!"*1*0*11##", .got .ack, .sent cs!"*1*1*12##",
      .got .nack] := by
  rw [C140_shifted_refuted cfg ⟨.lighting, ⟨cs!"1"⟩⟩ Light.statusBody _ _ cs!"*1*0*11##" cs!"*1*1*12##" (by decide +kernel)
    (sends_normal cfg (by decide +kernel) (by decide +kernel)) (sends_normal cfg (by decide +kernel) (by decide +kernel)) _
    ⟨rfl, by simp [hc]⟩ _ (⟨cs!"11"⟩, true) .nack [] rfl rfl (by simp) rfl]
  rfl

/-- One light is on, and the gateway refuses to turn it off: the only command raises, as it should. -/
example (cfg : Config) (hc : cfg.session = .command) :
    (whileReading cfg ⟨.lighting, ⟨cs!"11"⟩⟩ Light.statusBody (fun _ => Cmd.lightTurnOff.run cfg ⟨.lighting, ⟨cs!"11"⟩⟩)
      ⟨[], true, [.msg (.normal .lighting ⟨cs!"1"⟩ ⟨cs!"11"⟩), .msg .ack, .msg .nack], []⟩).1 = .error .responseError := by
  obtain ⟨text, -, hs⟩ := C39_command_table_partial cfg .lightTurnOff (by simp) ⟨cs!"11"⟩ (by decide +kernel)
  exact congrArg Prod.fst (C140_one_partial cfg ⟨.lighting, ⟨cs!"11"⟩⟩ Light.statusBody _ (fun _ => text) (by decide +kernel)
    (fun _ => hs) ⟨[], true, [.msg (.normal .lighting ⟨cs!"1"⟩ ⟨cs!"11"⟩), .msg .ack, .msg .nack], []⟩ ⟨rfl, by simp [hc]⟩ [] _
    .nack (⟨cs!"11"⟩, true) [] (by simp) rfl rfl rfl rfl)

/-- The reply names no light that is on or off (it is at a level): nothing is commanded. -/
example (cfg : Config) (hc : cfg.session = .command) (act : Tag × Bool → M Unit) :
    (whileReading cfg ⟨.lighting, ⟨cs!"11"⟩⟩ Light.statusBody act
      ⟨[], true, [.msg (.normal .lighting ⟨cs!"5"⟩ ⟨cs!"11"⟩), .msg .ack], []⟩).1 = .ok () := by
  rw [C140_no_value_partial cfg ⟨.lighting, ⟨cs!"11"⟩⟩ Light.statusBody act (by decide +kernel)
    ⟨[], true, [.msg (.normal .lighting ⟨cs!"5"⟩ ⟨cs!"11"⟩), .msg .ack], []⟩ ⟨rfl, by simp [hc]⟩
    [.normal .lighting ⟨cs!"5"⟩ ⟨cs!"11"⟩] (by simp [Msg.isNormal]; rfl) [.msg .ack] [] (.ok ()) [.got .ack] (.acknowledged _) rfl]
