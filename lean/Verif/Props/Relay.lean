import Verif.Spec.Relay
import Verif.Props.Listeners
import Verif.Props.House
import Verif.Props.Commands

/-! # C127: the orders of one program reach the callbacks of another -/

open Py Spec Events
open Protocol (decodeAscii dataReceived packetMessages)

namespace Relay

/-- The WHO and the WHAT of an order. -/
def codeOf : Wish → Option (Who × Str)
  | .stop => some (.automation, cs!"0")
  | .up => some (.automation, cs!"1")
  | .down => some (.automation, cs!"2")
  | w => (lightWhat w).map fun what => (.lighting, what)

/-- What callbacks are told in fact. -/
def heard : Wish → Option (Slot × Arg)
  | .stop => some (.automation, .automation cs!"0")
  | .up => some (.automation, .automation cs!"1")
  | .down => some (.automation, .automation cs!"2")
  | .on => some (.lightStatus, .bool true)
  | _ => some (.lightStatus, .bool false)

theorem code_exists {c : Cmd} (hc : Domestic c) : ∃ p, codeOf (wish c) = some p := by
  obtain ⟨h1, h2⟩ := hc
  cases c <;> first | exact ⟨_, rfl⟩ | exact absurd rfl h2 | (rcases h1 with h1 | h1 <;> cases h1)

theorem documented_code {w : Wish} {who : Who} {what : Str} (h : codeOf w = some (who, what)) (t : Str) :
    documented w t = some (frame [who.code, what, t]) := by
  cases w with
  | stop => cases h; rfl
  | up => cases h; rfl
  | down => cases h; rfl
  | _ =>
    simp only [codeOf, Option.map_eq_some_iff] at h
    obtain ⟨x, h1, h2⟩ := h
    cases h2
    first | (cases h1; done) | (simp only [documented, h1]; rfl)

theorem code_digits {w : Wish} {who : Who} {what : Str} (h : codeOf w = some (who, what)) : Digits what := by
  have key : ∀ {w : Wish} {x : Str}, lightWhat w = some x → Digits x := by
    intro w x hx
    unfold lightWhat at hx
    split at hx <;> first | (cases hx; done) | (cases hx; unfold Digits; decide)
  cases w with
  | stop => cases h; unfold Digits; decide
  | up => cases h; unfold Digits; decide
  | down => cases h; unfold Digits; decide
  | _ =>
    simp only [codeOf, Option.map_eq_some_iff] at h
    obtain ⟨x, h1, h2⟩ := h
    cases h2
    exact key h1

theorem not_hasHH_digits {s : Str} (h : Digits s) : ¬ HasHH s := by
  rintro ⟨u, v, e⟩
  exact Digits.not_hash h (by rw [e]; simp)

/-- What is told of the message of an order. -/
theorem told_code {w : Wish} {who : Who} {what : Str} (h : codeOf w = some (who, what)) (t : Str) (regs : Slot → List Cb) :
    told regs (.normal who ⟨what⟩ ⟨t⟩) =
      match heard w with
      | some (slot, a) => (regs slot).map fun cb => (cb, t, [a])
      | none => [] := by
  have light : ∀ {w : Wish} {x : Str}, lightWhat w = some x → told regs (.normal .lighting ⟨x⟩ ⟨t⟩) =
      match heard w with
      | some (slot, a) => (regs slot).map fun cb => (cb, t, [a])
      | none => [] := by
    intro w x hx
    unfold lightWhat at hx
    split at hx <;> first | (cases hx; done) | (cases hx; simp [told, firing, heard, Msg.who, Msg.wher])
  cases w with
  | stop => cases h; simp [told, firing, heard, Msg.who, Msg.wher]
  | up => cases h; simp [told, firing, heard, Msg.who, Msg.wher]
  | down => cases h; simp [told, firing, heard, Msg.who, Msg.wher]
  | _ =>
    simp only [codeOf, Option.map_eq_some_iff] at h
    obtain ⟨x, h1, h2⟩ := h
    cases h2
    exact light h1

/-- An order and the frame it is given with. -/
structure Frame (o : Cmd × Str) (text : Str) (m : Msg) : Prop where
  packet : ∀ {s ms}, PacketOf PyWs s ms → PacketOf PyWs (text ++ s) (m :: ms)
  told : ∀ regs, told regs m = reported heard regs o.1 o.2
  harmless : Harmless m
  sends : ∀ cfg, Sends cfg (o.1.run cfg ⟨o.1.who, ⟨o.2⟩⟩) text
  ascii : ∀ c ∈ text, c.toNat < 128

theorem tag_ascii {s : Str} (h : TagText s) : ∀ c ∈ s, c.toNat < 128 := by
  intro c hc
  have := h c hc
  unfold TagChar at this
  exact (by decide : ∀ c ∈ cs!"0123456789#", c.toNat < 128) c this

theorem body_ascii {ts : List Str} (h : ∀ t ∈ ts, TagText t) : ∀ c ∈ body ts, c.toNat < 128 := by
  induction ts with
  | nil => simp [body]
  | cons t ts ih =>
    intro c hc
    rw [body, List.cons_append] at hc
    rcases List.mem_cons.1 hc with rfl | hc
    · decide
    rcases List.mem_append.1 hc with hc | hc
    · exact tag_ascii (h t (by simp)) c hc
    · exact ih (fun t ht => h t (by simp [ht])) c hc

theorem order_frame {o : Cmd × Str} (hc : Domestic o.1) (ha : Address o.2) : ∃ text m, Frame o text m := by
  obtain ⟨c, t⟩ := o
  obtain ⟨⟨who, what⟩, hp⟩ := code_exists hc
  have hd := code_digits hp
  have hdoc := documented_code hp t
  have hw : who = .lighting ∨ who = .automation := by
    unfold codeOf at hp
    split at hp
    · cases hp; exact .inr rfl
    · cases hp; exact .inr rfl
    · cases hp; exact .inr rfl
    · obtain ⟨x, _, h2⟩ := Option.map_eq_some_iff.1 hp
      cases h2; exact .inl rfl
  have htt : ∀ x ∈ [who.code, what, t], TagText x := by
    intro x hx
    simp only [List.mem_cons, List.not_mem_nil, or_false] at hx
    rcases hx with rfl | rfl | rfl
    · exact TagText.of_digits who.code_digits
    · exact TagText.of_digits hd
    · exact ha.1
  refine ⟨frame [who.code, what, t], .normal who ⟨what⟩ ⟨t⟩, ?_, ?_, ?_, ?_, ?_⟩
  · intro s ms h
    have := PacketOf.cons (ws := PyWs) (p := []) (ts := [who.code, what, t]) (m := .normal who ⟨what⟩ ⟨t⟩) (by simp) (by simp)
      htt ?_ ?_ .normal h
    · simpa using this
    · intro x hx
      simp only [List.mem_cons, List.not_mem_nil, or_false] at hx
      rcases hx with rfl | rfl | rfl
      · exact not_hasHH_digits who.code_digits
      · exact not_hasHH_digits hd
      · exact ha.2.1
    · intro x hx
      simp at hx
      subst hx
      exact ha.2.2
  · intro regs
    exact told_code hp t regs
  · intro who' wher h1 h2 h3
    have : who' = who := (Option.some.inj h1).symm
    subst this
    rcases hw with rfl | rfl <;> cases h3
  · intro cfg
    have hne : c ≠ .baseTurnOn30Min ∧ c ≠ .cameraFreeResources := by
      refine ⟨hc.2, ?_⟩
      rintro rfl
      rcases hc.1 with h | h <;> cases h
    obtain ⟨text, h1, h2⟩ := C39_command_table_partial cfg c hne ⟨t⟩ ha.1
    rw [hdoc] at h1
    cases h1
    exact h2
  · intro x hx
    rcases List.mem_append.1 hx with hx | hx
    · exact body_ascii htt x hx
    · exact (by decide : ∀ c ∈ cs!"##", c.toNat < 128) x hx

theorem decode_ascii {s : Str} (h : ∀ c ∈ s, c.toNat < 128) : decodeAscii (asciiBytes s) = .ok s := by
  have hb : ∀ c ∈ s, c.toNat.toUInt8.toNat = c.toNat := by
    intro c hc
    have := h c hc
    simp
    omega
  unfold decodeAscii asciiBytes
  rw [if_pos]
  · rw [List.map_map]
    congr 1
    conv_rhs => rw [← List.map_id s]
    refine List.map_congr_left fun c hc => ?_
    simp only [Function.comp, hb c hc, id]
    exact Char.ofNat_toNat c
  · rw [List.all_eq_true]
    intro b hb'
    obtain ⟨c, hc, rfl⟩ := List.mem_map.1 hb'
    simp only [decide_eq_true_eq, hb c hc]
    exact h c hc

/-- The packet with the frames of some orders. -/
theorem frames_packet (l : List ((Cmd × Str) × Str × Msg)) (hl : ∀ x ∈ l, Frame x.1 x.2.1 x.2.2) :
    packetMessages (asciiBytes (l.map (·.2.1)).flatten) = .ok (l.map (·.2.2)) := by
  have hp : PacketOf PyWs (l.map (·.2.1)).flatten (l.map (·.2.2)) ∧ ∀ c ∈ (l.map (·.2.1)).flatten, c.toNat < 128 := by
    induction l with
    | nil => exact ⟨.nil, by simp⟩
    | cons x l ih =>
      obtain ⟨p, q⟩ := ih fun x hx => hl x (by simp [hx])
      have fx := hl x (by simp)
      refine ⟨fx.packet p, ?_⟩
      intro c hc
      rw [List.map_cons, List.flatten_cons] at hc
      rcases List.mem_append.1 hc with hc | hc
      exacts [fx.ascii c hc, q c hc]
  have hd := C15_packet_of_frames [] (asciiBytes (l.map (·.2.1)).flatten) (l.map (·.2.1)).flatten [] _
    (by simpa using decode_ascii hp.2) hp.1 (by simp)
  unfold dataReceived at hd
  split at hd
  · rename_i ms he
    rw [he]
    simpa using hd
  · cases hd

/-- What arrives when frames are passed on. -/
theorem relays_arrived {h : List Act} {texts : List Str} (hr : Relays h texts) {orders : List (Cmd × Str)} {ms : List Msg}
    (hf : ∃ l : List ((Cmd × Str) × Str × Msg), (∀ x ∈ l, Frame x.1 x.2.1 x.2.2) ∧ l.map (·.1) = orders ∧
      l.map (·.2.1) = texts ∧ l.map (·.2.2) = ms) : arrived h = ms ∧ ∀ a ∈ h, Act.Plain a := by
  obtain ⟨l, h1, rfl, h3, rfl⟩ := hf
  induction hr generalizing l with
  | done =>
    rw [List.map_eq_nil_iff] at h3
    subst h3
    exact ⟨rfl, by simp⟩
  | @packet h rest texts hr ih =>
    obtain ⟨l1, l2, rfl, e1, e2⟩ := List.map_eq_append_iff.1 h3
    obtain ⟨a, b⟩ := ih l2 (fun x hx => h1 x (by simp [hx])) e2
    have hm := frames_packet l1 fun x hx => h1 x (by simp [hx])
    rw [e1] at hm
    refine ⟨?_, ?_⟩
    · rw [arrived, hm, List.map_append, a]
    · intro x hx
      rcases List.mem_cons.1 hx with rfl | hx
      exacts [trivial, b x hx]
  | loop id client _ ih =>
    obtain ⟨a, b⟩ := ih l h1 h3
    exact ⟨a, by simpa [Act.Plain] using b⟩
  | resume id _ ih =>
    obtain ⟨a, b⟩ := ih l h1 h3
    exact ⟨a, by simpa [Act.Plain] using b⟩
  | cancel id _ ih =>
    obtain ⟨a, b⟩ := ih l h1 h3
    exact ⟨a, by simpa [Act.Plain] using b⟩
  | getItem who wher client _ ih =>
    obtain ⟨a, b⟩ := ih l h1 h3
    exact ⟨a, by simpa [Act.Plain] using b⟩

theorem answer_any (inbox : List InEv) : ∃ r rest acts, Answer inbox r rest acts ∧ written acts = [] := by
  cases inbox with
  | nil => exact ⟨_, _, _, .nothing, rfl⟩
  | cons e l =>
    cases e with
    | silence => exact ⟨_, _, _, .silent l, rfl⟩
    | msg m =>
      by_cases h : m = .ack
      · subst h; exact ⟨_, _, _, .acknowledged l, rfl⟩
      · exact ⟨_, _, _, .refused m l h (by simp), rfl⟩

/-- The program that gives the orders writes their frames, whatever the gateway answers. -/
theorem runs_written (cfg : Config) (l : List ((Cmd × Str) × Str × Msg)) (hl : ∀ x ∈ l, Frame x.1 x.2.1 x.2.2) (w : World)
    (hr : Ready cfg w) :
    written (Deed.runs cfg (l.map fun x => .order x.1.1 x.1.2) w).2.trace = written w.trace ++ l.map (·.2.1) := by
  induction l generalizing w with
  | nil => simp [Deed.runs]
  | cons x l ih =>
    obtain ⟨r, rest, acts, ha, hw⟩ := answer_any w.inbox
    have hs := ((hl x (by simp)).sends cfg w).1 hr r rest acts ha
    have e : (Deed.runs cfg ((x :: l).map fun x => .order x.1.1 x.1.2) w).2 =
        (Deed.runs cfg (l.map fun x => .order x.1.1 x.1.2) (w.after rest (.sent x.2.1 :: acts))).2 := by
      simp only [List.map_cons, Deed.runs, Deed.run, hs]
    rw [e, ih (fun x hx => hl x (by simp [hx])) (w.after rest (.sent x.2.1 :: acts)) ⟨hr.1, hr.2⟩]
    simp [World.after, Spec.House.written_append, written, hw]

theorem frames {orders : List (Cmd × Str)} (ho : ∀ o ∈ orders, Domestic o.1 ∧ Address o.2) :
    ∃ l : List ((Cmd × Str) × Str × Msg), (∀ x ∈ l, Frame x.1 x.2.1 x.2.2) ∧ l.map (·.1) = orders := by
  induction orders with
  | nil => exact ⟨[], by simp, rfl⟩
  | cons o orders ih =>
    obtain ⟨l, h1, h2⟩ := ih fun o h => ho o (by simp [h])
    obtain ⟨text, m, hf⟩ := order_frame (ho o (by simp)).1 (ho o (by simp)).2
    refine ⟨(o, text, m) :: l, ?_, by rw [List.map_cons, h2]⟩
    intro x hx
    rcases List.mem_cons.1 hx with rfl | hx
    exacts [hf, h1 x hx]

/-- What a listener is told of the orders of another program, exactly. -/
theorem exact_calls (cfg : Config) (w : World) (hr : Ready cfg w) (orders : List (Cmd × Str))
    (ho : ∀ o ∈ orders, Domestic o.1 ∧ Address o.2) (texts : List Str)
    (ht : written (Deed.runs cfg (orders.map fun o => .order o.1 o.2) w).2.trace = written w.trace ++ texts)
    (call : Call) (hc : AllStart call) (session : Session) (rs : List (Cls × Method × Cb)) (h : List Act) (hh : Relays h texts)
    (hq : ((Many.init session).run .upTo312 call (setup rs ++ h)).base.queue = []) :
    calls ((Many.init session).run .upTo312 call (setup rs ++ h)).base =
      orders.flatMap fun o => reported heard (fun slot => (rs.filter fun r => slotOf r.1 r.2.1 = some slot).map (·.2.2)) o.1 o.2
    := by
  obtain ⟨l, h1, rfl⟩ := frames ho
  have hw := runs_written cfg l h1 w hr
  rw [List.map_map] at ht
  have : texts = l.map (·.2.1) := List.append_cancel_left (ht.symm.trans hw)
  subst this
  obtain ⟨ha, hp⟩ := relays_arrived hh ⟨l, h1, rfl, rfl, rfl⟩
  rw [C104_listener_partial call hc session rs h hp ?_ hq, ha, List.flatMap_map, List.flatMap_map]
  · exact List.flatMap_congr fun x hx => (h1 x hx).told _
  · rw [ha]
    intro m hm
    obtain ⟨x, hx, rfl⟩ := List.mem_map.1 hm
    exact (h1 x hx).harmless

end Relay

open Relay

/-- C127 for orders that switch lights on or off and move or stop shutters: when the gateway passes on the frames that a program
writes, the callbacks of another program, on Python up to 3.12, are told of each order once, in order, with its address and the
state it asks for.  The full statement is for all orders to lights and shutters; it fails for the others, as shown below. -/
theorem C127_partial (cfg : Config) (w : World) (hr : Ready cfg w) (orders : List (Cmd × Str))
    (ho : ∀ o ∈ orders, Domestic o.1 ∧ Simple (wish o.1) ∧ Address o.2) (texts : List Str)
    (ht : written (Deed.runs cfg (orders.map fun o => .order o.1 o.2) w).2.trace = written w.trace ++ texts)
    (call : Call) (hc : AllStart call) (session : Session) (rs : List (Cls × Method × Cb)) (h : List Act) (hh : Relays h texts)
    (hq : ((Many.init session).run .upTo312 call (setup rs ++ h)).base.queue = []) :
    calls ((Many.init session).run .upTo312 call (setup rs ++ h)).base =
      orders.flatMap fun o =>
        reported news (fun slot => (rs.filter fun r => slotOf r.1 r.2.1 = some slot).map (·.2.2)) o.1 o.2 := by
  rw [exact_calls cfg w hr orders (fun o h => ⟨(ho o h).1, (ho o h).2.2⟩) texts ht call hc session rs h hh hq]
  refine List.flatMap_congr fun o hm => ?_
  unfold reported
  have : heard (wish o.1) = news (wish o.1) := by
    rcases (ho o hm).2.1 with e | e | e | e | e <;> rw [e] <;> rfl
  rw [this]

/-- C127 is refuted for the other orders to lights: of a light that is dimmed to a level, switched on for a time or made to
blink, callbacks are told that it is off. -/
theorem C127_refuted (cfg : Config) (w : World) (hr : Ready cfg w) (c : Cmd) (hl : c.who = .lighting) (hn : c ≠ .baseTurnOn30Min)
    (h1 : wish c ≠ .on) (h2 : news (wish c) = some (.lightStatus, .bool true)) (target : Str) (ha : Address target) (texts : List Str)
    (ht : written (Deed.runs cfg [.order c target] w).2.trace = written w.trace ++ texts)
    (call : Call) (hc : AllStart call) (session : Session) (cb : Cb) (h : List Act) (hh : Relays h texts)
    (hq : ((Many.init session).run .upTo312 call (setup [(.light, .onStatusChange, cb)] ++ h)).base.queue = []) :
    calls ((Many.init session).run .upTo312 call (setup [(.light, .onStatusChange, cb)] ++ h)).base =
      [(cb, target, [.bool false])] := by
  have := exact_calls cfg w hr [(c, target)] (by simpa using ⟨⟨.inl hl, hn⟩, ha⟩) texts ht call hc session
    [(.light, .onStatusChange, cb)] h hh hq
  rw [this]
  have hw : heard (wish c) = some (.lightStatus, .bool false) := by
    cases c <;> first | rfl | exact absurd rfl h1 | cases hl
  simp [reported, hw, slotOf]

/-- The hypotheses can be met: for all orders there is such a listener, and it gets everything. -/
theorem C127_possible (cfg : Config) (w : World) (hr : Ready cfg w) (orders : List (Cmd × Str))
    (ho : ∀ o ∈ orders, Domestic o.1 ∧ Address o.2) (call : Call) (rs : List (Cls × Method × Cb)) : ∃ texts h,
    written (Deed.runs cfg (orders.map fun o => .order o.1 o.2) w).2.trace = written w.trace ++ texts ∧ Relays h texts ∧
    ((Many.init .event).run .upTo312 call (setup rs ++ h)).base.queue = [] := by
  obtain ⟨l, h1, rfl⟩ := frames ho
  refine ⟨l.map (·.2.1), [.packet (asciiBytes (l.map (·.2.1)).flatten), .loop 0 0], ?_, ?_, ?_⟩
  · rw [List.map_map]
    exact runs_written cfg l h1 w hr
  · have := Relays.packet (l.map (·.2.1)) (.loop 0 0 .done)
    simpa using this
  · have hm := frames_packet l h1
    have hs : ∀ (rs : List (Cls × Method × Cb)) (s : Many), s.base.session = .event → s.base.transport = .opened →
        s.base.queue = [] → s.base.items = .init → s.loops 0 = .none →
        (s.run .upTo312 call (setup rs)).base.session = .event ∧ (s.run .upTo312 call (setup rs)).base.transport = .opened ∧
        (s.run .upTo312 call (setup rs)).base.queue = [] ∧ (s.run .upTo312 call (setup rs)).base.items = .init ∧
        (s.run .upTo312 call (setup rs)).loops 0 = .none := by
      intro rs
      induction rs with
      | nil => exact fun s a b c d e => ⟨a, b, c, d, e⟩
      | cons r rs ih =>
        intro s a b c d e
        refine ih (s.step .upTo312 call (.register r.1 r.2.1 r.2.2)) ?_ ?_ ?_ ?_ ?_ <;>
          (unfold Many.step State.step; dsimp only; try split) <;> assumption
    obtain ⟨a, b, c, d, e⟩ := hs rs (Many.init .event) rfl rfl rfl rfl rfl
    rw [many_append]
    generalize (Many.init .event).run .upTo312 call (setup rs) = s at a b c d e
    have e1 : s.step .upTo312 call (.packet (asciiBytes (l.map (·.2.1)).flatten)) =
        { s with base := { s.base with queue := l.map (·.2.2) } } := by
      unfold Many.step State.step dataReceived
      dsimp only
      rw [if_pos b, hm, c]
      rfl
    change ((s.step .upTo312 call (.packet (asciiBytes (l.map (·.2.1)).flatten))).step .upTo312 call (.loop 0 0)).base.queue = []
    rw [e1]
    unfold Many.step
    dsimp only
    rw [e]
    unfold Many.turn State.step State.start
    dsimp only
    rw [if_pos rfl, if_neg (by simp [a])]
    simp only [b]
    obtain ⟨i, ts, -, -, -, g⟩ := drain_harmless .upTo312 call (l.map (·.2.2))
      { s.base with
        task := .none
        client := 0
        transport := .opened
        queue := l.map (·.2.2) } rfl (by dsimp only; rw [d]; exact itemsOk_init)
      (packet_clean hm) (by
        intro m hm
        obtain ⟨x, hx, rfl⟩ := List.mem_map.1 hm
        exact (h1 x hx).harmless)
    have := g []
    rw [List.append_nil] at this
    rw [this]
    rfl

/-- A program that opens a shutter and turns on a light, and one that listens. -/
example : Relays [.loop 0 0, .packet (asciiBytes cs!"*2*1*41##*1*1*12##"), .resume 0] [cs!"*2*1*41##", cs!"*1*1*12##"] ∧
    Domestic .automationUp ∧ Domestic .lightTurnOn ∧ Simple (wish .automationUp) ∧ Simple (wish .lightTurnOn) :=
  ⟨.loop 0 0 (.packet [cs!"*2*1*41##", cs!"*1*1*12##"] (.resume 0 .done)), by simp [Domestic, Cmd.who], by simp [Domestic, Cmd.who],
    .inr (.inr (.inr (.inl rfl))), .inl rfl⟩

/-- Orders of which callbacks are told the contrary. -/
example : news (wish .dimmerSet50Percent) = some (.lightStatus, .bool true) ∧
    news (wish .baseTurnOn1Min) = some (.lightStatus, .bool true) ∧
    news (wish .lightBlink0_5Sec) = some (.lightStatus, .bool true) := ⟨rfl, rfl, rfl⟩
