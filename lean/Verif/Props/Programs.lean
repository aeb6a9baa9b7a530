import Verif.Spec.Programs
import Verif.Model.Examples
import Verif.Props.Client
import Verif.Props.Commands

/-! # C102: a program of commands -/

open Py Spec Client M Examples

/-- A successful start, from the gateway's side. -/
theorem start_opens {cfg : Config} {w : World} {acts : List CAct} {tail : List InEv} {net : List (Option (List InEv))}
    (h : Opens cfg w acts tail net) : start cfg w = (.ok (), conversed w net true tail acts) := by
  obtain ⟨said, hn, hh⟩ := h.said
  exact (C29_start_iff cfg w _).2 ⟨said, tail, net, acts, hn, hh, rfl⟩

/-- Commands that are all acknowledged. -/
theorem perform_acked {cfg : Config} (hc : cfg.session ≠ .event) {cmds more : List (M Unit)} {fs : List Str}
    (hs : List.Forall₂ (Sends cfg) cmds fs) {w : World} (hw : w.started = true) {rest : List InEv}
    (hi : w.inbox = List.replicate fs.length (.msg .ack) ++ rest) :
    perform (cmds ++ more) w = perform more (w.after rest (acknowledged fs)) := by
  induction hs generalizing w with
  | nil =>
    have : w.inbox = rest := hi
    subst this
    simp [acknowledged, World.after]
  | @cons c f cmds fs h1 _ ih =>
    rw [List.length_cons, List.replicate_succ, List.cons_append] at hi
    have hr := (h1 w).1 ⟨hw, hc⟩ (.ok ()) (List.replicate fs.length (.msg .ack) ++ rest) [.got .ack]
      (by rw [hi]; exact .acknowledged _)
    have hx : perform (c :: cmds ++ more) w = perform (cmds ++ more) _ := bind_ok hr
    rw [hx, ih (by exact hw) rfl]
    congr 1
    simp [World.after, acknowledged]

/-- C102: when the session opens and every command is acknowledged, the frames go out in the order of the commands, each after
the ACK of the one before it, and the connection is closed. -/
theorem C102_all (cfg : Config) (hc : cfg.session ≠ .event) (cmds : List (M Unit)) (fs : List Str)
    (hs : List.Forall₂ (Sends cfg) cmds fs) (w : World) (acts : List CAct) (rest : List InEv) (net : List (Option (List InEv)))
    (ho : Opens cfg w acts (List.replicate fs.length (.msg .ack) ++ rest) net) :
    script cfg cmds w = (.ok (), conversed w net false [] (acts ++ (acknowledged fs ++ [.closed]))) := by
  unfold script
  rw [bind_ok (start_opens ho)]
  have h := perform_acked hc hs (more := []) (w := conversed w net true (List.replicate fs.length (.msg .ack) ++ rest) acts)
    rfl (rest := rest) rfl
  rw [List.append_nil] at h
  have h' : perform cmds (conversed w net true (List.replicate fs.length (.msg .ack) ++ rest) acts) =
    (.ok (), _) := h
  rw [bind_ok h']
  simp [close, conversed, World.after]

/-- C102: the first command that is not acknowledged ends the program with its error; no later frame is written, and the
connection is left open. -/
theorem C102_stops (cfg : Config) (hc : cfg.session ≠ .event) (before : List (M Unit)) (cmd : M Unit) (later : List (M Unit))
    (fs : List Str) (f : Str) (hs : List.Forall₂ (Sends cfg) before fs) (hf : Sends cfg cmd f) (w : World) (acts : List CAct)
    (tail : List InEv) (net : List (Option (List InEv)))
    (ho : Opens cfg w acts (List.replicate fs.length (.msg .ack) ++ tail) net)
    (e : Err) (rest : List InEv) (last : List CAct) (ha : Answer tail (.error e) rest last) :
    script cfg (before ++ cmd :: later) w =
      (.error e, conversed w net true rest (acts ++ (acknowledged fs ++ .sent f :: last))) := by
  unfold script
  rw [bind_ok (start_opens ho)]
  have h := perform_acked hc hs (more := cmd :: later)
    (w := conversed w net true (List.replicate fs.length (.msg .ack) ++ tail) acts) rfl (rest := tail) rfl
  have h2 := (hf ((conversed w net true (List.replicate fs.length (.msg .ack) ++ tail) acts).after tail (acknowledged fs))).1
    ⟨rfl, hc⟩ _ _ _ ha
  have h3 : perform (cmd :: later) _ = _ := bind_error h2
  rw [h3] at h
  rw [bind_error h]
  simp [conversed, World.after]

/-- C102: a command that refuses its arguments ends the program in the same way, and writes nothing. -/
theorem C102_refused (cfg : Config) (hc : cfg.session ≠ .event) (before : List (M Unit)) (cmd : M Unit) (later : List (M Unit))
    (fs : List Str) (e : Err) (hs : List.Forall₂ (Sends cfg) before fs) (hf : Refuses cmd e) (w : World) (acts : List CAct)
    (rest : List InEv) (net : List (Option (List InEv)))
    (ho : Opens cfg w acts (List.replicate fs.length (.msg .ack) ++ rest) net) :
    script cfg (before ++ cmd :: later) w = (.error e, conversed w net true rest (acts ++ acknowledged fs)) := by
  unfold script
  rw [bind_ok (start_opens ho)]
  have h := perform_acked hc hs (more := cmd :: later)
    (w := conversed w net true (List.replicate fs.length (.msg .ack) ++ rest) acts) rfl (rest := rest) rfl
  have h3 : ∀ w, perform (cmd :: later) w = (.error e, w) := fun w => bind_error (hf w)
  rw [h3] at h
  rw [bind_error h]
  simp [conversed, World.after]

/-- C102: these are all the ways a conversation can go once the session is open. -/
theorem C102_cases (fs : List Str) (tail : List InEv) :
    (∃ rest, tail = List.replicate fs.length (.msg .ack) ++ rest) ∨
    ∃ before f later t e rest last, fs = before ++ f :: later ∧ tail = List.replicate before.length (.msg .ack) ++ t ∧
      Answer t (.error e) rest last := by
  induction fs generalizing tail with
  | nil => exact .inl ⟨tail, rfl⟩
  | cons f fs ih =>
    obtain ⟨r, rest, last, ha, _⟩ := C35_answer_total tail
    cases r with
    | error e => exact .inr ⟨[], f, fs, tail, e, rest, last, rfl, rfl, ha⟩
    | ok u =>
      cases ha
      rcases ih rest with ⟨rest', h⟩ | ⟨before, f', later, t, e, rest', last, h1, h2, h3⟩
      · exact .inl ⟨rest', by rw [h]; rfl⟩
      · exact .inr ⟨f :: before, f', later, t, e, rest', last, by rw [h1]; rfl, by rw [h2]; rfl, h3⟩

/-- C102: if the session does not open, the program ends as `start` does: no command is written. -/
theorem C102_not_open (cfg : Config) (cmds : List (M Unit)) (w : World) (e : Err) (h : (start cfg w).1 = .error e) :
    script cfg cmds w = start cfg w := by
  unfold script
  generalize hs : start cfg w = s at h
  obtain ⟨r, w'⟩ := s
  have : r = .error e := h
  subst this
  exact bind_error hs

/-- C102: in an event session the first command raises `InvalidSession`, and nothing is written after the handshake. -/
theorem C102_event (cfg : Config) (hc : cfg.session = .event) (cmd : M Unit) (later : List (M Unit)) (f : Str)
    (hf : Sends cfg cmd f) (w : World) (acts : List CAct) (rest : List InEv) (net : List (Option (List InEv)))
    (ho : Opens cfg w acts rest net) :
    script cfg (cmd :: later) w = (.error .invalidSession, conversed w net true rest acts) := by
  unfold script
  rw [bind_ok (start_opens ho)]
  have h := (hf (conversed w net true rest acts)).2 (fun h => h.2 hc)
  have h3 : perform (cmd :: later) _ = _ := bind_error h
  rw [bind_error h3]

/-- C102: the program `automation_01` is up, stop, down, stop for the shutter at 15. -/
theorem C102_shutter (cfg : Config) : ∃ cmds, automation01 cfg = script cfg cmds ∧
    List.Forall₂ (Sends cfg) cmds [cs!"*2*1*15##", cs!"*2*0*15##", cs!"*2*2*15##", cs!"*2*0*15##"] := by
  refine ⟨_, rfl, ?_⟩
  have h : TagText (cs!"15") := by decide +kernel
  have up := C39_command_table_partial cfg .automationUp (by simp) ⟨cs!"15"⟩ h
  have stop := C39_command_table_partial cfg .automationStop (by simp) ⟨cs!"15"⟩ h
  have down := C39_command_table_partial cfg .automationDown (by simp) ⟨cs!"15"⟩ h
  obtain ⟨_, e1, up⟩ := up
  obtain ⟨_, e2, stop⟩ := stop
  obtain ⟨_, e3, down⟩ := down
  cases e1; cases e2; cases e3
  exact .cons up (.cons stop (.cons down (.cons stop .nil)))

/-- C102: the program `camera_01` (its last frame is not the documented `*7*9*##`, see C39). -/
theorem C102_camera (cfg : Config) : ∃ cmds, camera01 cfg = script cfg cmds ∧
    List.Forall₂ (Sends cfg) cmds
      [cs!"*7*0*4000##", cs!"*7*120##", cs!"*7*150##", cs!"*7*160##", cs!"*7*311##", cs!"*7*9##"] := by
  refine ⟨_, rfl, ?_⟩
  have h : TagText (cs!"4000") := by decide +kernel
  obtain ⟨_, e1, c1⟩ := C39_command_table_partial cfg .cameraReceiveVideo (by simp) ⟨cs!"4000"⟩ h
  obtain ⟨_, e2, c2⟩ := C39_command_table_partial cfg .cameraZoomIn (by simp) ⟨cs!"4000"⟩ h
  obtain ⟨_, e3, c3⟩ := C39_command_table_partial cfg .cameraIncreaseLuminosity (by simp) ⟨cs!"4000"⟩ h
  obtain ⟨_, e4, c4⟩ := C39_command_table_partial cfg .cameraIncreaseContrast (by simp) ⟨cs!"4000"⟩ h
  have c5 := (C43_display_dial cfg ⟨cs!"4000"⟩ 1 1).1 1 1 cs!"1" cs!"1" rfl rfl (by decide) (by decide) (by decide)
    (by decide) (by decide +kernel) (by decide +kernel)
  have c6 := (C39_free_resources_refuted cfg ⟨cs!"4000"⟩).2
  cases e1; cases e2; cases e3; cases e4
  exact .cons c1 (.cons c2 (.cons c3 (.cons c4 (.cons c5 (.cons c6 .nil)))))

/-- The hypotheses are met: the shutter program against a gateway that refuses the second command. -/
example (cfg : Config) (h : cfg.session = .command) :
    automation01 cfg ⟨[some ([.ack, .ack, .ack, .nack, .ack].map .msg)], false, [], []⟩ =
      (.error .responseError, ⟨[], true, [.msg .ack], [.connected, .got .ack, .sent cs!"*99*9##", .got .ack,
        .sent cs!"*2*1*15##", .got .ack, .sent cs!"*2*0*15##", .got .nack]⟩) := by
  obtain ⟨cmds, h1, h2⟩ := C102_shutter cfg
  rw [h1]
  rcases h2 with _ | ⟨a, _ | ⟨b, h2⟩⟩
  exact C102_stops cfg (by rw [h]; decide) [_] _ _ [_] _ (.cons a .nil) b _
    [.got .ack, .sent (frame [cs!"99", cfg.session.value]), .got .ack] [.msg .nack, .msg .ack] []
    ⟨[.ack, .ack], rfl, .free⟩ _ _ _ (.refused .nack [.msg .ack] (by decide) (by simp)) |>.trans (by rw [h]; rfl)
