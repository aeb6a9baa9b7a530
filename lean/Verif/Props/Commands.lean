import Verif.Proofs.Commands

/-!
# Properties of the item commands (C39–C43)
-/

open Py Spec M Client Item

/-! ## C39: the command table -/

/-- C39 for every command but two: at every address the command writes the documented frame, once, takes one reply and
succeeds exactly on ACK.  The full statement has no exception; it fails for the two that are left out, as shown below. -/
theorem C39_command_table_partial (cfg : Config) (c : Cmd) (hc : c ≠ .baseTurnOn30Min ∧ c ≠ .cameraFreeResources)
    (wher : Tag) (h : TagText wher.string) :
    ∃ text, documented (wish c) wher.string = some text ∧ Sends cfg (c.run cfg ⟨c.who, wher⟩) text := by
  cases c with
  | baseTurnOn => exact ⟨_, rfl, sends_normal cfg h (by decide +kernel)⟩
  | baseTurnOff => exact ⟨_, rfl, sends_normal cfg h (by decide +kernel)⟩
  | baseTurnOn1Min => exact ⟨_, rfl, sends_normal cfg h (by decide +kernel)⟩
  | baseTurnOn2Min => exact ⟨_, rfl, sends_normal cfg h (by decide +kernel)⟩
  | baseTurnOn3Min => exact ⟨_, rfl, sends_normal cfg h (by decide +kernel)⟩
  | baseTurnOn4Min => exact ⟨_, rfl, sends_normal cfg h (by decide +kernel)⟩
  | baseTurnOn5Min => exact ⟨_, rfl, sends_normal cfg h (by decide +kernel)⟩
  | baseTurnOn15Min => exact ⟨_, rfl, sends_normal cfg h (by decide +kernel)⟩
  | baseTurnOn30Min => simp at hc
  | baseTurnOn0_5Sec => exact ⟨_, rfl, sends_normal cfg h (by decide +kernel)⟩
  | lightTurnOn => exact ⟨_, rfl, sends_normal cfg h (by decide +kernel)⟩
  | lightTurnOff => exact ⟨_, rfl, sends_normal cfg h (by decide +kernel)⟩
  | lightBlink0_5Sec => exact ⟨_, rfl, sends_normal cfg h (by decide +kernel)⟩
  | lightBlink1_0Sec => exact ⟨_, rfl, sends_normal cfg h (by decide +kernel)⟩
  | lightBlink1_5Sec => exact ⟨_, rfl, sends_normal cfg h (by decide +kernel)⟩
  | lightBlink2_0Sec => exact ⟨_, rfl, sends_normal cfg h (by decide +kernel)⟩
  | lightBlink2_5Sec => exact ⟨_, rfl, sends_normal cfg h (by decide +kernel)⟩
  | lightBlink3_0Sec => exact ⟨_, rfl, sends_normal cfg h (by decide +kernel)⟩
  | lightBlink3_5Sec => exact ⟨_, rfl, sends_normal cfg h (by decide +kernel)⟩
  | lightBlink4_0Sec => exact ⟨_, rfl, sends_normal cfg h (by decide +kernel)⟩
  | lightBlink4_5Sec => exact ⟨_, rfl, sends_normal cfg h (by decide +kernel)⟩
  | lightBlink5_0Sec => exact ⟨_, rfl, sends_normal cfg h (by decide +kernel)⟩
  | dimmerSet20Percent => exact ⟨_, rfl, sends_normal cfg h (by decide +kernel)⟩
  | dimmerSet30Percent => exact ⟨_, rfl, sends_normal cfg h (by decide +kernel)⟩
  | dimmerSet40Percent => exact ⟨_, rfl, sends_normal cfg h (by decide +kernel)⟩
  | dimmerSet50Percent => exact ⟨_, rfl, sends_normal cfg h (by decide +kernel)⟩
  | dimmerSet60Percent => exact ⟨_, rfl, sends_normal cfg h (by decide +kernel)⟩
  | dimmerSet70Percent => exact ⟨_, rfl, sends_normal cfg h (by decide +kernel)⟩
  | dimmerSet80Percent => exact ⟨_, rfl, sends_normal cfg h (by decide +kernel)⟩
  | dimmerSet90Percent => exact ⟨_, rfl, sends_normal cfg h (by decide +kernel)⟩
  | dimmerSet100Percent => exact ⟨_, rfl, sends_normal cfg h (by decide +kernel)⟩
  | automationStop => exact ⟨_, rfl, sends_normal cfg h (by decide +kernel)⟩
  | automationUp => exact ⟨_, rfl, sends_normal cfg h (by decide +kernel)⟩
  | automationDown => exact ⟨_, rfl, sends_normal cfg h (by decide +kernel)⟩
  | cameraReceiveVideo => exact ⟨_, rfl, sends_normal cfg h (by decide +kernel)⟩
  | cameraFreeResources => simp at hc
  | cameraZoomIn => exact ⟨_, rfl, sends_command (tags_short .videoDoorEntry (by decide +kernel))⟩
  | cameraZoomOut => exact ⟨_, rfl, sends_command (tags_short .videoDoorEntry (by decide +kernel))⟩
  | cameraIncreaseXCoordinate => exact ⟨_, rfl, sends_command (tags_short .videoDoorEntry (by decide +kernel))⟩
  | cameraDecreaseXCoordinate => exact ⟨_, rfl, sends_command (tags_short .videoDoorEntry (by decide +kernel))⟩
  | cameraIncreaseYCoordinate => exact ⟨_, rfl, sends_command (tags_short .videoDoorEntry (by decide +kernel))⟩
  | cameraDecreaseYCoordinate => exact ⟨_, rfl, sends_command (tags_short .videoDoorEntry (by decide +kernel))⟩
  | cameraIncreaseLuminosity => exact ⟨_, rfl, sends_command (tags_short .videoDoorEntry (by decide +kernel))⟩
  | cameraDecreaseLuminosity => exact ⟨_, rfl, sends_command (tags_short .videoDoorEntry (by decide +kernel))⟩
  | cameraIncreaseContrast => exact ⟨_, rfl, sends_command (tags_short .videoDoorEntry (by decide +kernel))⟩
  | cameraDecreaseContrast => exact ⟨_, rfl, sends_command (tags_short .videoDoorEntry (by decide +kernel))⟩
  | cameraIncreaseColor => exact ⟨_, rfl, sends_command (tags_short .videoDoorEntry (by decide +kernel))⟩
  | cameraDecreaseColor => exact ⟨_, rfl, sends_command (tags_short .videoDoorEntry (by decide +kernel))⟩
  | cameraIncreaseQuality => exact ⟨_, rfl, sends_command (tags_short .videoDoorEntry (by decide +kernel))⟩
  | cameraDecreaseQuality => exact ⟨_, rfl, sends_command (tags_short .videoDoorEntry (by decide +kernel))⟩
  | energyEnableActuator => exact ⟨_, rfl, sends_normal cfg h (by decide +kernel)⟩
  | energyForceActuatorOff => exact ⟨_, rfl, sends_normal cfg h (by decide +kernel)⟩
  | stopGoEnableAutomaticReset => exact ⟨_, rfl, sends_normal cfg h (by decide +kernel)⟩
  | stopGoDisableAutomaticReset => exact ⟨_, rfl, sends_normal cfg h (by decide +kernel)⟩
  | dimmerTurnOn =>
    refine ⟨_, rfl, ?_⟩
    unfold Cmd.run
    rw [(dimmer_none cfg _).1]
    exact sends_normal cfg h (by decide +kernel)
  | dimmerTurnOff =>
    refine ⟨_, rfl, ?_⟩
    unfold Cmd.run
    rw [(dimmer_none cfg _).2.1]
    exact sends_normal cfg h (by decide +kernel)
  | dimmerUpPercent =>
    refine ⟨_, rfl, ?_⟩
    unfold Cmd.run
    rw [(dimmer_none cfg _).2.2.1]
    exact sends_normal cfg h (by decide +kernel)
  | dimmerDownPercent =>
    refine ⟨_, rfl, ?_⟩
    unfold Cmd.run
    rw [(dimmer_none cfg _).2.2.2]
    exact sends_normal cfg h (by decide +kernel)
  | energyForceActuatorOn => exact ⟨_, rfl, sends_normal cfg h (by decide +kernel)⟩

/-- C39 fails for `turn_on_30_min`: no documented frame lights a lamp for half an hour, and the frame that is sent lights it
for half a minute. -/
theorem C39_turn_on_30_min_refuted (cfg : Config) (wher : Tag) (h : TagText wher.string) :
    wish .baseTurnOn30Min = .timed (30 * 60 * 1000) ∧ documented (.timed (30 * 60 * 1000)) wher.string = none ∧
    ∃ text, documented (.timed (30 * 1000)) wher.string = some text ∧
      Sends cfg (Cmd.baseTurnOn30Min.run cfg ⟨.lighting, wher⟩) text :=
  ⟨rfl, rfl, _, rfl, sends_normal cfg h (by decide +kernel)⟩

/-- C39 fails for `free_resources`: it sends `*7*9##`, and the documents have `*7*9*##`. -/
theorem C39_free_resources_refuted (cfg : Config) (wher : Tag) :
    documented (wish .cameraFreeResources) wher.string = some cs!"*7*9*##" ∧
    Sends cfg (Cmd.cameraFreeResources.run cfg ⟨.videoDoorEntry, wher⟩) cs!"*7*9##" :=
  ⟨rfl, sends_command (tags_short .videoDoorEntry (by decide +kernel))⟩

/-- The statement of C39 distinguishes frames: a command sends at most one text. -/
theorem C39_frame_unique (cfg : Config) (hc : cfg.session ≠ .event) (x : M Unit) (s t : Str) (hs : Sends cfg x s)
    (ht : Sends cfg x t) : s = t := by
  have h1 := (hs ⟨[], true, [], []⟩).1 ⟨rfl, hc⟩ _ _ _ Ending.nothing
  have h2 := (ht ⟨[], true, [], []⟩).1 ⟨rfl, hc⟩ _ _ _ Ending.nothing
  rw [h1] at h2
  simpa [World.after] using h2

/-- The hypotheses are met: a blinking lamp behind an interface. -/
example (cfg : Config) : Sends cfg (Cmd.lightBlink2_5Sec.run cfg ⟨.lighting, ⟨cs!"12#4#01"⟩⟩) cs!"*1*24*12#4#01##" := by
  obtain ⟨t, h1, h2⟩ := C39_command_table_partial cfg .lightBlink2_5Sec (by simp) ⟨cs!"12#4#01"⟩ (by decide +kernel)
  cases h1
  exact h2

/-! ## C40: dimmer commands with arguments -/

/-- C40 fails: a speed makes `turn_on` and `turn_off` raise `ValueError`, whatever the speed. -/
theorem C40_speed_refuted (cfg : Config) (i : Item) (speed : Int) :
    Refuses (Dimmer.turnOn cfg i (some speed)) .valueError ∧ Refuses (Dimmer.turnOff cfg i (some speed)) .valueError := by
  constructor
  · unfold Dimmer.turnOn
    split_ifs
    · exact refuses_raise _
    · exact refuses_lift (withParameter_member _ speed)
  · unfold Dimmer.turnOff
    split_ifs
    · exact refuses_raise _
    · exact refuses_lift (withParameter_member _ speed)

/-- C40 fails: an amount or a speed makes `up_percent` and `down_percent` raise `ValueError`. -/
theorem C40_amount_refuted (cfg : Config) (i : Item) (value speed : Option Int) (h : value ≠ none ∨ speed ≠ none) :
    Refuses (Dimmer.upPercent cfg i value speed) .valueError ∧
    Refuses (Dimmer.downPercent cfg i value speed) .valueError := by
  constructor
  · unfold Dimmer.upPercent
    split_ifs
    · exact refuses_raise _
    · rcases value with _ | v
      · rcases speed with _ | s
        · simp at h
        · exact refuses_later rfl (refuses_lift (withParameter_member _ s))
      · exact refuses_lift (withParameter_member _ v)
  · unfold Dimmer.downPercent
    split_ifs
    · exact refuses_raise _
    · rcases value with _ | v
      · rcases speed with _ | s
        · simp at h
        · exact refuses_later rfl (refuses_lift (withParameter_member _ s))
      · exact refuses_lift (withParameter_member _ v)

/-- C40, the negation of the statement for `turn_on`, at a ready client with the ACK waiting. -/
theorem C40_documented_frame_refuted (cfg : Config) (hc : cfg.session ≠ .event) :
    ¬ ∀ (i : Item) (_ : TagText i.wher.string) (speed : Nat) (s : Str) (_ : Numeral s speed) (_ : speed ≤ 255),
      ∀ w, Ready cfg w → ∀ r rest acts, Answer w.inbox r rest acts →
        Dimmer.turnOn cfg i (some speed) w =
          (r, w.after rest (.sent (frame [cs!"1", cs!"1#" ++ s, i.wher.string]) :: acts)) := by
  intro h
  have := h ⟨.lighting, ⟨cs!"12"⟩⟩ (by decide +kernel) 5 cs!"5" (by decide +kernel) (by decide)
    ⟨[], true, [.msg .ack], []⟩ ⟨rfl, hc⟩ _ _ _ (Ending.acknowledged _)
  rw [(C40_speed_refuted cfg _ _).1] at this
  simp at this

/-- C40 as far as it holds: arguments out of range raise `ValueError` and send nothing; without arguments the documented
frame is sent.  Missing: the frames with arguments. -/
theorem C40_partial (cfg : Config) (i : Item) (hw : i.who = .lighting) (hi : TagText i.wher.string) (n : Int)
    (value speed : Option Int) :
    (n < 0 ∨ n > 255 → Refuses (Dimmer.turnOn cfg i (some n)) .valueError ∧
      Refuses (Dimmer.turnOff cfg i (some n)) .valueError) ∧
    (value.any (fun n => n < 0 ∨ n > 100) → Refuses (Dimmer.upPercent cfg i value speed) .valueError ∧
      Refuses (Dimmer.downPercent cfg i value speed) .valueError) ∧
    (value.any (fun n => 0 ≤ n ∧ n ≤ 100) → speed.any (fun n => n < 0 ∨ n > 255) →
      Refuses (Dimmer.upPercent cfg i value speed) .valueError ∧
      Refuses (Dimmer.downPercent cfg i value speed) .valueError) ∧
    Sends cfg (Dimmer.turnOn cfg i none) (frame [cs!"1", cs!"1", i.wher.string]) ∧
    Sends cfg (Dimmer.turnOff cfg i none) (frame [cs!"1", cs!"0", i.wher.string]) ∧
    Sends cfg (Dimmer.upPercent cfg i none none) (frame [cs!"1", cs!"30", i.wher.string]) ∧
    Sends cfg (Dimmer.downPercent cfg i none none) (frame [cs!"1", cs!"31", i.wher.string]) := by
  obtain ⟨_, wher⟩ := i
  subst hw
  refine ⟨fun _ => C40_speed_refuted cfg _ n, fun h => C40_amount_refuted cfg _ _ _ (.inl ?_),
    fun h _ => C40_amount_refuted cfg _ _ _ (.inl ?_), ?_, ?_, ?_, ?_⟩
  · rintro rfl; simp at h
  · rintro rfl; simp at h
  · rw [(dimmer_none cfg _).1]; exact sends_normal cfg hi (by decide +kernel)
  · rw [(dimmer_none cfg _).2.1]; exact sends_normal cfg hi (by decide +kernel)
  · rw [(dimmer_none cfg _).2.2.1]; exact sends_normal cfg hi (by decide +kernel)
  · rw [(dimmer_none cfg _).2.2.2]; exact sends_normal cfg hi (by decide +kernel)

/-! ## C41: range-checked settings -/

/-- C41, `set_hsv`: in range the documented frame with exactly these numbers, otherwise `ValueError` and nothing sent. -/
theorem C41_hsv (cfg : Config) (wher : Tag) (hi : TagText wher.string) (hue saturation value : Int) :
    (∀ (a b c : Nat) (s t u : Str), hue = a → saturation = b → value = c → a ≤ 359 → b ≤ 100 → c ≤ 100 →
      Numeral s a → Numeral t b → Numeral u c →
      Sends cfg (Dimmer.setHsv cfg ⟨.lighting, wher⟩ hue saturation value)
        (frame [cs!"#1", wher.string, cs!"#12", s, t, u])) ∧
    ((hue < 0 ∨ 359 < hue ∨ saturation < 0 ∨ 100 < saturation ∨ value < 0 ∨ 100 < value) →
      Refuses (Dimmer.setHsv cfg ⟨.lighting, wher⟩ hue saturation value) .valueError) := by
  constructor
  · rintro a b c s t u rfl rfl rfl ha hb hc hs ht hu
    unfold Dimmer.setHsv
    rw [if_neg (by omega), if_neg (by omega), if_neg (by omega)]
    have hs' := ofInt_small hs (by omega)
    have ht' := ofInt_small ht (by omega)
    have hu' := ofInt_small hu (by omega)
    refine sends_lift hs' (sends_lift ht' (sends_lift hu' ?_))
    refine sends_writing cfg (i := ⟨.lighting, wher⟩) hi (dim := cs!"12") (by decide +kernel) (by simp) ?_
    simp [TagText.of_digits hs.2.1, TagText.of_digits ht.2.1, TagText.of_digits hu.2.1]
  · intro h
    unfold Dimmer.setHsv
    split_ifs <;> first | exact refuses_raise _ | omega

/-- C41, `set_white_temperature`: in range one frame with the number, otherwise `ValueError` and nothing sent.  The documents
have dimension 14 for the white temperature; what is sent is dimension 13, so the claim holds but for the dimension. -/
theorem C41_white_temperature_partial (cfg : Config) (wher : Tag) (hi : TagText wher.string) (temperature : Int) :
    (∀ (a : Nat) (s : Str), temperature = a → 1 ≤ a → a ≤ 65534 → Numeral s a →
      Sends cfg (Dimmer.setWhiteTemperature cfg ⟨.lighting, wher⟩ temperature)
        (frame [cs!"#1", wher.string, cs!"#13", s])) ∧
    ((temperature < 1 ∨ 65534 < temperature) →
      Refuses (Dimmer.setWhiteTemperature cfg ⟨.lighting, wher⟩ temperature) .valueError) := by
  constructor
  · rintro a s rfl h1 h2 hs
    unfold Dimmer.setWhiteTemperature
    rw [if_neg (by omega)]
    refine sends_lift (ofInt_small hs (by omega)) ?_
    refine sends_writing cfg (i := ⟨.lighting, wher⟩) hi (dim := cs!"13") (by decide +kernel) (by simp) ?_
    simp [TagText.of_digits hs.2.1]
  · intro h
    unfold Dimmer.setWhiteTemperature
    rw [if_pos (by omega)]
    exact refuses_raise _

/-- C41 fails for the dimension of the white temperature: the documented frame is never sent. -/
theorem C41_white_temperature_refuted (cfg : Config) (hc : cfg.session ≠ .event) (wher : Tag) (hi : TagText wher.string)
    (a : Nat) (s : Str) (h1 : 1 ≤ a) (h2 : a ≤ 65534) (hs : Numeral s a) :
    ¬ Sends cfg (Dimmer.setWhiteTemperature cfg ⟨.lighting, wher⟩ a) (frame [cs!"#1", wher.string, cs!"#14", s]) := by
  intro h
  have := C39_frame_unique cfg hc _ _ _ h ((C41_white_temperature_partial cfg wher hi a).1 a s rfl h1 h2 hs)
  simp [frame, body] at this

/-- C41, `set_brightness_with_speed`: with numbers the documented frame with exactly these numbers, a negative one raises an
exception and sends nothing; with texts the frame with these texts, and `InvalidTag` for the first that is no tag. -/
theorem C41_brightness (cfg : Config) (wher : Tag) (hi : TagText wher.string) :
    (∀ (a b : Nat) (s t : Str), Numeral s a → Numeral t b → s.length ≤ 4300 → t.length ≤ 4300 →
      Sends cfg (Dimmer.setBrightnessWithSpeed cfg ⟨.lighting, wher⟩ a b) (frame [cs!"#1", wher.string, cs!"#1", s, t])) ∧
    (∀ a b : Int, a < 0 ∨ b < 0 → ∃ e, (e = .valueError ∨ ∃ s, e = .invalidTag s) ∧
      Refuses (Dimmer.setBrightnessWithSpeed cfg ⟨.lighting, wher⟩ a b) e) ∧
    (∀ s t : Str, TagText s → TagText t →
      Sends cfg (Dimmer.setBrightnessWithSpeedStr cfg ⟨.lighting, wher⟩ s t) (frame [cs!"#1", wher.string, cs!"#1", s, t])) ∧
    (∀ s t : Str, ¬ TagText s → Refuses (Dimmer.setBrightnessWithSpeedStr cfg ⟨.lighting, wher⟩ s t) (.invalidTag s)) ∧
    (∀ s t : Str, TagText s → ¬ TagText t →
      Refuses (Dimmer.setBrightnessWithSpeedStr cfg ⟨.lighting, wher⟩ s t) (.invalidTag t)) := by
  have bad : ∀ s : Str, ¬ TagText s → Tag.ofStr s = .error (.invalidTag s) := by
    intro s h
    unfold Tag.ofStr
    rw [if_neg (by rw [isValidTag_iff]; exact h)]
  refine ⟨fun a b s t hs ht ls lt => ?_, fun a b h => ?_, fun s t hs ht => ?_, fun s t hs => refuses_lift (bad s hs),
    fun s t hs ht => refuses_later (ofStr_ok hs) (refuses_lift (bad t ht))⟩
  · refine sends_lift (ofInt_numeral hs ls) (sends_lift (ofInt_numeral ht lt) ?_)
    refine sends_writing cfg (i := ⟨.lighting, wher⟩) hi (dim := cs!"1") (by decide +kernel) (by simp) ?_
    simp [TagText.of_digits hs.2.1, TagText.of_digits ht.2.1]
  · rcases ofInt_any a with ⟨t, ha⟩ | ⟨e, he, ha⟩
    · have := ofInt_nonneg ha
      rcases ofInt_any b with ⟨u, hb⟩ | ⟨e, he, hb⟩
      · have := ofInt_nonneg hb
        omega
      · exact ⟨e, he, refuses_later ha (refuses_lift hb)⟩
    · exact ⟨e, he, refuses_lift ha⟩
  · refine sends_lift (ofStr_ok hs) (sends_lift (ofStr_ok ht) ?_)
    refine sends_writing cfg (i := ⟨.lighting, wher⟩) hi (dim := cs!"1") (by decide +kernel) (by simp) ?_
    simp [hs, ht]

/-- The hypotheses are met. -/
example (cfg : Config) :
    Sends cfg (Dimmer.setBrightnessWithSpeed cfg ⟨.lighting, ⟨cs!"12"⟩⟩ 150 20) cs!"*#1*12*#1*150*20##" :=
  (C41_brightness cfg ⟨cs!"12"⟩ (by decide +kernel)).1 150 20 cs!"150" cs!"20" (by decide +kernel) (by decide +kernel)
    (by decide) (by decide)

/-- C41, `temporization_command`: below 24 hours, in range, the documented frame with exactly these numbers; an argument
out of range raises an exception and sends nothing.  Missing: 24 to 255 hours. -/
theorem C41_temporization_partial (cfg : Config) (wher : Tag) (hi : TagText wher.string) (hour minute second : Int) :
    (∀ (a b c : Nat) (s t u : Str), hour = a → minute = b → second = c → a < 24 → b < 60 → c < 60 →
      Numeral s a → Numeral t b → Numeral u c →
      Sends cfg (BaseLight.temporizationCommand cfg ⟨.lighting, wher⟩ hour minute second)
        (frame [cs!"#1", wher.string, cs!"#2", s, t, u])) ∧
    ((hour < 0 ∨ 255 < hour ∨ minute < 0 ∨ 59 < minute ∨ second < 0 ∨ 59 < second) →
      ∃ e, (e = .valueError ∨ ∃ s, e = .invalidTag s) ∧
        Refuses (BaseLight.temporizationCommand cfg ⟨.lighting, wher⟩ hour minute second) e) := by
  constructor
  · rintro a b c s t u rfl rfl rfl ha hb hc hs ht hu
    unfold BaseLight.temporizationCommand
    rw [if_neg (by omega)]
    have hs' := ofInt_small hs (by omega)
    have ht' := ofInt_small ht (by omega)
    have hu' := ofInt_small hu (by omega)
    refine sends_lift hs' (sends_lift ht' (sends_lift hu' ?_))
    refine sends_writing cfg (i := ⟨.lighting, wher⟩) hi (dim := cs!"2") (by decide +kernel) (by simp) ?_
    simp [TagText.of_digits hs.2.1, TagText.of_digits ht.2.1, TagText.of_digits hu.2.1]
  · intro h
    unfold BaseLight.temporizationCommand
    by_cases hb : hour ≥ 24 ∨ minute ≥ 60 ∨ second ≥ 60
    · exact ⟨_, .inl rfl, by rw [if_pos hb]; exact refuses_raise _⟩
    · rw [if_neg hb]
      push Not at hb
      rcases ofInt_any hour with ⟨th, hh⟩ | ⟨e, he, hh⟩
      · rcases ofInt_any minute with ⟨tm, hm⟩ | ⟨e, he, hm⟩
        · rcases ofInt_any second with ⟨ts, hs⟩ | ⟨e, he, hs⟩
          · exfalso
            have := ofInt_nonneg hh
            have := ofInt_nonneg hm
            have := ofInt_nonneg hs
            omega
          · exact ⟨e, he, refuses_later hh (refuses_later hm (refuses_lift hs))⟩
        · exact ⟨e, he, refuses_later hh (refuses_lift hm)⟩
      · exact ⟨e, he, refuses_lift hh⟩

/-- C41 fails for long periods: the documents allow up to 255 hours, the method refuses from 24 on. -/
theorem C41_temporization_refuted (cfg : Config) (i : Item) (hour minute second : Int) (_ : 24 ≤ hour ∧ hour ≤ 255)
    (_ : 0 ≤ minute ∧ minute ≤ 59) (_ : 0 ≤ second ∧ second ≤ 59) :
    Refuses (BaseLight.temporizationCommand cfg i hour minute second) .valueError := by
  unfold BaseLight.temporizationCommand
  rw [if_pos (by omega)]
  exact refuses_raise _

/-- The hypotheses are met. -/
example (cfg : Config) : Sends cfg (Dimmer.setHsv cfg ⟨.lighting, ⟨cs!"12"⟩⟩ 359 0 100) cs!"*#1*12*#12*359*0*100##" :=
  (C41_hsv cfg ⟨cs!"12"⟩ (by decide +kernel) 359 0 100).1 359 0 100 cs!"359" cs!"0" cs!"100" rfl rfl rfl (by decide)
    (by decide) (by decide) (by decide +kernel) (by decide +kernel) (by decide +kernel)

/-! ## C42: energy commands with arguments -/

/-- C42: the reporting, forcing and reset commands with one argument send the documented frame with exactly the given
number. -/
theorem C42_one_argument (cfg : Config) (wher : Tag) (hi : TagText wher.string) (now : Int × Int) (n : Nat) (s : Str)
    (hs : Numeral s n) (hl : s.length ≤ 4300) :
    Sends cfg (EnergyManagement.startSendingMonthlyAverageHourly cfg now ⟨.energyManagement, wher⟩ (some n))
      (frame [cs!"18", cs!"58#" ++ s, wher.string]) ∧
    Sends cfg (EnergyManagement.startSendingMonthlyTotalizersCurrentYear cfg now ⟨.energyManagement, wher⟩ (some n))
      (frame [cs!"18", cs!"59#" ++ s, wher.string]) ∧
    Sends cfg (EnergyManagement.startSendingMonthlyTotalizersLastYear cfg now ⟨.energyManagement, wher⟩ (some n))
      (frame [cs!"18", cs!"510#" ++ s, wher.string]) ∧
    Sends cfg (EnergyManagement.forceActuatorOn cfg ⟨.energyManagement, wher⟩ (some n))
      (frame [cs!"18", cs!"73#" ++ s, wher.string]) ∧
    Sends cfg (EnergyManagement.resetTotalizers cfg ⟨.energyManagement, wher⟩ n)
      (frame [cs!"18", cs!"75#" ++ s, wher.string]) ∧
    Sends cfg (EnergyManagement.stopSendingInstantPower cfg ⟨.energyManagement, wher⟩ n)
      (frame [cs!"#18", wher.string, cs!"#1200#" ++ s, cs!"0"]) := by
  have key : ∀ what : Str, TagText what → TagText (what ++ cs!"#" ++ s) := fun what h =>
    TagText.append (TagText.append h (by decide +kernel)) (TagText.of_digits hs.2.1)
  refine ⟨?_, ?_, ?_, ?_, ?_, ?_⟩
  · exact sends_lift (energy_param hs hl (by decide +kernel)) (sends_normalTag cfg (i := ⟨.energyManagement, wher⟩) hi (key _ (by decide +kernel)))
  · exact sends_lift (energy_param hs hl (by decide +kernel)) (sends_normalTag cfg (i := ⟨.energyManagement, wher⟩) hi (key _ (by decide +kernel)))
  · exact sends_lift (energy_param hs hl (by decide +kernel)) (sends_normalTag cfg (i := ⟨.energyManagement, wher⟩) hi (key _ (by decide +kernel)))
  · exact sends_lift (energy_param hs hl (by decide +kernel)) (sends_normalTag cfg (i := ⟨.energyManagement, wher⟩) hi (key _ (by decide +kernel)))
  · exact sends_lift (energy_param hs hl (by decide +kernel)) (sends_normalTag cfg (i := ⟨.energyManagement, wher⟩) hi (key _ (by decide +kernel)))
  · refine sends_lift (energy_param hs hl (by decide +kernel)) (sends_lift (a := ⟨cs!"0"⟩) (by decide +kernel) ?_)
    exact sends_writingTag cfg (i := ⟨.energyManagement, wher⟩) hi (key _ (by decide +kernel)) (by simp) (by simp; decide +kernel)

/-- C42, `start_sending_instant_power`. -/
theorem C42_instant_power (cfg : Config) (wher : Tag) (hi : TagText wher.string) (n k : Nat) (s t : Str)
    (hs : Numeral s n) (hl : s.length ≤ 4300) (ht : Numeral t k) (hk : t.length ≤ 4300) :
    Sends cfg (EnergyManagement.startSendingInstantPower cfg ⟨.energyManagement, wher⟩ n k)
      (frame [cs!"#18", wher.string, cs!"#1200#" ++ t, s]) := by
  refine sends_lift (energy_param ht hk (by decide +kernel)) (sends_lift (ofInt_numeral hs hl) ?_)
  exact sends_writingTag cfg (i := ⟨.energyManagement, wher⟩) hi (TagText.append (by decide +kernel) (TagText.of_digits ht.2.1))
    (by simp) (by simpa using TagText.of_digits hs.2.1)

/-- C42: a missing month or day is the one of the clock. -/
theorem C42_defaults (cfg : Config) (i : Item) (now : Int × Int) :
    EnergyManagement.startSendingMonthlyAverageHourly cfg now i none =
      EnergyManagement.startSendingMonthlyAverageHourly cfg now i (some now.2) ∧
    EnergyManagement.startSendingMonthlyTotalizersCurrentYear cfg now i none =
      EnergyManagement.startSendingMonthlyTotalizersCurrentYear cfg now i (some now.2) ∧
    EnergyManagement.startSendingMonthlyTotalizersLastYear cfg now i none =
      EnergyManagement.startSendingMonthlyTotalizersLastYear cfg now i (some now.2) ∧
    (∀ month, EnergyManagement.startSendingDailyTotalizersHourly cfg now i none month =
      EnergyManagement.startSendingDailyTotalizersHourly cfg now i (some now.1) month) ∧
    (∀ day, EnergyManagement.startSendingDailyTotalizersHourly cfg now i day none =
      EnergyManagement.startSendingDailyTotalizersHourly cfg now i day (some now.2)) :=
  ⟨rfl, rfl, rfl, fun _ => rfl, fun _ => rfl⟩

/-- C42, the daily report as far as it holds: one frame with both numbers, but the day first; the documents have the month
first. -/
theorem C42_daily_partial (cfg : Config) (wher : Tag) (hi : TagText wher.string) (now : Int × Int) (day month : Nat) (s t : Str)
    (hs : Numeral s day) (hl : s.length ≤ 4300) (ht : Numeral t month) (hk : t.length ≤ 4300) :
    Sends cfg (EnergyManagement.startSendingDailyTotalizersHourly cfg now ⟨.energyManagement, wher⟩ (some day) (some month))
      (frame [cs!"18", cs!"57#" ++ s ++ cs!"#" ++ t, wher.string]) := by
  have h1 : TagText (cs!"57#" ++ s) := TagText.append (by decide +kernel) (TagText.of_digits hs.2.1)
  have h2 : TagText (cs!"57#" ++ s ++ cs!"#" ++ t) :=
    TagText.append (TagText.append h1 (by decide +kernel)) (TagText.of_digits ht.2.1)
  refine sends_lift (energy_param hs hl (by decide +kernel)) (sends_lift (a := ⟨cs!"57#" ++ s ++ cs!"#" ++ t⟩) ?_ ?_)
  · exact tag_param ht hk h1
  · exact sends_normalTag cfg (i := ⟨.energyManagement, wher⟩) hi h2

/-- C42 fails for the daily report: unless day and month are the same number, the documented frame is not sent. -/
theorem C42_daily_refuted (cfg : Config) (hc : cfg.session ≠ .event) (wher : Tag) (hi : TagText wher.string) (now : Int × Int)
    (day month : Nat) (s t : Str) (hs : Numeral s day) (hl : s.length ≤ 4300) (ht : Numeral t month) (hk : t.length ≤ 4300)
    (hne : day ≠ month) :
    ¬ Sends cfg (EnergyManagement.startSendingDailyTotalizersHourly cfg now ⟨.energyManagement, wher⟩ (some day) (some month))
      (frame [cs!"18", cs!"57#" ++ t ++ cs!"#" ++ s, wher.string]) := by
  intro h
  have := C39_frame_unique cfg hc _ _ _ h (C42_daily_partial cfg wher hi now day month s t hs hl ht hk)
  simp only [frame, body, List.append_assoc, List.cons_append, List.nil_append, List.cons.injEq, true_and] at this
  have := hash_cancel (Digits.not_hash ht.2.1) (Digits.not_hash hs.2.1) this
  subst this
  exact hne (hs.2.2.1.symm.trans ht.2.2.1)

/-- C42: a negative argument raises `InvalidTag` (`ValueError` beyond 4300 digits) and sends nothing. -/
theorem C42_negative (cfg : Config) (i : Item) (now : Int × Int) (n : Int) (h : n < 0) (month : Option Int) (k : Int) :
    ∃ e : Str → Err, (∀ what, e what = .valueError ∨ e what = .invalidTag (what ++ cs!"#" ++ intToStr n)) ∧
    Refuses (EnergyManagement.startSendingMonthlyAverageHourly cfg now i (some n)) (e cs!"58") ∧
    Refuses (EnergyManagement.startSendingMonthlyTotalizersCurrentYear cfg now i (some n)) (e cs!"59") ∧
    Refuses (EnergyManagement.startSendingMonthlyTotalizersLastYear cfg now i (some n)) (e cs!"510") ∧
    Refuses (EnergyManagement.forceActuatorOn cfg i (some n)) (e cs!"73") ∧
    Refuses (EnergyManagement.resetTotalizers cfg i n) (e cs!"75") ∧
    Refuses (EnergyManagement.startSendingDailyTotalizersHourly cfg now i (some n) month) (e cs!"57") ∧
    Refuses (EnergyManagement.startSendingInstantPower cfg i k n) (e cs!"1200") ∧
    Refuses (EnergyManagement.stopSendingInstantPower cfg i n) (e cs!"1200") := by
  obtain ⟨e, he, hp⟩ := energy_negative h
  exact ⟨e, he, refuses_lift (hp _), refuses_lift (hp _), refuses_lift (hp _), refuses_lift (hp _), refuses_lift (hp _),
    refuses_lift (hp _), refuses_lift (hp _), refuses_lift (hp _)⟩

/-- C42: also the second argument of the daily report and the period of the instant power. -/
theorem C42_negative_second (cfg : Config) (i : Item) (now : Int × Int) (n : Int) (h : n < 0) (day : Option Int) (k : Int) :
    (∃ e, (e = .valueError ∨ ∃ s, e = .invalidTag s) ∧
      Refuses (EnergyManagement.startSendingDailyTotalizersHourly cfg now i day (some n)) e) ∧
    (∃ e, (e = .valueError ∨ ∃ s, e = .invalidTag s) ∧
      Refuses (EnergyManagement.startSendingInstantPower cfg i n k) e) := by
  constructor
  · rcases energy_any WhatEnergy.sendDailyReport (day.getD now.1) with ⟨t, ht⟩ | ⟨e, he, h'⟩
    · obtain ⟨e, he, hp⟩ := energy_negative h
      refine ⟨e t.string, ?_, refuses_later ht (refuses_lift (hp t.string))⟩
      rcases he t.string with h | h
      · exact .inl h
      · exact .inr ⟨_, h⟩
    · exact ⟨e, he, refuses_lift h'⟩
  · rcases energy_any DimensionEnergy.endAutomaticUpdateSize k with ⟨t, ht⟩ | ⟨e, he, h'⟩
    · rcases C01_tag_negative n h with hn | hn
      · exact ⟨_, .inr ⟨_, rfl⟩, refuses_later ht (refuses_lift hn)⟩
      · exact ⟨_, .inl rfl, refuses_later ht (refuses_lift hn)⟩
    · exact ⟨e, he, refuses_lift h'⟩

/-- The hypotheses are met. -/
example (cfg : Config) :
    Sends cfg (EnergyManagement.forceActuatorOn cfg ⟨.energyManagement, ⟨cs!"71#0"⟩⟩ (some 254)) cs!"*18*73#254*71#0##" :=
  (C42_one_argument cfg ⟨cs!"71#0"⟩ (by decide +kernel) (1, 1) 254 cs!"254" (by decide +kernel) (by decide)).2.2.2.1

/-! ## C43: the dial -/

/-- C43: `display_dial` sends `*7*3xy##` on the 4×4 grid, and raises `ValueError` and sends nothing elsewhere. -/
theorem C43_display_dial (cfg : Config) (wher : Tag) (x y : Int) :
    (∀ (a b : Nat) (s t : Str), x = a → y = b → 1 ≤ a → a ≤ 4 → 1 ≤ b → b ≤ 4 → Numeral s a → Numeral t b →
      Sends cfg (Camera.displayDial cfg ⟨.videoDoorEntry, wher⟩ x y) (frame [cs!"7", cs!"3" ++ s ++ t])) ∧
    (¬ (1 ≤ x ∧ x ≤ 4 ∧ 1 ≤ y ∧ y ≤ 4) → Refuses (Camera.displayDial cfg ⟨.videoDoorEntry, wher⟩ x y) .valueError) := by
  constructor
  · rintro a b s t rfl rfl h1 h2 h3 h4 hs ht
    rw [numeral_iff] at hs ht
    subst hs ht
    interval_cases a <;> interval_cases b <;>
      exact sends_command (tags_short .videoDoorEntry (by decide +kernel))
  · intro h
    unfold Camera.displayDial
    rw [if_pos (by omega)]
    exact refuses_raise _

/-- The hypotheses are met. -/
example (cfg : Config) : Sends cfg (Camera.displayDial cfg ⟨.videoDoorEntry, ⟨cs!"4001"⟩⟩ 2 3) cs!"*7*323##" :=
  (C43_display_dial cfg ⟨cs!"4001"⟩ 2 3).1 2 3 cs!"2" cs!"3" rfl rfl (by decide) (by decide) (by decide) (by decide)
    (by decide +kernel) (by decide +kernel)
