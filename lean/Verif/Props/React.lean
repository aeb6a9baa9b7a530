import Verif.Props.Bound
import Verif.Props.Commands

/-! # C129: a callback can command the device it hears about -/

open Py Spec Events

namespace Spec

/-- The commands an object of the class has: those of `Light` and its bases, of `Automation` and of `EnergyManagement`.  The
class `Gateway` has none. -/
def Has : Cls → Cmd → Prop
  | .light, c => c ∈ [Cmd.baseTurnOn, .baseTurnOff, .baseTurnOn1Min, .baseTurnOn2Min, .baseTurnOn3Min, .baseTurnOn4Min,
      .baseTurnOn5Min, .baseTurnOn15Min, .baseTurnOn30Min, .baseTurnOn0_5Sec, .lightTurnOn, .lightTurnOff, .lightBlink0_5Sec,
      .lightBlink1_0Sec, .lightBlink1_5Sec, .lightBlink2_0Sec, .lightBlink2_5Sec, .lightBlink3_0Sec, .lightBlink3_5Sec,
      .lightBlink4_0Sec, .lightBlink4_5Sec, .lightBlink5_0Sec]
  | .automation, c => c ∈ [Cmd.automationStop, .automationUp, .automationDown]
  | .energyManagement, c => c ∈ [Cmd.energyEnableActuator, .energyForceActuatorOn, .energyForceActuatorOff]
  | _, _ => False

end Spec

namespace React

theorem arrived_clean (h : List Act) : ∀ m ∈ arrived h, Clean m := by
  intro m hm
  induction h with
  | nil => simp [arrived] at hm
  | cons a h ih =>
    cases a with
    | packet d =>
      rw [arrived] at hm
      rcases hp : Protocol.packetMessages d with e | ms
      · rw [hp] at hm; simp at hm
      · rw [hp] at hm
        rcases List.mem_append.1 hm with hm | hm
        · exact packet_clean hp m hm
        · exact ih hm
    | lost => simp [arrived] at hm
    | close => simp [arrived] at hm
    | _ => exact ih (by simpa only [arrived] using hm)

theorem clean_place {m : Msg} {wher : Tag} (h : Clean m) (hw : m.wher = some wher) : TagText wher.string := by
  cases m <;> simp only [Msg.wher, Option.some.injEq, reduceCtorEq] at hw <;> subst hw <;> simp only [Clean] at h
  · exact h.2
  · exact h
  · exact h.1
  · exact h.1
  · exact h.1

theorem begunIn_about {py : Python} {call : Call} {regs : Slot → List Cb} {i : Items} {m : Msg} {x : Start}
    (hx : x ∈ begunIn py call regs i m) : ∃ who wher slot, m.who = some who ∧ m.wher = some wher ∧
      i.cache.lookup (who, wher.string) = some x.item ∧ firing m = some (slot, x.args) ∧ x.cb ∈ regs slot := by
  unfold begunIn at hx
  rcases hw : m.who with _ | who
  · rw [hw] at hx; cases py <;> simp at hx
  rcases hl : m.wher with _ | wher
  · rw [hw, hl] at hx; cases py <;> simp at hx
  rw [hw, hl] at hx
  cases py with
  | from313 => simp at hx
  | upTo312 =>
    dsimp only at hx
    rcases ho : i.cache.lookup (who, wher.string) with _ | o
    · rw [ho] at hx; simp at hx
    rw [ho] at hx
    dsimp only at hx
    unfold starts at hx
    rcases hf : firing m with _ | ⟨slot, args⟩
    · rw [hf] at hx; simp at hx
    rw [hf] at hx
    have hx := (List.takeWhile_prefix _).subset hx
    obtain ⟨cb, hcb, rfl⟩ := List.mem_map.1 hx
    exact ⟨_, _, slot, rfl, rfl, ho, rfl, hcb⟩

theorem has_who {cls : Cls} {c : Cmd} (h : Has cls c) {who : Who} (hw : itemTypes.lookup who = some cls) :
    c.who = who ∧ cls ≠ .gateway ∧ c ≠ .cameraFreeResources := by
  rcases itemTypes_cases hw with ⟨rfl, rfl⟩ | ⟨rfl, rfl⟩ | ⟨rfl, rfl⟩ | ⟨rfl, rfl⟩ <;> simp only [Has] at h
  · refine ⟨?_, by decide, ?_⟩ <;> cases c <;> first | rfl | (simp at h; done) | simp
  · refine ⟨?_, by decide, ?_⟩ <;> cases c <;> first | rfl | (simp at h; done) | simp
  · refine ⟨?_, by decide, ?_⟩ <;> cases c <;> first | rfl | (simp at h; done) | simp

end React

open React

/-- C129: whatever a program does with its loops, each callback is started for an event that arrived and was registered for, and
each command of the item it gets, through whatever client the item belongs to, is the documented frame with the WHERE of that
event.  `turn_on_30_min` is the exception of C39. -/
theorem C129_react (py : Python) (call : Call) (session : Session) (h : List Act) (cfg : Nat → Config) :
    ∀ x ∈ ((Many.init session).run py call h).base.trace, ∃ m who wher slot, m ∈ arrived h ∧ m.who = some who ∧
      m.wher = some wher ∧ firing m = some (slot, x.args) ∧ x.cb ∈ enrolled slot h ∧
      ∀ c, Has x.item.cls c → c ≠ .baseTurnOn30Min → ∃ text, documented (wish c) wher.string = some text ∧
        Sends (cfg x.item.client) (c.run (cfg x.item.client) x.item.item) text := by
  intro x hx
  obtain ⟨log, kp⟩ := many_kept py call session h
  rw [kp.trace _ kp.inv.items (Keeps.refl _)] at hx
  obtain ⟨e, he, hx⟩ := List.mem_flatMap.1 hx
  obtain ⟨who, wher, slot, h1, h2, h3, h4, h5⟩ := begunIn_about hx
  have hm : e.2 ∈ arrived h := by
    rw [← kp.once]; exact List.mem_append_left _ (List.mem_map_of_mem he)
  have hp : e.1 <+: h := by
    obtain ⟨id, hp | ⟨_, hp⟩⟩ := kp.moment e he
    · exact (List.prefix_append _ _).trans hp
    · exact (List.prefix_append _ _).trans hp
  refine ⟨e.2, who, wher, slot, hm, h1, h2, h4, ?_, ?_⟩
  · obtain ⟨t, rfl⟩ := hp
    rw [enrolled_append]; exact List.mem_append_left _ h5
  · intro c hc hne
    obtain ⟨k1, k2⟩ := kp.inv.items.made _ _ h3
    obtain ⟨p1, p2⟩ := construct_place k2 k1
    obtain ⟨q1, q2, q3⟩ := has_who hc k1
    rw [placeOf, if_neg q2] at p2
    have := C39_command_table_partial (cfg x.item.client) c ⟨hne, q3⟩ x.item.item.wher
      (by rw [p2]; exact clean_place (arrived_clean h _ hm) h2)
    rw [p2] at this
    have e : x.item.item = ⟨c.who, x.item.item.wher⟩ := by rw [q1, ← p1]
    rw [← e] at this
    exact this

/-- C129: an item bound to a client of an event session, which is what `loop()` gives when it is not told another client,
cannot be commanded: every command raises `InvalidSession` and does nothing. -/
theorem C129_event_client (py : Python) (call : Call) (session : Session) (h : List Act) (cfg : Nat → Config) (client : Nat)
    (h1 : ∀ id c, Act.loop id c ∈ h → c = client) (h2 : ∀ who wher c, Act.getItem who wher c ∈ h → c = client)
    (he : (cfg client).session = .event) :
    ∀ x ∈ ((Many.init session).run py call h).base.trace, ∀ c, Has x.item.cls c → c ≠ .baseTurnOn30Min →
      Refuses (c.run (cfg client) x.item.item) .invalidSession := by
  intro x hx c hc hne w
  obtain ⟨_, _, _, _, _, _, _, _, _, hk⟩ := C129_react py call session h cfg x hx
  obtain ⟨text, _, hs⟩ := hk c hc hne
  rw [C85_many_one_client py call session h client h1 h2 x hx] at hs
  exact (hs w).2 (by intro hr; simp [Ready, he] at hr)

/-- Non-vacuity of both: a light reports that it was turned on, a callback is started with it; it belongs to the client 5 given
to `loop()`, and to turn it off is to send `*1*0*12##`. -/
example : let h := [Act.register .light .onStatusChange 7, .loop 0 5, .packet (bytes "*1*1*12##"), .resume 0]
    (∀ id c, Act.loop id c ∈ h → c = 5) ∧ (∀ who wher c, Act.getItem who wher c ∈ h → c = 5) ∧
    ((Many.init .event).run .upTo312 allStart h).base.trace.map
      (fun x => (x.cb, x.item.cls, x.item.client, x.item.item.wher.string)) = [(7, .light, 5, cs!"12")] ∧
    Has .light .lightTurnOff ∧ documented (wish .lightTurnOff) cs!"12" = some cs!"*1*0*12##" := by
  refine ⟨?_, ?_, by decide +kernel, by simp [Has], by decide +kernel⟩
  · intro id c hm; simp at hm; exact hm.2
  · intro who wher c hm; simp at hm
