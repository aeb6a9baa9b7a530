import Verif.Props.Mirror

/-! # C104: what a program that listens is told -/

open Py Spec Events

namespace Spec

/-- What the callbacks `regs` are told of a message: the address and the values of the event. -/
def told (regs : Slot → List Cb) (m : Msg) : List (Cb × Str × List Arg) :=
  match firing m, m.who, m.wher with
  | some (slot, args), some who, some wher =>
    (regs slot).map fun cb => (cb, if who = .gateway then [] else wher.string, args)
  | _, _, _ => []

/-- The calls that were made: the callback, `item.where` and the other arguments. -/
def calls (s : State) : List (Cb × Str × List Arg) := s.trace.map fun x => (x.cb, x.item.item.wher.string, x.args)

/-- Registrations at the beginning of a program. -/
def setup (rs : List (Cls × Method × Cb)) : List Act := rs.map fun r => .register r.1 r.2.1 r.2.2

end Spec

theorem firing_who {m : Msg} {slot : Slot} {args : List Arg} (h : firing m = some (slot, args)) :
    ∃ who wher c, m.who = some who ∧ m.wher = some wher ∧ classOf who.code = some c ∧ itemTypes.lookup who = some c ∧
      (c = .gateway ↔ who = .gateway) := by
  unfold firing at h
  split at h
  · exact ⟨.lighting, _, .light, rfl, rfl, by decide, by decide, by simp⟩
  · exact ⟨.lighting, _, .light, rfl, rfl, by decide, by decide, by simp⟩
  · exact ⟨.automation, _, .automation, rfl, rfl, by decide, by decide, by simp⟩
  · exact ⟨.gateway, _, .gateway, rfl, rfl, by decide, by decide, by simp⟩
  · exact ⟨.gateway, _, .gateway, rfl, rfl, by decide, by decide, by simp⟩
  · exact ⟨.energyManagement, _, .energyManagement, rfl, rfl, by decide, by decide, by simp⟩
  · cases h

/-- A loop is called or resumed only after the registrations with which a program begins. -/
theorem after_setup {rs : List (Cls × Method × Cb)} {h e : List Act} {a : Act} (ha : Act.Plain a)
    (hp : e ++ [a] <+: setup rs ++ h) : ∃ l, e = setup rs ++ l ∧ l <+: h := by
  rcases List.prefix_or_prefix_of_prefix (List.prefix_append (setup rs) h) hp with h1 | h1
  · rcases List.prefix_concat_iff.1 h1 with h2 | h2
    · exfalso
      have : a ∈ setup rs := by rw [h2]; simp
      unfold setup at this
      obtain ⟨r, _, rfl⟩ := List.mem_map.1 this
      exact ha
    · obtain ⟨l, rfl⟩ := h2
      refine ⟨l, rfl, ?_⟩
      rw [List.append_assoc, List.prefix_append_right_inj] at hp
      exact (List.prefix_append _ _).trans hp
  · exfalso
    obtain ⟨t, ht⟩ := h1
    have : a ∈ setup rs := by rw [← ht]; simp
    unfold setup at this
    obtain ⟨r, _, rfl⟩ := List.mem_map.1 this
    exact ha

/-- C104: on Python up to 3.12, a program that registers its callbacks and then listens is told of every event in the packets
received, once, in the order of arrival, by the callbacks registered for it, in the order of registration, with the address and
the values of the event; and of nothing else.  This holds whatever loops are called, cancelled and called again, once nothing
is left in the queue, provided energy events come from documented addresses. -/
theorem C104_listener_partial (call : Call) (hc : AllStart call) (session : Session) (rs : List (Cls × Method × Cb))
    (h : List Act) (hp : ∀ a ∈ h, Act.Plain a) (hh : ∀ m ∈ arrived h, Harmless m)
    (hq : ((Many.init session).run .upTo312 call (setup rs ++ h)).base.queue = []) :
    calls ((Many.init session).run .upTo312 call (setup rs ++ h)).base =
      (arrived h).flatMap (told fun slot => (rs.filter fun r => slotOf r.1 r.2.1 = some slot).map (·.2.2)) := by
  obtain ⟨log, k⟩ := many_kept .upTo312 call session (setup rs ++ h)
  generalize (Many.init session).run .upTo312 call (setup rs ++ h) = s at k hq
  have hon := k.once
  have harr : ∀ rs, arrived (setup rs ++ h) = arrived h := by
    intro rs
    induction rs with
    | nil => rfl
    | cons r rs ih => exact ih
  rw [hq, List.append_nil, harr] at hon
  have henr : ∀ slot (rs : List (Cls × Method × Cb)), enrolled slot (setup rs) =
      (rs.filter fun r => slotOf r.1 r.2.1 = some slot).map (·.2.2) := by
    intro slot rs
    induction rs with
    | nil => rfl
    | cons r rs ih =>
      have : enrolled slot (setup (r :: rs)) =
        if slotOf r.1 r.2.1 = some slot then r.2.2 :: enrolled slot (setup rs) else enrolled slot (setup rs) := rfl
      rw [this, ih, List.filter_cons]
      by_cases e : slotOf r.1 r.2.1 = some slot
      · simp [e]
      · simp [e]
  have hreg : ∀ e ∈ log, ∀ slot, enrolled slot e.1 = (rs.filter fun r => slotOf r.1 r.2.1 = some slot).map (·.2.2) := by
    intro e he slot
    obtain ⟨l, h1, h2⟩ : ∃ l, e.1 = setup rs ++ l ∧ l <+: h := by
      obtain ⟨id, hm | ⟨c, hm⟩⟩ := k.moment e he
      · exact after_setup (by simp [Act.Plain]) hm
      · exact after_setup (by simp [Act.Plain]) hm
    rw [h1, enrolled_append, enrolled_plain (fun a ha => hp a (h2.subset ha)), List.append_nil, henr]
  have hf := k.found
  have hi := k.inv.items
  unfold calls
  rw [k.trace _ hi (Keeps.refl _), ← hon, List.flatMap_map, List.map_flatMap]
  have hl : ∀ e ∈ log, Harmless e.2 := fun e he => hh _ (by rw [← hon]; exact List.mem_map_of_mem he)
  clear hon hq k
  refine List.flatMap_congr fun e he => ?_
  have hr := hreg e he
  rcases hfi : firing e.2 with _ | ⟨slot, args⟩
  · have : told (fun slot => (rs.filter fun r => slotOf r.1 r.2.1 = some slot).map (·.2.2)) e.2 = [] := by
      unfold told; rw [hfi]
    rw [this]
    unfold begunIn
    split
    · split
      · unfold starts; rw [hfi]; rfl
      · rfl
    · rfl
  · obtain ⟨who, wher, c, h1, h2, h3, h4, h5⟩ := firing_who hfi
    obtain ⟨o, ho⟩ := hf e he who wher c h1 h2 h3 (hl e he who wher h1 h2)
    obtain ⟨g1, g2⟩ := hi.made _ _ ho
    have hw := (construct_place g2 g1).2
    rw [h4] at g1
    have hcl : o.cls = c := (Option.some.inj g1).symm
    have ht : told (fun slot => (rs.filter fun r => slotOf r.1 r.2.1 = some slot).map (·.2.2)) e.2 =
        ((rs.filter fun r => slotOf r.1 r.2.1 = some slot).map (·.2.2)).map
          fun cb => (cb, if who = .gateway then [] else wher.string, args) := by
      unfold told; rw [hfi, h1, h2]
    rw [ht]
    have hb : begunIn .upTo312 call (fun k => enrolled k e.1) s.base.items e.2 =
        (enrolled slot e.1).map fun cb => ⟨cb, o, args⟩ := by
      unfold begunIn
      rw [h1, h2]
      dsimp only
      rw [ho]
      unfold starts
      rw [hfi]
      dsimp only
      rw [List.takeWhile_eq_self_iff]
      intro x _
      rw [hc]
      rfl
    rw [hb, hr, List.map_map]
    refine List.map_congr_left fun cb _ => ?_
    simp only [Function.comp]
    rw [hw]
    unfold placeOf
    rw [hcl]
    simp only [h5]

/-- C104 is refuted on Python 3.13 and later: nobody is told anything. -/
theorem C104_python_refuted (call : Call) (session : Session) (h : List Act) :
    calls ((Many.init session).run .from313 call h).base = [] := by
  obtain ⟨log, k⟩ := many_kept .from313 call session h
  unfold calls
  rw [k.trace _ k.inv.items (Keeps.refl _), List.map_eq_nil_iff, List.flatMap_eq_nil_iff]
  intro e _
  rfl

/-- C104 is refuted for energy events from other addresses: they end the loop, and the light switched on after one is told to
nobody. -/
theorem C104_address_refuted :
    let h : List Act := [.loop 0 0, .packet (bytes "*#18*99*113*5##*1*1*12##"), .resume 0, .resume 0]
    calls ((Many.init .event).run .upTo312 allStart (setup [(.light, .onStatusChange, 7)] ++ h)).base = [] ∧
      (arrived h).flatMap (told fun slot => if slot = .lightStatus then [7] else []) = [(7, cs!"12", [.bool true])] :=
  ⟨by decide +kernel, by decide +kernel⟩

/-- The programs `light_02`, `automation_02`, `energy_management_02` and `gateway_02`. -/
example : slotOf .light .onStatusChange = some .lightStatus ∧ slotOf .automation .onStatusChange = some .automation ∧
    slotOf .energyManagement .onInstantPower = some (.energy cs!"113") ∧
    slotOf .gateway (.registerCallback cs!"0") = some (.gateway cs!"0") := by decide

/-- The hypotheses are met: three callbacks, a light, a shutter and a meter. -/
example : let h : List Act := [.loop 0 0, .packet (bytes "*1*1*12##*2*0*31##"), .resume 0, .packet (bytes "*#18*51*113*5##")]
    (∀ a ∈ h, Act.Plain a) ∧ (∀ m ∈ arrived h, Harmless m) := by
  refine ⟨by simp [Act.Plain], ?_⟩
  have : arrived [.loop 0 0, .packet (bytes "*1*1*12##*2*0*31##"), .resume 0, .packet (bytes "*#18*51*113*5##")] =
    [.normal .lighting ⟨cs!"1"⟩ ⟨cs!"12"⟩, .normal .automation ⟨cs!"0"⟩ ⟨cs!"31"⟩,
      .dimResp .energyManagement ⟨cs!"51"⟩ ⟨cs!"113"⟩ [⟨cs!"5"⟩]] := by decide +kernel
  rw [this]
  intro m hm who wher h1 h2
  simp only [List.mem_cons, List.not_mem_nil, or_false] at hm
  rcases hm with rfl | rfl | rfl
  · cases h1; exact placed_other (by decide)
  · cases h1; exact placed_other (by decide)
  · cases h1; cases h2
    intro _
    obtain ⟨t, ht⟩ := (C62_iff cs!"51" (by decide +kernel)).1 ⟨⟨.energyManagement, ⟨cs!"51"⟩⟩, by decide +kernel⟩
    exact ⟨t, ht⟩
example : calls ((Many.init .event).run .upTo312 allStart (setup [(.light, .onStatusChange, 7), (.automation, .onStatusChange, 8),
      (.energyManagement, .onInstantPower, 9), (.dimmer, .onStatusChange, 10)] ++
      [.loop 0 0, .packet (bytes "*1*1*12##*2*0*31##"), .resume 0, .packet (bytes "*#18*51*113*5##"), .resume 0])).base =
    [(7, cs!"12", [.bool true]), (10, cs!"12", [.bool true]), (8, cs!"31", [.automation cs!"0"]), (9, cs!"51", [.float (.nat 5)])] := by
  decide +kernel
