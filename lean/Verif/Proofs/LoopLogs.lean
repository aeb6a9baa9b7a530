import Verif.Spec.LoopLogs
import Verif.Proofs.Loop

/-! # The log of `loop()` -/

open Py Spec Events

namespace LoopLogs

theorem createTasks_snd (call : Call) (fs : List Cb) (o : Obj) (args : List Arg) :
    (createTasks call fs o args).2 = .ok () ↔ ∀ cb ∈ fs, call ⟨cb, o, args⟩ = .ok () := by
  induction fs with
  | nil => simp [createTasks]
  | cons f fs ih =>
    unfold createTasks
    rcases h : call ⟨f, o, args⟩ with e | ⟨⟩
    · simp [h]
    · simpa [h] using ih

theorem toOpt_some {α : Type} {x : Except Err (Option α)} {a : α} : toOpt x = some a ↔ x = .ok (some a) := by
  rcases x with e | _ | b <;> simp [toOpt]

theorem light_muted (m : Msg) (hw : m.who = some .lighting) : lightEvent m = .ok none ↔ Muted m := by
  cases m with
  | dimResp who we dim vs =>
    cases hw
    unfold lightEvent Muted
    simp only [tag_beforeHash, ok_bind, List.mem_cons, List.not_mem_nil, or_false, not_or]
    by_cases h1 : beforeHash dim.string = cs!"1"
    · rw [if_pos h1]
      rcases intAt vs 0 with e | a
      · simp [h1]
      · rcases intAt vs 1 with e | b
        · simp [h1]
        · rcases intAt vs 2 with e | c <;> simp [h1]
    rw [if_neg h1]
    by_cases h2 : beforeHash dim.string = cs!"8"
    · rw [if_pos h2]
      rcases intAt vs 0 with e | a
      · simp [h2]
      · rcases intAt vs 1 with e | b <;> simp [h2]
    rw [if_neg h2]
    by_cases h3 : beforeHash dim.string = cs!"12"
    · rw [if_pos h3]
      rcases intAt vs 0 with e | a
      · simp [h3]
      · rcases intAt vs 1 with e | b
        · simp [h3]
        · rcases intAt vs 2 with e | c <;> simp [h3]
    rw [if_neg h3]
    by_cases h4 : beforeHash dim.string = cs!"13"
    · rw [if_pos h4]
      rcases intAt vs 0 with e | a <;> simp [h4]
    rw [if_neg h4]
    simp [h1, h2, h3, h4]
  | ack | nack | generic ts => cases hw
  | normal | status | dimReq | dimWrite => cases hw; simp [lightEvent, Muted]

theorem map_ne {α : Type} (f : α → List Arg) (x : Except Err α) : (x.map fun a => some (f a)) ≠ .ok none := by
  rcases x with e | a <;> simp

theorem gatewayArgs_ne (dim : Str) (h : dim ∈ WhatGateway.all) (vs : List Tag) : gatewayArgs dim vs ≠ .ok none := by
  simp only [WhatGateway.all, List.mem_cons, List.not_mem_nil, or_false] at h
  rcases h with rfl | rfl | rfl | rfl | rfl | rfl | rfl | rfl | rfl | rfl | rfl <;> exact map_ne _ _

theorem gateway_muted (m : Msg) (hw : m.who = some .gateway) : gatewayEvent m = .ok none ↔ Muted m := by
  have key : ∀ (dim : Tag) (vs : List Tag), (do
      let what ← WhatGateway.ofStr dim.string
      let args ← gatewayArgs what vs
      return args.map fun a => (what, a) : Except Err (Option (Str × List Arg))) ≠ .ok none := by
    intro dim vs
    unfold WhatGateway.ofStr
    by_cases h : dim.string ∈ WhatGateway.all
    · rw [if_pos (List.contains_iff_mem.2 h), ok_bind]
      have := gatewayArgs_ne _ h vs
      generalize gatewayArgs dim.string vs = x at this
      rcases x with e | _ | a
      · simp
      · exact absurd rfl this
      · simp
    · rw [if_neg (fun c => h (List.contains_iff_mem.1 c))]
      simp
  cases m with
  | dimResp who we dim vs => cases hw; simp only [Muted, iff_false]; exact key dim vs
  | dimWrite who we dim vs => cases hw; simp only [Muted, iff_false]; exact key dim vs
  | ack | nack | generic ts => cases hw
  | normal | status | dimReq => cases hw; simp [gatewayEvent, Muted]

theorem energyArgs_none (dim : Str) (h : dim ∈ DimensionEnergy.all) (vs : List Tag) : energyArgs dim vs = .ok none ↔
    dim ∈ [cs!"1200", cs!"251", cs!"252", cs!"253", cs!"254", cs!"255", cs!"256", cs!"257", cs!"258", cs!"259",
      cs!"260", cs!"261", cs!"262", cs!"263"] := by
  have hf : ∀ {α : Type} (f : α → List Arg) (x : Except Err α) (d : Str),
      energyArgs d vs = (x.map fun a => some (f a)) → d ∉ [cs!"1200", cs!"251", cs!"252", cs!"253", cs!"254", cs!"255",
        cs!"256", cs!"257", cs!"258", cs!"259", cs!"260", cs!"261", cs!"262", cs!"263"] →
      (energyArgs d vs = .ok none ↔ d ∈ [cs!"1200", cs!"251", cs!"252", cs!"253", cs!"254", cs!"255", cs!"256", cs!"257",
        cs!"258", cs!"259", cs!"260", cs!"261", cs!"262", cs!"263"]) := by
    intro α f x d h1 h2
    rw [h1]
    exact ⟨fun h => absurd h (map_ne f x), fun h => absurd h h2⟩
  have he : ∀ (e : Err) (d : Str), energyArgs d vs = .error e → d ∉ [cs!"1200", cs!"251", cs!"252", cs!"253", cs!"254", cs!"255",
        cs!"256", cs!"257", cs!"258", cs!"259", cs!"260", cs!"261", cs!"262", cs!"263"] →
      (energyArgs d vs = .ok none ↔ d ∈ [cs!"1200", cs!"251", cs!"252", cs!"253", cs!"254", cs!"255", cs!"256", cs!"257",
        cs!"258", cs!"259", cs!"260", cs!"261", cs!"262", cs!"263"]) := by
    intro e d h1 h2
    rw [h1]
    exact ⟨fun h => (by cases h), fun h => absurd h h2⟩
  simp only [DimensionEnergy.all, List.mem_cons, List.not_mem_nil, or_false] at h
  rcases h with rfl | rfl | rfl | rfl | rfl | rfl | rfl | rfl | rfl | rfl | rfl | rfl | rfl | rfl | rfl | rfl | rfl | rfl |
    rfl | rfl | rfl | rfl | rfl | rfl | rfl | rfl | rfl <;>
    first
      | exact ⟨fun _ => by decide, fun _ => rfl⟩
      | exact hf (fun x => [Arg.float x]) (EnergyManagement.decodeFloat vs) _ rfl (by decide)
      | exact hf (fun x => [Arg.actuator x]) (EnergyManagement.decodeActuator vs) _ rfl (by decide)
      | exact hf (fun x => [Arg.int x]) (EnergyManagement.decodeLevel vs) _ rfl (by decide)
      | exact hf (fun x => [Arg.stopGo x]) (stopGoArgs vs) _ rfl (by decide)
      | exact he .indexError _ rfl (by decide)

theorem energy_muted (m : Msg) (hw : m.who = some .energyManagement) : energyEvent m = .ok none ↔ Muted m := by
  cases m with
  | dimResp who we dim vs =>
    cases hw
    simp only [energyEvent, Muted, DimensionEnergy.ofStr]
    by_cases h : dim.string ∈ DimensionEnergy.all
    · rw [if_pos (List.contains_iff_mem.2 h), ok_bind, ← energyArgs_none _ h vs]
      rcases energyArgs dim.string vs with e | _ | a <;> simp
    · rw [if_neg (fun c => h (List.contains_iff_mem.1 c))]
      constructor
      · intro h'; cases h'
      · intro h'
        exfalso
        apply h
        simp only [List.mem_cons, List.not_mem_nil, or_false] at h'
        rcases h' with h' | h' | h' | h' | h' | h' | h' | h' | h' | h' | h' | h' | h' | h' <;> rw [h'] <;> decide
  | ack | nack | generic ts => cases hw
  | normal | status | dimReq | dimWrite => cases hw; simp [energyEvent, Muted]

theorem tells_caught (e : Err) : Tells e (caught e) := by
  cases e <;> first | exact .message _ | exact .tag _ | exact .other _ (by simp) (by simp)

theorem createTasks_error {call : Call} {fs : List Cb} {o : Obj} {args : List Arg} {e : Err}
    (h : (createTasks call fs o args).2 = .error e) : FailsWith call fs o args e := by
  induction fs with
  | nil => cases h
  | cons f fs ih =>
    unfold createTasks at h
    rcases hf : call ⟨f, o, args⟩ with e' | ⟨⟩
    · rw [hf] at h
      cases h
      exact ⟨[], f, fs, rfl, by simp, hf⟩
    · rw [hf] at h
      obtain ⟨pre, cb, post, h1, h2, h3⟩ := ih h
      refine ⟨f :: pre, cb, post, by rw [h1]; rfl, ?_, h3⟩
      intro c hc
      rcases List.mem_cons.1 hc with rfl | hc
      · exact hf
      · exact h2 c hc

/-- A message goes to the class of its WHO, and to no other. -/
theorem dispatch_base (call : Call) (r : Registry) (o : Obj) (m : Msg) (b : Base) (h : m.who = some b.who) :
    dispatch .upTo312 call r o m = match (b.callCallbacks call r o m).2 with
      | .error e => [caught e, .itemNotFound m]
      | .ok () => [] := by
  have key : ∀ b', whoMatches .upTo312 m b' = decide (b' = b) := by
    intro b'
    unfold whoMatches
    rw [h]
    cases b <;> cases b' <;> decide
  unfold dispatch subclasses
  cases b <;> simp [dispatchIn, key] <;> split <;> simp_all

theorem dispatch_from313 (call : Call) (r : Registry) (o : Obj) (m : Msg) :
    dispatch .from313 call r o m = [.itemNotFound m] := by
  simp [dispatch, subclasses, dispatchIn, whoMatches]

/-- When the callbacks of a class raise nothing. -/
theorem served_iff (call : Call) (r : Registry) (o : Obj) (m : Msg) (b : Base) (hc : Clean m) (hw : m.who = some b.who)
    (ho : itemTypes.lookup b.who = some o.cls) :
    (b.callCallbacks call r o m).2 = .ok () ↔ Served call (slotCbs r) o m ∨ Muted m := by
  unfold Served
  cases b with
  | camera => simp [Base.who, itemTypes] at ho; cases ho
  | automation =>
    rw [← automation_firing m hw]
    have hm : ¬ Muted m := by
      cases m <;> cases hw <;> simp [Muted, Base.who]
    simp only [hm, or_false]
    change (automationCallbacks call r o m).2 = .ok () ↔ _
    unfold automationCallbacks
    rcases automationEvent m with e | args
    · simp [toOpt]
    · simp [toOpt, createTasks_snd, slotCbs]
  | baseLight =>
    rw [← light_firing m hc hw, ← light_muted m hw]
    change (lightCallbacks call r o m).2 = .ok () ↔ _
    unfold lightCallbacks
    rcases lightEvent m with e | _ | ⟨k, args⟩
    · simp [toOpt]
    · simp
    · cases k <;> simp [toOpt, createTasks_snd, slotCbs, lightSlot]
  | gateway =>
    rw [← gateway_firing m hw, ← gateway_muted m hw]
    have hcls : o.cls = .gateway := by
      have : itemTypes.lookup Base.gateway.who = some .gateway := by decide
      rw [this] at ho; exact (Option.some.inj ho).symm
    change (gatewayCallbacks call r o m).2 = .ok () ↔ _
    unfold gatewayCallbacks
    rw [if_neg (by simp [hcls])]
    rcases gatewayEvent m with e | _ | ⟨k, args⟩
    · simp [toOpt]
    · simp
    · simp [toOpt, createTasks_snd, slotCbs]
  | energyManagement =>
    rw [← energy_firing m hc hw, ← energy_muted m hw]
    have hcls : o.cls = .energyManagement := by
      have : itemTypes.lookup Base.energyManagement.who = some .energyManagement := by decide
      rw [this] at ho; exact (Option.some.inj ho).symm
    change (energyCallbacks call r o m).2 = .ok () ↔ _
    unfold energyCallbacks
    by_cases hr : m.isDimResp = false
    · rw [if_pos hr]
      cases m <;> simp [Msg.isDimResp] at hr <;> simp [energyEvent, toOpt]
    · rw [if_neg hr, if_neg (by simp [hcls])]
      rcases energyEvent m with e | _ | ⟨k, args⟩
      · simp [toOpt]
      · simp
      · simp [toOpt, createTasks_snd, slotCbs]

/-- The exception the callbacks of a class raise. -/
theorem failed_with (call : Call) (r : Registry) (o : Obj) (m : Msg) (b : Base) (hc : Clean m) (hw : m.who = some b.who)
    (ho : itemTypes.lookup b.who = some o.cls) (e : Err) (he : (b.callCallbacks call r o m).2 = .error e) :
    (WrongForm m → ∃ text, e = .invalidMessage text) ∧
      ∀ slot args, firing m = some (slot, args) → FailsWith call (slotCbs r slot) o args e := by
  cases b with
  | camera => simp [Base.who, itemTypes] at ho; cases ho
  | automation =>
    rw [← automation_firing m hw]
    change (automationCallbacks call r o m).2 = .error e at he
    constructor
    · intro hf
      cases m <;> cases hw <;> simp [WrongForm, Base.who] at hf <;> (cases he; exact ⟨_, rfl⟩)
    · unfold automationCallbacks at he
      generalize automationEvent m = x at he
      rcases x with e' | args
      · simp [toOpt]
      · intro slot args' h
        simp [toOpt] at h
        obtain ⟨rfl, rfl⟩ := h
        exact createTasks_error he
  | baseLight =>
    rw [← light_firing m hc hw]
    change (lightCallbacks call r o m).2 = .error e at he
    constructor
    · intro hf
      cases m <;> cases hw <;> simp [WrongForm, Base.who] at hf <;> (cases he; exact ⟨_, rfl⟩)
    · unfold lightCallbacks at he
      generalize lightEvent m = x at he
      rcases x with e' | _ | ⟨k, args⟩
      · simp [toOpt]
      · simp [toOpt]
      · intro slot args' h
        simp [toOpt] at h
        obtain ⟨rfl, rfl⟩ := h
        cases k <;> exact createTasks_error he
  | gateway =>
    rw [← gateway_firing m hw]
    have hcls : o.cls = .gateway := by
      have : itemTypes.lookup Base.gateway.who = some .gateway := by decide
      rw [this] at ho; exact (Option.some.inj ho).symm
    change (gatewayCallbacks call r o m).2 = .error e at he
    unfold gatewayCallbacks at he
    rw [if_neg (by simp [hcls])] at he
    constructor
    · intro hf
      cases m <;> cases hw <;> simp [WrongForm, Base.who] at hf <;> (cases he; exact ⟨_, rfl⟩)
    · generalize gatewayEvent m = x at he
      rcases x with e' | _ | ⟨k, args⟩
      · simp [toOpt]
      · simp [toOpt]
      · intro slot args' h
        simp [toOpt] at h
        obtain ⟨rfl, rfl⟩ := h
        exact createTasks_error he
  | energyManagement =>
    rw [← energy_firing m hc hw]
    have hcls : o.cls = .energyManagement := by
      have : itemTypes.lookup Base.energyManagement.who = some .energyManagement := by decide
      rw [this] at ho; exact (Option.some.inj ho).symm
    change (energyCallbacks call r o m).2 = .error e at he
    unfold energyCallbacks at he
    by_cases hr : m.isDimResp = false
    · rw [if_pos hr] at he
      refine ⟨fun _ => ⟨_, (Except.error.inj he).symm⟩, ?_⟩
      cases m <;> simp [Msg.isDimResp] at hr <;> simp [energyEvent, toOpt]
    · rw [if_neg hr, if_neg (by simp [hcls])] at he
      constructor
      · intro hf
        cases m <;> cases hw <;> simp [Msg.isDimResp] at hr
        simp [WrongForm, Base.who] at hf
      · generalize energyEvent m = x at he
        rcases x with e' | _ | ⟨k, args⟩
        · simp [toOpt]
        · simp [toOpt]
        · intro slot args' h
          simp [toOpt] at h
          obtain ⟨rfl, rfl⟩ := h
          exact createTasks_error he

theorem handle_item {py : Python} {call : Call} {client : Nat} {r : Registry} {s : Items} {m : Msg} {who : Who} {wher : Tag}
    (h1 : m.who = some who) (h2 : m.wher = some wher) :
    handle py call client r s m = match getItem client who wher s with
      | (.error .keyError, _) => [.unsupportedItem who wher]
      | (.error _, _) => []
      | (.ok o, _) => dispatch py call r o m := by
  rcases who_wher m with ⟨h, _⟩ | ⟨_, _, _, _, a, b, c⟩
  · rw [h] at h1; cases h1
  · unfold handle
    rw [if_neg (by tauto), if_neg c, h1, h2]
    dsimp only
    rcases getItem client who wher s with ⟨e | o, s'⟩
    · cases e <;> rfl
    · rfl

/-- What is logged about one harmless message. -/
theorem handle_noted (py : Python) (call : Call) (client : Nat) (r : Registry) (i : Items) (m : Msg) (hok : ItemsOk i)
    (hc : Clean m) (hh : Harmless m) (s : State) (hi : ItemsOk s.items)
    (hk : Keeps (Events.handle py call client r i m).2 s.items) :
    Noted py call (slotCbs r) s m (handle py call client r i m) := by
  rcases who_wher m with ⟨_, _, h⟩ | ⟨who, wher, h1, h2, _⟩
  · rcases h with rfl | rfl | ⟨ts, rfl⟩
    · exact .signal (.inl rfl)
    · exact .signal (.inr rfl)
    · exact .unknown ⟨ts, rfl⟩
  · rcases h3 : classOf who.code with _ | c
    · have ht : itemTypes.lookup who = none := by rw [itemTypes_lookup]; exact h3
      have : handle py call client r i m = [.unsupportedItem who wher] := by
        rw [handle_item h1 h2]
        rcases getItem_cases client who wher i with ⟨o, hl, e⟩ | ⟨_, _, e⟩ | ⟨c, _, _, ht', _, e⟩ | ⟨c, _, hl, ht', _, e⟩
        · have := (hok.made _ _ hl).1
          rw [ht] at this; cases this
        · rw [e]
        · rw [ht] at ht'; cases ht'
        · rw [ht] at ht'; cases ht'
      rw [this]
      exact .unsupported who wher h1 h2 h3
    · obtain ⟨o, he, hd⟩ := handle_placed (py := py) (call := call) (client := client) (r := r) (s := i) h1 h2 h3
        (hh who wher h1 h2)
      have hl : s.items.cache.lookup (who, wher.string) = some o := by
        rw [hd] at hk
        exact hk _ _ (getItem_lookup he)
      have hfor : itemFor s m = some o := by unfold itemFor; rw [h1, h2]; exact hl
      have hcls : itemTypes.lookup who = some o.cls := (hi.made _ _ hl).1
      have : handle py call client r i m = dispatch py call r o m := by
        rw [handle_item h1 h2, he]
      rw [this]
      cases py with
      | from313 => rw [dispatch_from313]; exact .undispatched o hfor rfl
      | upTo312 =>
        obtain ⟨b, rfl⟩ : ∃ b : Base, b.who = who := by
          cases who <;>
            first
              | exact ⟨.baseLight, rfl⟩
              | exact ⟨.automation, rfl⟩
              | exact ⟨.gateway, rfl⟩
              | exact ⟨.energyManagement, rfl⟩
              | exact ⟨.camera, rfl⟩
              | exact absurd hcls (fun h => nomatch h)
        have hsv := served_iff call r o m b hc h1 hcls
        rw [dispatch_base call r o m b h1]
        rcases hr : (b.callCallbacks call r o m).2 with e | ⟨⟩
        · have hn : ¬ (Served call (slotCbs r) o m ∨ Muted m) := by
            intro h
            have := hsv.2 h
            rw [hr] at this; cases this
          rw [not_or] at hn
          obtain ⟨k1, k2⟩ := failed_with call r o m b hc h1 hcls e hr
          exact .failed o e _ hfor rfl hn.1 hn.2 (tells_caught e) k1 k2
        · rcases hsv.1 hr with h | h
          · exact .served o hfor rfl h
          · exact .muted o hfor rfl h

/-- What is logged in a run over harmless messages. -/
theorem drain_noted (py : Python) (call : Call) (q : List Msg) (s : State) (ho : s.transport = .opened)
    (hok : ItemsOk s.items) (hc : ∀ m ∈ q, Clean m) (hh : ∀ m ∈ q, Harmless m) (s' : State) (hi : ItemsOk s'.items)
    (hk : Keeps (Events.drain py call s q).items s'.items) :
    ∃ ls, drain py call s q = ls.flatten ∧ List.Forall₂ (Noted py call (slotCbs s.registry) s') q ls := by
  induction q generalizing s with
  | nil => exact ⟨[], rfl, .nil⟩
  | cons m q ih =>
    obtain ⟨ts, i, h1, h2, h3, h4⟩ := handle_harmless py call s.client s.registry s.items m hok (hc m (by simp)) (hh m (by simp))
    have he := drain_cons (q := q) ho h1
    have hf := (drain_frame py call q { s with items := i, trace := s.trace ++ ts } h2).2.1
    rw [he] at hk
    obtain ⟨ls, g1, g2⟩ := ih { s with items := i, trace := s.trace ++ ts } ho h2
      (fun m' h => hc m' (by simp [h])) (fun m' h => hh m' (by simp [h])) hk
    refine ⟨handle py call s.client s.registry s.items m :: ls, ?_, .cons ?_ g2⟩
    · rw [drain, h1, List.flatten_cons, ← g1]
      simp only [ho]
      congr 1
      cases q <;> rfl
    · exact handle_noted py call s.client s.registry s.items m hok (hc m (by simp)) (hh m (by simp)) s' hi
        (by rw [h1]; exact hf.trans hk)

theorem run_append (py : Python) (call : Call) (s : State) (h h' : List Step) :
    run py call s (h ++ h') = run py call s h ++ run py call (s.run py call h) h' := by
  induction h generalizing s with
  | nil => rfl
  | cons st h ih =>
    rw [List.cons_append, run, run, ih, List.append_assoc]
    rfl

theorem notes_append (py : Python) (call : Call) (session : Session) (client : Nat) (h : List Step) (st : Step) :
    notes py call session client (h ++ [st]) =
      notes py call session client h ++ step py call (after py call session client h) st := by
  unfold notes
  rw [run_append]
  simp [run, after]

end LoopLogs
