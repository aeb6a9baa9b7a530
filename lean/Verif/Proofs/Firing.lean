import Verif.Proofs.Events

/-! # Which callbacks a message starts -/

open Py Spec

namespace Events

/-- The event, if there is one and it can be decoded. -/
def toOpt {α : Type} : Except Err (Option α) → Option α
  | .ok o => o
  | .error _ => none

/-! ## Tasks -/

theorem createTasks_fst (call : Call) (fs : List Cb) (o : Obj) (args : List Arg) :
    (createTasks call fs o args).1 =
      (fs.map fun cb => (⟨cb, o, args⟩ : Start)).takeWhile fun st => call st == .ok () := by
  induction fs with
  | nil => rfl
  | cons f fs ih =>
    simp only [createTasks, List.map_cons, List.takeWhile_cons]
    rcases call ⟨f, o, args⟩ with e | ⟨⟩
    · rfl
    · simp [ih]

theorem lightCallbacks_fst (call : Call) (r : Registry) (o : Obj) (m : Msg) :
    (lightCallbacks call r o m).1 = match toOpt (lightEvent m) with
      | none => []
      | some (k, args) =>
        ((r.light k).map fun cb => (⟨cb, o, args⟩ : Start)).takeWhile fun st => call st == .ok () := by
  unfold lightCallbacks
  rcases lightEvent m with e | _ | ⟨k, args⟩
  · rfl
  · rfl
  · simp only [toOpt, createTasks_fst]

theorem gatewayCallbacks_fst (call : Call) (r : Registry) (o : Obj) (m : Msg) (h : o.cls = .gateway) :
    (gatewayCallbacks call r o m).1 = match toOpt (gatewayEvent m) with
      | none => []
      | some (k, args) =>
        ((r.gateway k).map fun cb => (⟨cb, o, args⟩ : Start)).takeWhile fun st => call st == .ok () := by
  unfold gatewayCallbacks
  rw [if_neg (by simp [h])]
  rcases gatewayEvent m with e | _ | ⟨k, args⟩
  · rfl
  · rfl
  · simp only [toOpt, createTasks_fst]

theorem energyCallbacks_fst (call : Call) (r : Registry) (o : Obj) (m : Msg) (h : o.cls = .energyManagement) :
    (energyCallbacks call r o m).1 = match toOpt (energyEvent m) with
      | none => []
      | some (k, args) =>
        ((r.energy k).map fun cb => (⟨cb, o, args⟩ : Start)).takeWhile fun st => call st == .ok () := by
  unfold energyCallbacks
  by_cases hm : m.isDimResp = false
  · rw [if_pos hm]
    cases m <;> first | rfl | cases hm
  · rw [if_neg hm, if_neg (by simp [h])]
    rcases energyEvent m with e | _ | ⟨k, args⟩
    · rfl
    · rfl
    · simp only [toOpt, createTasks_fst]

theorem automationCallbacks_fst (call : Call) (r : Registry) (o : Obj) (m : Msg) :
    (automationCallbacks call r o m).1 = match toOpt ((automationEvent m).map some) with
      | none => []
      | some args =>
        (r.automation.map fun cb => (⟨cb, o, args⟩ : Start)).takeWhile fun st => call st == .ok () := by
  unfold automationCallbacks
  rcases automationEvent m with e | args
  · rfl
  · simp only [toOpt, createTasks_fst, Except.map]

/-! ## Lights -/

theorem beforeHash_head (s : Str) : Head s (beforeHash s) := by
  induction s with
  | nil => exact ⟨by simp [beforeHash], .inl rfl⟩
  | cons c s ih =>
    unfold beforeHash
    split
    · rename_i h; subst h
      exact ⟨by simp, .inr ⟨s, rfl⟩⟩
    · rename_i h
      refine ⟨?_, ?_⟩
      · simp only [List.mem_cons, not_or]; exact ⟨fun e => h e.symm, ih.1⟩
      · rcases ih.2 with e | ⟨p, e⟩
        · exact .inl (by rw [← e])
        · exact .inr ⟨p, by rw [List.cons_append, ← e]⟩

theorem tag_beforeHash (t : Tag) : t.tag = .ok (beforeHash t.string) := by
  obtain ⟨v, h1, h2⟩ := Queries.head_tag t
  rw [h1, Queries.head_unique h2 (beforeHash_head _)]

theorem three_args (vs : List Tag) (h : ∀ v ∈ vs, TagText v.string) (k : LightEvents) :
    toOpt (do
      let a ← intAt vs 0
      let b ← intAt vs 1
      let c ← intAt vs 2
      return some (k, [.int a, .int b, .int c])) = (intArgs (numbers 3 vs)).map fun a => (k, a) := by
  rcases vs with _ | ⟨a, _ | ⟨b, _ | ⟨c, vs⟩⟩⟩
  · rfl
  · rw [Queries.intAt_zero _ _ (h a (by simp)), Queries.intAt_succ, Queries.intAt_nil]
    unfold numbers
    cases decimal (bare a.string) <;> rfl
  · rw [Queries.intAt_zero _ _ (h a (by simp)), Queries.intAt_succ, Queries.intAt_zero _ _ (h b (by simp)),
      Queries.intAt_succ, Queries.intAt_succ, Queries.intAt_nil]
    simp only [numbers]
    cases decimal (bare a.string) <;> cases decimal (bare b.string) <;> rfl
  · rw [Queries.intAt_zero _ _ (h a (by simp)), Queries.intAt_succ, Queries.intAt_zero _ _ (h b (by simp)),
      Queries.intAt_succ, Queries.intAt_succ, Queries.intAt_zero _ _ (h c (by simp))]
    simp only [numbers]
    cases decimal (bare a.string) <;> cases decimal (bare b.string) <;> cases decimal (bare c.string) <;> rfl

theorem two_args (vs : List Tag) (h : ∀ v ∈ vs, TagText v.string) (k : LightEvents) :
    toOpt (do
      let a ← intAt vs 0
      let b ← intAt vs 1
      return some (k, [.int a, .int b])) = (intArgs (numbers 2 vs)).map fun a => (k, a) := by
  rcases vs with _ | ⟨a, _ | ⟨b, vs⟩⟩
  · rfl
  · rw [Queries.intAt_zero _ _ (h a (by simp)), Queries.intAt_succ, Queries.intAt_nil]
    unfold numbers
    cases decimal (bare a.string) <;> rfl
  · rw [Queries.intAt_zero _ _ (h a (by simp)), Queries.intAt_succ, Queries.intAt_zero _ _ (h b (by simp))]
    simp only [numbers]
    cases decimal (bare a.string) <;> cases decimal (bare b.string) <;> rfl

theorem one_arg (vs : List Tag) (h : ∀ v ∈ vs, TagText v.string) (k : LightEvents) :
    toOpt (do
      let a ← intAt vs 0
      return some (k, [.int a])) = (intArgs (numbers 1 vs)).map fun a => (k, a) := by
  rcases vs with _ | ⟨a, vs⟩
  · rfl
  · rw [Queries.intAt_zero _ _ (h a (by simp))]
    simp only [numbers]
    cases decimal (bare a.string) <;> rfl

/-- The slot of a light event. -/
def lightSlot : LightEvents → Slot
  | .statusChange => .lightStatus
  | .luminosityChange => .lightLuminosity
  | .lightTemporization => .lightTemporization
  | .hsvChange => .lightHsv
  | .whiteTempChange => .lightWhite

theorem light_firing (m : Msg) (hc : Clean m) (hw : m.who = some .lighting) :
    (toOpt (lightEvent m)).map (fun p => (lightSlot p.1, p.2)) = firing m := by
  cases m with
  | normal who wa we =>
    cases hw
    rfl
  | dimResp who we dim vs =>
    cases hw
    obtain ⟨_, _, hv⟩ := hc
    simp only [lightEvent, firing, tag_beforeHash, ok_bind]
    by_cases h1 : beforeHash dim.string = cs!"1"
    · rw [if_pos h1, if_pos h1, three_args vs hv]
      cases intArgs (numbers 3 vs) <;> rfl
    rw [if_neg h1, if_neg h1]
    by_cases h2 : beforeHash dim.string = cs!"8"
    · rw [if_pos h2, if_pos h2, two_args vs hv]
      cases intArgs (numbers 2 vs) <;> rfl
    rw [if_neg h2, if_neg h2]
    by_cases h3 : beforeHash dim.string = cs!"12"
    · rw [if_pos h3, if_pos h3, three_args vs hv]
      cases intArgs (numbers 3 vs) <;> rfl
    rw [if_neg h3, if_neg h3]
    by_cases h4 : beforeHash dim.string = cs!"13"
    · rw [if_pos h4, if_pos h4, one_arg vs hv]
      cases intArgs (numbers 1 vs) <;> rfl
    rw [if_neg h4, if_neg h4]
    rfl
  | ack | nack | generic ts => cases hw
  | status | dimReq | dimWrite => cases hw; rfl

/-! ## Automations -/

theorem automation_firing (m : Msg) (hw : m.who = some .automation) :
    (toOpt ((automationEvent m).map some)).map (fun a => (Slot.automation, a)) = firing m := by
  cases m with
  | normal who wa we =>
    cases hw
    unfold automationEvent firing WhatAutomation.ofStr
    dsimp only
    have : WhatAutomation.all.contains wa.string = true ↔ wa.string ∈ [cs!"0", cs!"1", cs!"2"] := by
      rw [List.contains_iff_mem]; rfl
    by_cases h : wa.string ∈ [cs!"0", cs!"1", cs!"2"]
    · rw [if_pos h, if_pos (this.2 h)]; rfl
    · rw [if_neg h, if_neg (fun c => h (this.1 c))]; rfl
  | ack | nack | generic ts => cases hw
  | status | dimReq | dimWrite | dimResp => cases hw; rfl

/-! ## The gateway -/

theorem gatewayArgs_value (dim : Str) (vs : List Tag) : toOpt (gatewayArgs dim vs) = gatewayValue dim vs := by
  have hm : ∀ {α : Type} (f : α → List Arg) (r : Except Err α), toOpt (r.map fun t => some (f t)) = valueArgs f r := by
    intro α f r; cases r <;> rfl
  unfold gatewayArgs gatewayValue splat
  by_cases h1 : dim = WhatGateway.time
  · rw [if_pos h1, if_pos (show dim = cs!"0" from h1), hm]
  rw [if_neg h1, if_neg (show ¬ dim = cs!"0" from h1)]
  by_cases h2 : dim = WhatGateway.date
  · rw [if_pos h2, if_pos (show dim = cs!"1" from h2), hm]
  rw [if_neg h2, if_neg (show ¬ dim = cs!"1" from h2)]
  by_cases h3 : dim = WhatGateway.ipAddress
  · rw [if_pos h3, if_pos (show dim = cs!"10" from h3), hm]
  rw [if_neg h3, if_neg (show ¬ dim = cs!"10" from h3)]
  by_cases h4 : dim = WhatGateway.netMask
  · rw [if_pos h4, if_pos (show dim = cs!"11" from h4), hm]
  rw [if_neg h4, if_neg (show ¬ dim = cs!"11" from h4)]
  by_cases h5 : dim = WhatGateway.macAddress
  · rw [if_pos h5, if_pos (show dim = cs!"12" from h5), hm]
  rw [if_neg h5, if_neg (show ¬ dim = cs!"12" from h5)]
  by_cases h6 : dim = WhatGateway.deviceType
  · rw [if_pos h6, if_pos (show dim = cs!"15" from h6), hm]
  rw [if_neg h6, if_neg (show ¬ dim = cs!"15" from h6)]
  by_cases h7 : dim = WhatGateway.firmwareVersion
  · subst h7
    simp only [if_true, hm]
    rfl
  rw [if_neg h7]
  by_cases h8 : dim = WhatGateway.uptime
  · rw [if_pos h8, if_pos (show dim = cs!"19" from h8), hm]
  rw [if_neg h8, if_neg (show ¬ dim = cs!"19" from h8)]
  by_cases h9 : dim = WhatGateway.dateTime
  · rw [if_pos h9, if_pos (show dim = cs!"22" from h9), hm]
  rw [if_neg h9, if_neg (show ¬ dim = cs!"22" from h9)]
  by_cases h10 : dim = WhatGateway.kernelVersion
  · subst h10
    simp only [if_true, hm]
    rfl
  rw [if_neg h10]
  by_cases h11 : dim = WhatGateway.distributionVersion
  · subst h11
    simp only [if_true, hm]
    rfl
  rw [if_neg h11]
  rw [if_neg]
  · rfl
  · simp only [List.mem_cons, List.not_mem_nil, or_false, not_or]
    exact ⟨h7, h10, h11⟩

theorem gatewayValue_none {dim : Str} {vs : List Tag} (h : dim ∉ WhatGateway.all) : gatewayValue dim vs = none := by
  simp only [WhatGateway.all, List.mem_cons, not_or, WhatGateway.time, WhatGateway.date, WhatGateway.ipAddress,
    WhatGateway.netMask, WhatGateway.macAddress, WhatGateway.deviceType, WhatGateway.firmwareVersion, WhatGateway.uptime,
    WhatGateway.dateTime, WhatGateway.kernelVersion, WhatGateway.distributionVersion] at h
  obtain ⟨h1, h2, h3, h4, h5, h6, h7, h8, h9, h10, h11, -⟩ := h
  unfold gatewayValue
  rw [if_neg h1, if_neg h2, if_neg h3, if_neg h4, if_neg h5, if_neg h6, if_neg h8, if_neg h9, if_neg]
  simp [h7, h10, h11]

theorem gateway_dim (dim : Tag) (vs : List Tag) :
    toOpt (do
      let what ← WhatGateway.ofStr dim.string
      let args ← gatewayArgs what vs
      return args.map fun a => (what, a)) = (gatewayValue dim.string vs).map fun a => (dim.string, a) := by
  unfold WhatGateway.ofStr
  by_cases h : dim.string ∈ WhatGateway.all
  · rw [if_pos (List.contains_iff_mem.2 h), ok_bind, ← gatewayArgs_value]
    rcases gatewayArgs dim.string vs with e | _ | a <;> rfl
  · rw [if_neg (fun c => h (List.contains_iff_mem.1 c)), gatewayValue_none h]
    rfl

theorem gateway_firing (m : Msg) (hw : m.who = some .gateway) :
    (toOpt (gatewayEvent m)).map (fun p => (Slot.gateway p.1, p.2)) = firing m := by
  cases m with
  | dimResp who we dim vs =>
    cases hw
    simp only [gatewayEvent, firing, gateway_dim]
    cases gatewayValue dim.string vs <;> rfl
  | dimWrite who we dim vs =>
    cases hw
    simp only [gatewayEvent, firing, gateway_dim]
    cases gatewayValue dim.string vs <;> rfl
  | ack | nack | generic ts => cases hw
  | status | dimReq | normal => cases hw; rfl

/-! ## Energy -/

theorem charInt_some {v : Tag} {vs : List Tag} {k : Nat} {c : Char} (hc : v.string[k]? = some c) (hd : isDigit c = true) :
    EnergyManagement.charInt (v :: vs) k = .ok (digitVal c : Int) := by
  have : EnergyManagement.charInt (v :: vs) k = (index v.string k >>= fun c => pyInt [c]) := rfl
  rw [this]
  unfold index
  rw [hc]
  have hdd : Digits [c] := by intro x hx; rw [List.mem_singleton] at hx; subst hx; exact (isDigit_iff _).1 hd
  have := pyInt_digits hdd (by simp) (show 1 ≤ maxStrDigits by decide)
  change pyInt [c] = _
  rw [this]
  simp [strVal]

theorem charInt_none {v : Tag} {vs : List Tag} {k : Nat} (hv : TagText v.string)
    (h : ∀ c, v.string[k]? = some c → isDigit c = false) : ∃ e, EnergyManagement.charInt (v :: vs) k = .error e := by
  have : EnergyManagement.charInt (v :: vs) k = (index v.string k >>= fun c => pyInt [c]) := rfl
  rw [this]
  unfold index
  rcases hc : v.string[k]? with _ | c
  · exact ⟨_, rfl⟩
  · have hd := h c hc
    have ht : TagChar c := hv c (List.mem_of_getElem? hc)
    have : c = '#' := by
      simpa [hd] using (tagChar_iff c).1 ht
    subst this
    exact ⟨_, rfl⟩

theorem stopGoArgs_some {vs : List Tag} {s : StopGoStatus} (h : stopGoArgs vs = .ok s) :
    ∀ k < 13, ∃ n, EnergyManagement.charInt vs k = .ok n := by
  unfold stopGoArgs at h
  rcases h0 : EnergyManagement.charInt vs 0 with e | b0
  · rw [h0] at h; cases h
  rcases h1 : EnergyManagement.charInt vs 1 with e | b1
  · rw [h0, h1] at h; cases h
  rcases h2 : EnergyManagement.charInt vs 2 with e | b2
  · rw [h0, h1, h2] at h; cases h
  rcases h3 : EnergyManagement.charInt vs 3 with e | b3
  · rw [h0, h1, h2, h3] at h; cases h
  rcases h4 : EnergyManagement.charInt vs 4 with e | b4
  · rw [h0, h1, h2, h3, h4] at h; cases h
  rcases h5 : EnergyManagement.charInt vs 5 with e | b5
  · rw [h0, h1, h2, h3, h4, h5] at h; cases h
  rcases h6 : EnergyManagement.charInt vs 6 with e | b6
  · rw [h0, h1, h2, h3, h4, h5, h6] at h; cases h
  rcases h7 : EnergyManagement.charInt vs 7 with e | b7
  · rw [h0, h1, h2, h3, h4, h5, h6, h7] at h; cases h
  rcases h8 : EnergyManagement.charInt vs 8 with e | b8
  · rw [h0, h1, h2, h3, h4, h5, h6, h7, h8] at h; cases h
  rcases h9 : EnergyManagement.charInt vs 9 with e | b9
  · rw [h0, h1, h2, h3, h4, h5, h6, h7, h8, h9] at h; cases h
  rcases h10 : EnergyManagement.charInt vs 10 with e | b10
  · rw [h0, h1, h2, h3, h4, h5, h6, h7, h8, h9, h10] at h; cases h
  rcases h11 : EnergyManagement.charInt vs 11 with e | b11
  · rw [h0, h1, h2, h3, h4, h5, h6, h7, h8, h9, h10, h11] at h; cases h
  rcases h12 : EnergyManagement.charInt vs 12 with e | b12
  · rw [h0, h1, h2, h3, h4, h5, h6, h7, h8, h9, h10, h11, h12] at h; cases h
  intro k hk
  interval_cases k
  exacts [⟨_, h0⟩, ⟨_, h1⟩, ⟨_, h2⟩, ⟨_, h3⟩, ⟨_, h4⟩, ⟨_, h5⟩, ⟨_, h6⟩, ⟨_, h7⟩, ⟨_, h8⟩, ⟨_, h9⟩, ⟨_, h10⟩, ⟨_, h11⟩,
    ⟨_, h12⟩]

theorem digit_ne_zero {c : Char} (h : isDigit c = true) : decide ((digitVal c : Int) ≠ 0) = decide (c ≠ '0') := by
  have : c ∈ cs!"0123456789" := (isDigit_iff c).1 h
  simp only [List.mem_cons, List.not_mem_nil, or_false] at this
  rcases this with rfl | rfl | rfl | rfl | rfl | rfl | rfl | rfl | rfl | rfl <;> decide

theorem stopGo_value (vs : List Tag) (hv : ∀ v ∈ vs, TagText v.string) :
    toOpt ((stopGoArgs vs).map fun s => some [Arg.stopGo s]) = energyValue cs!"250" vs := by
  have hE : ∀ us : List Tag, energyValue cs!"250" us = match us with
    | [] => none
    | v :: _ =>
      if 13 ≤ v.string.length ∧ Digits (v.string.take 13) then
        (statusOfChars ((v.string.take 13).map fun c => c ≠ '0')).map fun s => [.stopGo s]
      else none := by
    intro us; cases us <;> rfl
  rw [hE]
  rcases vs with _ | ⟨v, vs⟩
  · rfl
  have ht := hv v (by simp)
  dsimp only
  by_cases hP : 13 ≤ v.string.length ∧ Digits (v.string.take 13)
  · rw [if_pos hP]
    obtain ⟨hl, hd⟩ := hP
    rcases hs : v.string with _ | ⟨c0, _ | ⟨c1, _ | ⟨c2, _ | ⟨c3, _ | ⟨c4, _ | ⟨c5, _ | ⟨c6, _ | ⟨c7, _ | ⟨c8, _ | ⟨c9, _ |
      ⟨c10, _ | ⟨c11, _ | ⟨c12, s⟩⟩⟩⟩⟩⟩⟩⟩⟩⟩⟩⟩⟩
    · simp [hs] at hl
    · simp [hs] at hl
    · simp [hs] at hl
    · simp [hs] at hl
    · simp [hs] at hl
    · simp [hs] at hl
    · simp [hs] at hl
    · simp [hs] at hl
    · simp [hs] at hl
    · simp [hs] at hl
    · simp [hs] at hl
    · simp [hs] at hl
    · simp [hs] at hl
    · rw [hs] at hd
      have hd' : ∀ c ∈ [c0, c1, c2, c3, c4, c5, c6, c7, c8, c9, c10, c11, c12], isDigit c = true := by
        intro c hc
        exact (isDigit_iff c).2 (hd c (by simpa using hc))
      have at_ : ∀ k c, v.string[k]? = some c → c ∈ [c0, c1, c2, c3, c4, c5, c6, c7, c8, c9, c10, c11, c12] →
          EnergyManagement.charInt (v :: vs) k = .ok (digitVal c : Int) :=
        fun k c h h' => charInt_some h (hd' c h')
      unfold stopGoArgs
      rw [at_ 0 c0 (by rw [hs]; rfl) (by simp), at_ 1 c1 (by rw [hs]; rfl) (by simp), at_ 2 c2 (by rw [hs]; rfl) (by simp),
        at_ 3 c3 (by rw [hs]; rfl) (by simp), at_ 4 c4 (by rw [hs]; rfl) (by simp), at_ 5 c5 (by rw [hs]; rfl) (by simp),
        at_ 6 c6 (by rw [hs]; rfl) (by simp), at_ 7 c7 (by rw [hs]; rfl) (by simp), at_ 8 c8 (by rw [hs]; rfl) (by simp),
        at_ 9 c9 (by rw [hs]; rfl) (by simp), at_ 10 c10 (by rw [hs]; rfl) (by simp),
        at_ 11 c11 (by rw [hs]; rfl) (by simp), at_ 12 c12 (by rw [hs]; rfl) (by simp)]
      simp only [ok_bind]
      rw [digit_ne_zero (hd' c0 (by simp)), digit_ne_zero (hd' c1 (by simp)), digit_ne_zero (hd' c2 (by simp)),
        digit_ne_zero (hd' c3 (by simp)), digit_ne_zero (hd' c4 (by simp)), digit_ne_zero (hd' c5 (by simp)),
        digit_ne_zero (hd' c6 (by simp)), digit_ne_zero (hd' c7 (by simp)), digit_ne_zero (hd' c8 (by simp)),
        digit_ne_zero (hd' c9 (by simp)), digit_ne_zero (hd' c10 (by simp)), digit_ne_zero (hd' c11 (by simp)),
        digit_ne_zero (hd' c12 (by simp))]
      rfl
  · rw [if_neg hP]
    have hbad : ∃ k < 13, ∃ e, EnergyManagement.charInt (v :: vs) k = .error e := by
      by_cases hl : 13 ≤ v.string.length
      · have hd : ¬ Digits (v.string.take 13) := fun h => hP ⟨hl, h⟩
        unfold Digits at hd
        push Not at hd
        obtain ⟨c, hc, hn⟩ := hd
        obtain ⟨k, hk, he⟩ := List.getElem_of_mem hc
        have hk13 : k < 13 := by
          have := hk; rw [List.length_take] at this; omega
        refine ⟨k, hk13, charInt_none ht ?_⟩
        intro c' hc'
        rw [List.getElem_take] at he
        rw [List.getElem?_eq_getElem (by omega)] at hc'
        cases hc'
        rw [he]
        by_contra hb
        exact hn ((isDigit_iff c).1 (by simpa using hb))
      · refine ⟨v.string.length, by omega, charInt_none ht ?_⟩
        intro c hc
        simp at hc
    rcases hs : stopGoArgs (v :: vs) with e | s
    · rfl
    · obtain ⟨k, hk, e, he⟩ := hbad
      obtain ⟨n, hn⟩ := stopGoArgs_some hs k hk
      rw [hn] at he; cases he

theorem energyArgs_value (dim : Str) (h : dim ∈ DimensionEnergy.all) (vs : List Tag) (hv : ∀ v ∈ vs, TagText v.string) :
    toOpt (energyArgs dim vs) = energyValue dim vs := by
  have hm : ∀ {α : Type} (f : α → List Arg) (r : Except Err α), toOpt (r.map fun t => some (f t)) = valueArgs f r := by
    intro α f r; cases r <;> rfl
  simp only [DimensionEnergy.all, List.mem_cons, List.not_mem_nil, or_false] at h
  rcases h with rfl | rfl | rfl | rfl | rfl | rfl | rfl | rfl | rfl | rfl | rfl | rfl | rfl | rfl | rfl | rfl | rfl | rfl |
    rfl | rfl | rfl | rfl | rfl | rfl | rfl | rfl | rfl <;>
    first
      | rfl
      | exact hm (fun x => [Arg.float x]) (EnergyManagement.decodeFloat vs)
      | exact hm (fun x => [Arg.actuator x]) (EnergyManagement.decodeActuator vs)
      | exact hm (fun x => [Arg.int x]) (EnergyManagement.decodeLevel vs)
      | exact stopGo_value vs hv

theorem energyValue_none {dim : Str} {vs : List Tag} (h : dim ∉ DimensionEnergy.all) : energyValue dim vs = none := by
  unfold energyValue
  rw [if_neg, if_neg, if_neg, if_neg]
  · rintro rfl; exact h (by decide)
  · rintro rfl; exact h (by decide)
  · rintro rfl; exact h (by decide)
  · intro hm
    simp only [List.mem_cons, List.not_mem_nil, or_false] at hm
    rcases hm with rfl | rfl | rfl | rfl <;> exact h (by decide)

theorem energy_firing (m : Msg) (hc : Clean m) (hw : m.who = some .energyManagement) :
    (toOpt (energyEvent m)).map (fun p => (Slot.energy p.1, p.2)) = firing m := by
  cases m with
  | dimResp who we dim vs =>
    cases hw
    simp only [energyEvent, firing, DimensionEnergy.ofStr]
    by_cases h : dim.string ∈ DimensionEnergy.all
    · rw [if_pos (List.contains_iff_mem.2 h), ok_bind, ← energyArgs_value _ h _ hc.2.2]
      rcases energyArgs dim.string vs with e | _ | a <;> rfl
    · rw [if_neg (fun c => h (List.contains_iff_mem.1 c)), energyValue_none h]
      rfl
  | ack | nack | generic ts => cases hw
  | status | dimReq | normal | dimWrite => cases hw; rfl

/-! ## Dispatching -/

theorem dispatch_base (call : Call) (r : Registry) (o : Obj) (m : Msg) (b : Base) (h : m.who = some b.who) :
    dispatch .upTo312 call r o m = (b.callCallbacks call r o m).1 := by
  have key : ∀ b', whoMatches .upTo312 m b' = decide (b' = b) := by
    intro b'
    unfold whoMatches
    rw [h]
    cases b <;> cases b' <;> decide
  unfold dispatch subclasses
  cases b <;> simp [dispatchIn, key] <;> split <;> simp_all

theorem dispatch_from313 (call : Call) (r : Registry) (o : Obj) (m : Msg) : dispatch .from313 call r o m = [] := by
  simp [dispatch, subclasses, dispatchIn, whoMatches]

/-- The tasks started for a message whose item has the class of its WHO. -/
theorem dispatch_starts (call : Call) (r : Registry) (o : Obj) (m : Msg) (who : Who) (hc : Clean m)
    (hw : m.who = some who) (ho : itemTypes.lookup who = some o.cls) :
    dispatch .upTo312 call r o m = starts call (slotCbs r) o m := by
  unfold starts
  have hb : who = .lighting ∧ o.cls = .light ∨ who = .automation ∧ o.cls = .automation ∨
      who = .gateway ∧ o.cls = .gateway ∨ who = .energyManagement ∧ o.cls = .energyManagement := by
    generalize o.cls = c at ho
    revert ho
    cases who <;> cases c <;> decide
  rcases hb with ⟨rfl, hcls⟩ | ⟨rfl, hcls⟩ | ⟨rfl, hcls⟩ | ⟨rfl, hcls⟩
  · rw [dispatch_base call r o m .baseLight hw, ← light_firing m hc hw]
    change (lightCallbacks call r o m).1 = _
    rw [lightCallbacks_fst]
    rcases toOpt (lightEvent m) with _ | ⟨k, args⟩
    · rfl
    · cases k <;> rfl
  · rw [dispatch_base call r o m .automation hw, ← automation_firing m hw]
    change (automationCallbacks call r o m).1 = _
    rw [automationCallbacks_fst]
    rcases toOpt ((automationEvent m).map some) with _ | args <;> rfl
  · rw [dispatch_base call r o m .gateway hw, ← gateway_firing m hw]
    change (gatewayCallbacks call r o m).1 = _
    rw [gatewayCallbacks_fst _ _ _ _ hcls]
    rcases toOpt (gatewayEvent m) with _ | ⟨k, args⟩ <;> rfl
  · rw [dispatch_base call r o m .energyManagement hw, ← energy_firing m hc hw]
    change (energyCallbacks call r o m).1 = _
    rw [energyCallbacks_fst _ _ _ _ hcls]
    rcases toOpt (energyEvent m) with _ | ⟨k, args⟩ <;> rfl

end Events
