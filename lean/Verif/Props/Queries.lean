import Verif.Proofs.Queries

/-!
# Properties of the queries of lights and automations (C68, C74)
-/

open Py Spec M Client Item Queries

/-! ## C68: status queries -/

/-- C68: `Light.get_status`. -/
theorem C68_light (cfg : Config) (i : Item) (hi : TagText i.wher.string) :
    Spec.Queries cfg (Light.getStatus cfg i) (frame ['#' :: i.who.code, i.wher.string]) StatusReply LightReply := by
  refine queries_mono (status_queries cfg i hi Light.statusBody) (fun _ => Iff.rfl) fun m r _ h => ?_
  cases h with
  | on => rfl
  | off => rfl
  | other wo wa we h1 h2 =>
    unfold Light.statusBody
    dsimp only
    rw [if_neg (by exact h1), if_neg (by exact h2)]

/-- C68: `Dimmer.get_status`. -/
theorem C68_dimmer (cfg : Config) (i : Item) (hi : TagText i.wher.string) :
    Spec.Queries cfg (Dimmer.getStatus cfg i) (frame ['#' :: i.who.code, i.wher.string]) StatusReply DimmerReply := by
  refine queries_mono (status_queries cfg i hi Dimmer.statusBody) (fun _ => Iff.rfl) fun m r _ h => ?_
  have key : ∀ (wo : Who) (wa we : Tag) (v : Str), TagText wa.string → Head wa.string v →
      Dimmer.statusBody (.normal wo wa we) =
        match decimal v with | some n => .ok [(we, (n : Int) * 10)] | none => .error .valueError := by
    intro wo wa we v ht hv
    obtain ⟨v', h1, h2⟩ := head_tag wa
    obtain rfl := head_unique hv h2
    unfold Dimmer.statusBody
    simp only [h1, ok_bind]
    rw [pyInt_decimal (head_tagText ht hv)]
    rcases decimal v with _ | n <;> rfl
  cases h with
  | level wo wa we v n ht hv hd => rw [key wo wa we v ht hv, hd]; simp [mul_comm]
  | bad wo wa we v ht hv hd => rw [key wo wa we v ht hv, hd]

/-- C68: `Automation.get_status`. -/
theorem C68_automation (cfg : Config) (i : Item) (hi : TagText i.wher.string) :
    Spec.Queries cfg (Automation.getStatus cfg i) (frame ['#' :: i.who.code, i.wher.string]) StatusReply AutomationReply := by
  refine queries_mono (status_queries cfg i hi Automation.statusBody) (fun _ => Iff.rfl) fun m r _ h => ?_
  cases h with
  | state wo wa we h =>
    unfold Automation.statusBody WhatAutomation.ofStr
    dsimp only
    rw [if_pos (by simp only [List.contains_iff_mem]; exact h)]
    rfl
  | bad wo wa we h =>
    unfold Automation.statusBody WhatAutomation.ofStr
    dsimp only
    rw [if_neg (by simp only [List.contains_iff_mem]; exact h)]
    rfl

/-- C68: every status reply with a valid WHAT says exactly one thing to each of the three queries. -/
theorem C68_total (m : Msg) (hm : StatusReply m) (ht : ∀ t ∈ m.tags, TagText t) :
    (∃! r, LightReply m r) ∧ (∃! r, DimmerReply m r) ∧ (∃! r, AutomationReply m r) := by
  obtain ⟨wo, wa, we, rfl⟩ := hm
  have ht : TagText wa.string := ht _ (by simp [Msg.tags])
  refine ⟨?_, ?_, ?_⟩
  · by_cases h1 : wa = ⟨cs!"1"⟩
    · subst h1
      exact ⟨_, .on wo we, fun r h => by cases h with | on => rfl | other _ _ _ h1 h2 => exact absurd rfl h1⟩
    · by_cases h0 : wa = ⟨cs!"0"⟩
      · subst h0
        exact ⟨_, .off wo we, fun r h => by cases h with | off => rfl | other _ _ _ h1 h2 => exact absurd rfl h2⟩
      · refine ⟨_, .other wo wa we (fun h => h1 ?_) (fun h => h0 ?_), fun r h => ?_⟩
        · cases wa; simp_all
        · cases wa; simp_all
        · cases h with
          | on => exact absurd rfl h1
          | off => exact absurd rfl h0
          | other => rfl
  · obtain ⟨v, _, hv⟩ := head_tag wa
    rcases hd : decimal v with _ | n
    · refine ⟨_, .bad wo wa we v ht hv hd, fun r h => ?_⟩
      cases h with
      | level _ _ _ v' _ _ hv' hd' => rw [head_unique hv' hv, hd] at hd'; cases hd'
      | bad => rfl
    · refine ⟨_, .level wo wa we v n ht hv hd, fun r h => ?_⟩
      cases h with
      | level _ _ _ v' n' _ hv' hd' => rw [head_unique hv' hv, hd] at hd'; cases hd'; rfl
      | bad _ _ _ v' _ hv' hd' => rw [head_unique hv' hv, hd] at hd'; cases hd'
  · by_cases h : wa.string ∈ [cs!"0", cs!"1", cs!"2"]
    · exact ⟨_, .state wo wa we h, fun r h' => by cases h' with | state => rfl | bad _ _ _ h'' => exact absurd h h''⟩
    · exact ⟨_, .bad wo wa we h, fun r h' => by cases h' with | bad => rfl | state _ _ _ h'' => exact absurd h'' h⟩

/-- The hypotheses are met: two dimmers answer with levels 5 and 10, then the ACK comes. -/
example (cfg : Config) (h : cfg.session = .command) (net : List (Option (List InEv))) :
    Dimmer.getStatus cfg ⟨.lighting, ⟨cs!"0"⟩⟩
      ⟨net, true, [.msg (.normal .lighting ⟨cs!"5"⟩ ⟨cs!"11"⟩), .msg (.normal .lighting ⟨cs!"10"⟩ ⟨cs!"12"⟩), .msg .ack], []⟩ =
      (([(⟨cs!"11"⟩, 50), (⟨cs!"12"⟩, 100)], .ok ()),
        ⟨net, true, [], [.sent cs!"*#1*0##", .got (.normal .lighting ⟨cs!"5"⟩ ⟨cs!"11"⟩),
          .got (.normal .lighting ⟨cs!"10"⟩ ⟨cs!"12"⟩), .got .ack]⟩) := by
  have := ((C68_dimmer cfg ⟨.lighting, ⟨cs!"0"⟩⟩ (by decide +kernel)
    ⟨net, true, [.msg (.normal .lighting ⟨cs!"5"⟩ ⟨cs!"11"⟩), .msg (.normal .lighting ⟨cs!"10"⟩ ⟨cs!"12"⟩), .msg .ack], []⟩).2
    ⟨rfl, by simp [h]⟩ [.normal .lighting ⟨cs!"5"⟩ ⟨cs!"11"⟩, .normal .lighting ⟨cs!"10"⟩ ⟨cs!"12"⟩] [.msg .ack]
    [[(⟨cs!"11"⟩, 50)], [(⟨cs!"12"⟩, 100)]] (by simp [StatusReply]) rfl
    (.cons (.level .lighting ⟨cs!"5"⟩ _ cs!"5" 5 (by decide +kernel) ⟨by decide, .inl rfl⟩ (by decide +kernel))
      (.cons (.level .lighting ⟨cs!"10"⟩ _ cs!"10" 10 (by decide +kernel) ⟨by decide, .inl rfl⟩ (by decide +kernel)) .nil))).1
    _ _ _ (Ending.acknowledged _)
  rw [this]
  rfl

/-! ## C74: dimension queries of lights -/

/-- C74 (partial): the temporization, brightness, HSV and white temperature queries write the documented request and yield
place and numbers of every reply.  Missing from the full claim: the working time. -/
theorem C74_queries_partial (cfg : Config) (i : Item) (hi : TagText i.wher.string) :
    Spec.Queries cfg (BaseLight.temporizationRequest cfg i) (frame ['#' :: i.who.code, i.wher.string, cs!"2"]) DimReply
      (NumbersReply 3 pack3) ∧
    Spec.Queries cfg (Dimmer.requestCurrentBrightnessSpeed cfg i) (frame ['#' :: i.who.code, i.wher.string, cs!"1"]) DimReply
      (NumbersReply 2 pack2) ∧
    Spec.Queries cfg (Dimmer.requestCurrentHsv cfg i) (frame ['#' :: i.who.code, i.wher.string, cs!"12"]) DimReply
      (NumbersReply 3 pack3) ∧
    Spec.Queries cfg (Dimmer.requestCurrentWhiteTemperature cfg i) (frame ['#' :: i.who.code, i.wher.string, cs!"14"]) DimReply
      (NumbersReply 1 pack1) :=
  ⟨queries_mono (dimStr_queries cfg i hi _ (by decide +kernel) _) (fun _ => Iff.rfl) fun _ _ _ h => three_reply h,
   queries_mono (dimStr_queries cfg i hi _ (by decide +kernel) _) (fun _ => Iff.rfl) fun _ _ _ h => two_reply h,
   queries_mono (dimStr_queries cfg i hi _ (by decide +kernel) _) (fun _ => Iff.rfl) fun _ _ _ h => three_reply h,
   queries_mono (dimStr_queries cfg i hi _ (by decide +kernel) _) (fun _ => Iff.rfl) fun _ _ _ h => one_reply h⟩

/-- C74 (partial): what the working time query does: it sends dimension 3, which asks which lights are on. -/
theorem C74_working_time_partial (cfg : Config) (i : Item) (hi : TagText i.wher.string) :
    Spec.Queries cfg (BaseLight.requestWorkingTimeLamp cfg i) (frame ['#' :: i.who.code, i.wher.string, cs!"3"]) DimReply
      (NumbersReply 1 pack1) :=
  queries_mono (dimStr_queries cfg i hi _ (by decide +kernel) _) (fun _ => Iff.rfl) fun _ _ _ h => one_reply h

/-- C74 is false for `request_working_time_lamp`: it does not write the documented request `*#1*WHERE*8##` in any session
that can send, and the documented answer to what it does write, a normal message for a light that is on, raises
`ResponseError`. -/
theorem C74_working_time_refuted (cfg : Config) (hs : cfg.session ≠ .event) (i : Item) (hi : TagText i.wher.string) :
    ¬ Spec.Queries cfg (BaseLight.requestWorkingTimeLamp cfg i) (frame ['#' :: i.who.code, i.wher.string, cs!"8"]) DimReply
      (NumbersReply 1 pack1) ∧
    ∀ net rest wo we, (BaseLight.requestWorkingTimeLamp cfg i ⟨net, true, .msg (.normal wo ⟨cs!"1"⟩ we) :: rest, []⟩).1 =
      ([], .error .responseError) := by
  have hq := C74_working_time_partial cfg i hi
  constructor
  · intro h
    have h3 := ((hq ⟨[], true, [], []⟩).2 ⟨rfl, hs⟩ [] [] [] (by simp) rfl .nil).1 _ _ _ .nothing
    have h8 := ((h ⟨[], true, [], []⟩).2 ⟨rfl, hs⟩ [] [] [] (by simp) rfl .nil).1 _ _ _ .nothing
    rw [h3] at h8
    simp [World.after, frame, body] at h8
  · intro net rest wo we
    have := ((hq ⟨net, true, .msg (.normal wo ⟨cs!"1"⟩ we) :: rest, []⟩).2 ⟨rfl, hs⟩ [] _ [] (by simp) rfl .nil).1 _ _ _
      (.refused _ _ (by simp) (by simp [DimReply]))
    rw [this]
    rfl

/-- The hypotheses are met: a tunable white light answers 250 mired. -/
example : NumbersReply 1 pack1 (.dimResp .lighting ⟨cs!"12"⟩ ⟨cs!"14"⟩ [⟨cs!"250"⟩]) (.ok [(⟨cs!"12"⟩, 250)]) :=
  .values _ _ _ _ [250] _ (by simpa using (by decide +kernel : TagText cs!"250")) (by decide +kernel) rfl
