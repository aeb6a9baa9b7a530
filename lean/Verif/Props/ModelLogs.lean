import Verif.Proofs.ModelLogs
import Verif.Spec.Calendar
import Verif.Props.Gateway

/-! # C120: a gateway model the library does not know is told in the log -/

open Py Spec Spec.ModelLogs

/-- C120: what is logged changes nothing of what `get_model` does (C60). -/
theorem C120_same (cfg : Config) (message : Option Msg) (w : World) :
    Gateway.getModel cfg message w = (((ModelLogs.getModel cfg message w).1.map (·.1)), (ModelLogs.getModel cfg message w).2) := by
  have hd : ∀ vs, (Gateway.valueAt vs 0).map GatewayModel.ofStr = ((Gateway.valueAt vs 0).map ModelLogs.ofStr).map (·.1) := by
    intro vs
    cases Gateway.valueAt vs 0 with
    | error e => rfl
    | ok s => exact congrArg Except.ok (modelLogs_ofStr s).1.symm
  have hl : ∀ {α : Type} (x : Except Err α) (w : World), M.lift x w = (x, w) := by intro α x w; cases x <;> rfl
  have hb : ∀ {α β : Type} (x : M α) (f : α → M β) (w : World), (x >>= f) w =
      match x w with
      | (.ok a, w') => f a w'
      | (.error e, w') => (.error e, w') := fun _ _ _ => rfl
  unfold Gateway.getModel ModelLogs.getModel
  rw [hb, hb]
  generalize Gateway.response cfg WhatGateway.deviceType message w = r
  obtain ⟨r, w'⟩ := r
  cases r with
  | error e => rfl
  | ok m => simp only [hl, hd]

/-- C120: `get_model` asks as C60 says, and what it logs depends on the first value of the answer only. -/
theorem C120_get_model (cfg : Config) :
    Reads cfg (ModelLogs.getModel cfg) cs!"*#13**15##" (fun vs => (Gateway.valueAt vs 0).map ModelLogs.ofStr) :=
  reads_of cfg (ModelLogs.getModel cfg) cs!"15" (fun vs => (Gateway.valueAt vs 0).map ModelLogs.ofStr) (by decide +kernel) fun _ => rfl

/-- C120 as far as it holds: a message with the code of a model the library knows is taken without a word; every other code gives
`GENERIC` and two warnings, the first of which names it.  Missing: that the documented code 13 is known. -/
theorem C120_told_partial (cfg : Config) (m : Msg) (w : World) (v : Tag) (vs : List Tag) (hv : m.values = v :: vs) :
    ∃ model log, ModelLogs.getModel cfg (some m) w = (.ok (model, log), w) ∧
      (v.string ∈ known → log = []) ∧ (v.string ∈ documentedCodes → v.string ≠ cs!"13" → log = []) ∧
      (v.string ∉ known → model = .generic ∧ Told v.string (shown log)) := by
  obtain ⟨_, h2, h3⟩ := modelLogs_ofStr v.string
  refine ⟨_, _, ?_, h2, fun hd hn => h2 ?_, h3⟩
  · rw [(C120_get_model cfg).1, hv]; rfl
  · simp only [documentedCodes, List.mem_cons, List.not_mem_nil, or_false] at hd
    rcases hd with h | h | h | h
    · rw [h]; decide
    · rw [h]; decide
    · rw [h]; decide
    · exact absurd h hn

/-- C120: an event with the model of the gateway logs the same; no other event logs anything of this kind. -/
theorem C120_event (item : Events.Obj) (m : Msg) :
    (∀ v vs, item.cls = .gateway → (∃ wo we, m = .dimResp wo we ⟨cs!"15"⟩ (v :: vs) ∨ m = .dimWrite wo we ⟨cs!"15"⟩ (v :: vs)) →
      (v.string ∈ known → ModelLogs.event item m = []) ∧ (v.string ∉ known → Told v.string (shown (ModelLogs.event item m)))) ∧
    (ModelLogs.event item m ≠ [] → item.cls = .gateway ∧ ∃ wo we v vs, v.string ∉ known ∧
      (m = .dimResp wo we ⟨cs!"15"⟩ (v :: vs) ∨ m = .dimWrite wo we ⟨cs!"15"⟩ (v :: vs))) := by
  constructor
  · rintro v vs hc ⟨wo, we, rfl | rfl⟩
    all_goals
      obtain ⟨_, h2, h3⟩ := modelLogs_ofStr v.string
      unfold ModelLogs.event
      dsimp only
      rw [if_pos ⟨hc, rfl⟩]
      exact ⟨h2, fun h => (h3 h).2⟩
  · intro h
    have key : ∀ dim vs, (if item.cls = .gateway ∧ dim = WhatGateway.deviceType then
        match Gateway.valueAt vs 0 with
        | .ok s => (ModelLogs.ofStr s).2
        | .error _ => []
      else []) ≠ [] → item.cls = .gateway ∧ dim = cs!"15" ∧ ∃ v rest, vs = v :: rest ∧ v.string ∉ known := by
      intro dim vs h
      split at h
      · rename_i hc
        cases vs with
        | nil => exact absurd rfl h
        | cons v rest => exact ⟨hc.1, hc.2, v, rest, rfl, fun hk => h ((modelLogs_ofStr v.string).2.1 hk)⟩
      · exact absurd rfl h
    cases m with
    | dimResp wo we d vs =>
      obtain ⟨h1, h2, v, rest, rfl, h3⟩ := key d.string vs h
      obtain ⟨d⟩ := d
      cases h2
      exact ⟨h1, wo, we, v, rest, h3, .inl rfl⟩
    | dimWrite wo we d vs =>
      obtain ⟨h1, h2, v, rest, rfl, h3⟩ := key d.string vs h
      obtain ⟨d⟩ := d
      cases h2
      exact ⟨h1, wo, we, v, rest, h3, .inr rfl⟩
    | _ => exact absurd rfl h

/-- C120: the warning determines the code. -/
theorem C120_names (a b : Str) (l : List (Logs.Level × Str)) (ha : Told a l) (hb : Told b l) : a = b := by
  unfold Told at ha hb
  rw [ha] at hb
  simp only [List.cons.injEq, Prod.mk.injEq, true_and, and_true] at hb
  exact List.append_cancel_left (List.append_cancel_right hb)

/-- C120 fails: the documents list code 13, and the library warns that it does not know it. -/
theorem C120_h4684_refuted (cfg : Config) (m : Msg) (w : World) (vs : List Tag) (hv : m.values = ⟨cs!"13"⟩ :: vs) :
    cs!"13" ∈ documentedCodes ∧ ∃ log, ModelLogs.getModel cfg (some m) w = (.ok (.generic, log), w) ∧ Told cs!"13" (shown log) := by
  refine ⟨by decide, _, ?_, ((modelLogs_ofStr cs!"13").2.2 (by decide)).2⟩
  rw [(C120_get_model cfg).1, hv]
  rfl

/-- Answers with a known, an unknown and the forgotten code. -/
example : (ModelLogs.ofStr cs!"200") = (.mh202, []) ∧ cs!"99" ∉ known ∧ (ModelLogs.ofStr cs!"99").1 = .generic ∧
    (Msg.dimResp .gateway ⟨[]⟩ ⟨cs!"15"⟩ [⟨cs!"13"⟩]).values = [⟨cs!"13"⟩] ∧
    shown (ModelLogs.ofStr cs!"99").2 = [(.warning, cs!"The gateway model 99 was not found in the known models."),
      (.warning, cs!"Please, open an issue on GitHub, attach the logs and the model name.")] := by decide +kernel

/-- C120: a program that listens for the model is given that of `GENERIC`, `0`, whenever such a warning is logged. -/
theorem C120_event_generic (item : Events.Obj) (m : Msg) (h : ModelLogs.event item m ≠ []) :
    Events.gatewayEvent m = .ok (some (cs!"15", [.str cs!"0"])) := by
  obtain ⟨_, wo, we, v, vs, hk, hm⟩ := (C120_event item m).2 h
  have hg : GatewayModel.ofStr v.string = .generic := by
    rw [← (modelLogs_ofStr v.string).1]; exact ((modelLogs_ofStr v.string).2.2 hk).1
  have ha : Events.gatewayArgs cs!"15" (v :: vs) = .ok (some [.str cs!"0"]) := by
    have : Events.gatewayArgs cs!"15" (v :: vs) = ((Gateway.valueAt (v :: vs) 0).map GatewayModel.ofStr).map
        fun m => some (Events.splat m.code) := rfl
    rw [this]
    change Except.ok (some (Events.splat (GatewayModel.ofStr v.string).code)) = _
    rw [hg]; rfl
  have hw : WhatGateway.ofStr cs!"15" = .ok cs!"15" := by decide +kernel
  rcases hm with rfl | rfl <;> simp only [Events.gatewayEvent, hw, bind, Except.bind, ha] <;> rfl
