import Verif.Proofs.Agree
import Verif.Props.Events

/-!
# C137: asking and listening agree

The full claim: what a program can ask for and can listen to is told to those who listen as to those who ask: by every message
that tells it, a callback gets the value that the getter returns, and nothing if the getter gives nothing.
-/

open Py M Spec Events Item Agree

/-- The full claim. -/
def C137_full : Prop := ∀ (t : Topic) (cfg : Config), t.Agrees cfg

/-- C137 as far as it holds. -/
theorem C137_same_partial (cfg : Config) (t : Topic) (ht : t ∈ [Topic.automationStatus, .hsv, .time, .date, .ip, .uptime, .datetime,
    .power, .energy, .month, .day, .actuator, .level]) : t.Agrees cfg := by
  simp only [List.mem_cons, List.not_mem_nil, or_false] at ht
  rcases ht with rfl | rfl | rfl | rfl | rfl | rfl | rfl | rfl | rfl | rfl | rfl | rfl | rfl
  · refine agrees_of (fun m => match m with
      | .normal _ what _ => if what.string ∈ [cs!"0", cs!"1", cs!"2"] then some [.automation what.string] else none
      | _ => none) ?_ ?_
    · rintro wher m w hp ⟨what, rfl⟩ hc hr hin
      have := status_one (i := ⟨.automation, wher⟩) hc.2 Automation.statusBody hr rfl hin
      simp only [Topic.ask, answers, Automation.getStatus, this, Automation.statusBody, WhatAutomation.ofStr, List.contains_iff_mem]
      by_cases h : what.string ∈ [cs!"0", cs!"1", cs!"2"]
      · rw [if_pos (by exact h), if_pos h]; rfl
      · rw [if_neg (by exact h), if_neg h]; rfl
    · rintro wher m ⟨what, rfl⟩ hc
      simp only [firing, Topic.who]
      split <;> rfl
  · refine agrees_of (fun m => intArgs (numbers 3 m.values)) ?_ ?_
    · rintro wher m w hp ⟨vs, rfl⟩ hc hr hin
      have := dim_one (i := ⟨.lighting, wher⟩) (dim := cs!"12") hc.1 (by simp [TagText, TagChar]) threeInts hr rfl hin
      simp only [Topic.ask, answers, Dimmer.requestCurrentHsv, this]
      rw [Queries.numbers_three vs hc.2.2]
      change _ = (intArgs (numbers 3 vs)).toList
      rcases vs with _ | ⟨a, _ | ⟨b, _ | ⟨c, vs⟩⟩⟩
      · rfl
      · simp only [numbers]; cases decimal (bare a.string) <;> rfl
      · simp only [numbers]; cases decimal (bare a.string) <;> cases decimal (bare b.string) <;> rfl
      · simp only [numbers]; cases decimal (bare a.string) <;> cases decimal (bare b.string) <;> cases decimal (bare c.string) <;> rfl
    · rintro wher m ⟨vs, rfl⟩ hc
      rfl
  · refine agrees_of (fun m => gatewayValue cs!"0" m.values) ?_ (by rintro wher m ⟨vs, rfl⟩ hc; rfl)
    rintro wher m w hp ⟨vs, rfl⟩ hc hr hin
    exact oneAnswer_eq _ (gateway_one (what := cs!"0") (by simp [TagText, TagChar]) hr hin Gateway.decodeTime)
  · refine agrees_of (fun m => gatewayValue cs!"1" m.values) ?_ (by rintro wher m ⟨vs, rfl⟩ hc; rfl)
    rintro wher m w hp ⟨vs, rfl⟩ hc hr hin
    exact oneAnswer_eq _ (gateway_one (what := cs!"1") (by simp [TagText, TagChar]) hr hin Gateway.decodeDate)
  · refine agrees_of (fun m => gatewayValue cs!"10" m.values) ?_ (by rintro wher m ⟨vs, rfl⟩ hc; rfl)
    rintro wher m w hp ⟨vs, rfl⟩ hc hr hin
    exact oneAnswer_eq _ (gateway_one (what := cs!"10") (by simp [TagText, TagChar]) hr hin fun vs => Gateway.dotted vs >>= ipv4)
  · refine agrees_of (fun m => gatewayValue cs!"19" m.values) ?_ (by rintro wher m ⟨vs, rfl⟩ hc; rfl)
    rintro wher m w hp ⟨vs, rfl⟩ hc hr hin
    exact oneAnswer_eq _ (gateway_one (what := cs!"19") (by simp [TagText, TagChar]) hr hin Gateway.decodeUptime)
  · refine agrees_of (fun m => gatewayValue cs!"22" m.values) ?_ (by rintro wher m ⟨vs, rfl⟩ hc; rfl)
    rintro wher m w hp ⟨vs, rfl⟩ hc hr hin
    exact oneAnswer_eq _ (gateway_one (what := cs!"22") (by simp [TagText, TagChar]) hr hin Gateway.decodeDateTime)
  · refine agrees_of (fun m => energyValue cs!"113" m.values) ?_ (by rintro wher m ⟨vs, rfl⟩ hc; rfl)
    rintro wher m w hp ⟨vs, rfl⟩ hc hr hin
    exact oneAnswer_eq _ (energy_one (i := ⟨_, wher⟩) (what := cs!"113") hc.1 rfl (by simp [TagText, TagChar]) hr hin
      EnergyManagement.decodeFloat)
  · refine agrees_of (fun m => energyValue cs!"51" m.values) ?_ (by rintro wher m ⟨vs, rfl⟩ hc; rfl)
    rintro wher m w hp ⟨vs, rfl⟩ hc hr hin
    exact oneAnswer_eq _ (energy_one (i := ⟨_, wher⟩) (what := cs!"51") hc.1 rfl (by simp [TagText, TagChar]) hr hin
      EnergyManagement.decodeFloat)
  · refine agrees_of (fun m => energyValue cs!"53" m.values) ?_ (by rintro wher m ⟨vs, rfl⟩ hc; rfl)
    rintro wher m w hp ⟨vs, rfl⟩ hc hr hin
    exact oneAnswer_eq _ (energy_one (i := ⟨_, wher⟩) (what := cs!"53") hc.1 rfl (by simp [TagText, TagChar]) hr hin
      EnergyManagement.decodeFloat)
  · refine agrees_of (fun m => energyValue cs!"54" m.values) ?_ (by rintro wher m ⟨vs, rfl⟩ hc; rfl)
    rintro wher m w hp ⟨vs, rfl⟩ hc hr hin
    exact oneAnswer_eq _ (energy_one (i := ⟨_, wher⟩) (what := cs!"54") hc.1 rfl (by simp [TagText, TagChar]) hr hin
      EnergyManagement.decodeFloat)
  · refine agrees_of (fun m => energyValue cs!"71" m.values) ?_ (by rintro wher m ⟨vs, rfl⟩ hc; rfl)
    rintro wher m w hp ⟨vs, rfl⟩ hc hr hin
    exact oneAnswer_eq _ (energy_one (i := ⟨_, wher⟩) (what := cs!"71") hc.1 rfl (by simp [TagText, TagChar]) hr hin
      EnergyManagement.decodeActuator)
  · refine agrees_of (fun m => energyValue cs!"73" m.values) ?_ (by rintro wher m ⟨vs, rfl⟩ hc; rfl)
    rintro wher m w hp ⟨vs, rfl⟩ hc hr hin
    exact oneAnswer_eq _ (energy_one (i := ⟨_, wher⟩) (what := cs!"73") hc.1 rfl (by simp [TagText, TagChar]) hr hin
      EnergyManagement.decodeLevel)

/-- C137: the status of a light, if the gateway tells it as on or off. -/
theorem C137_light_partial (cfg : Config) (wher what : Tag) (w : World) (hw : TagText wher.string) (hr : Ready cfg w)
    (hin : w.inbox = [.msg (.normal .lighting what wher), .msg .ack]) (ho : what.string = cs!"0" ∨ what.string = cs!"1") :
    ∃ args, (Topic.lightStatus.ask cfg wher w).1 = [args] ∧ Delivers (.normal .lighting what wher) .lightStatus args := by
  obtain ⟨what⟩ := what
  have := status_one (i := ⟨.lighting, wher⟩) hw Light.statusBody hr rfl hin
  simp only [Topic.ask, answers, Light.getStatus, this]
  rcases ho with rfl | rfl
  · exact ⟨_, rfl, delivers_of (who := .lighting) rfl rfl rfl rfl (placed_other (by decide))⟩
  · exact ⟨_, rfl, delivers_of (who := .lighting) rfl rfl rfl rfl (placed_other (by decide))⟩

namespace Agree

/-- A program registers a callback, listens, and a packet comes. -/
def history (c : Cls) (mt : Method) (text : String) : List Step := [.register c mt 7, .loop, .packet (bytes text)]

/-- What its callback is told. -/
def told (c : Cls) (mt : Method) (text : String) : List (List Arg) :=
  (after .upTo312 allStart .event 1 (history c mt text ++ [.resume])).trace.map (·.args)

theorem differs {t : Topic} {cfg : Config} (hcmd : cfg.session ≠ .event) (c : Cls) (mt : Method) (text : String) (wher : Tag) (m : Msg)
    (asked : List (List Arg)) (hs : slotOf c mt = some t.slot) (hp : Placed t.who wher.string) (ht : t.Tells wher m) (hc : Clean m)
    (hw : Waiting (after .upTo312 allStart .event 1 (history c mt text)) [m])
    (h0 : (after .upTo312 allStart .event 1 (history c mt text)).trace = [])
    (ha : ∀ w, Ready cfg w → w.inbox = [.msg m, .msg .ack] → (t.ask cfg wher w).1 = asked)
    (hl : asked.length ≤ 1) (hd : told c mt text ≠ asked) : ¬ t.Agrees cfg := by
  intro h
  obtain ⟨h1, h2⟩ := h wher m ⟨[], true, [.msg m, .msg .ack], []⟩ hp ht hc ⟨rfl, hcmd⟩ rfl
  have ha := ha ⟨[], true, [.msg m, .msg .ack], []⟩ ⟨rfl, hcmd⟩ rfl
  rcases asked with _ | ⟨args, _ | ⟨_, _⟩⟩
  · have := (h2 ha .upTo312 allStart .event 1 _ hw).1
    exact hd (by unfold told; rw [this, h0]; rfl)
  · obtain ⟨o, _, k, _⟩ := h1 args ha allStart .event 1 _ (fun _ => rfl) hw
    refine hd ?_
    unfold told
    rw [k, h0]
    simp [history, registered, hs]
  · simp at hl

end Agree

/-- C137 is false.  A light that is dimmed is told as off, where the getter says nothing; the level of a dimmer comes as
`True` or `False`; the temporization, the brightness, the white temperature, the totalizers and the energy of a month are not told
at all; a text comes as its characters. -/
theorem C137_differ_refuted (cfg : Config) (hcmd : cfg.session ≠ .event) (t : Topic) (ht : t ∈ [Topic.lightStatus, .dimmerStatus,
    .temporization, .brightness, .whiteTemperature, .netmask, .mac, .model, .firmware, .kernel, .distribution, .totalizer 1,
    .perMonth 25 1]) : ¬ t.Agrees cfg := by
  simp only [List.mem_cons, List.not_mem_nil, or_false] at ht
  rcases ht with rfl | rfl | rfl | rfl | rfl | rfl | rfl | rfl | rfl | rfl | rfl | rfl | rfl
  · refine differs hcmd .light .onStatusChange "*1*5*12##" ⟨cs!"12"⟩ (.normal .lighting ⟨cs!"5"⟩ ⟨cs!"12"⟩) [] rfl
      (placed_other (by decide)) ⟨_, rfl⟩ (by simp [Clean, TagText, TagChar]) ⟨by decide +kernel, by decide +kernel, by decide +kernel⟩
      (by decide +kernel) ?_ (by decide) (by decide +kernel)
    intro w hr hin
    simp only [Topic.ask, answers, Light.getStatus,
      status_one (i := ⟨.lighting, ⟨cs!"12"⟩⟩) (by simp [TagText, TagChar]) Light.statusBody hr rfl hin]
    rfl
  · refine differs hcmd .dimmer .onStatusChange "*1*5*12##" ⟨cs!"12"⟩
      (.normal .lighting ⟨cs!"5"⟩ ⟨cs!"12"⟩) [[.int 50]] rfl
      (placed_other (by decide)) ⟨_, rfl⟩ (by simp [Clean, TagText, TagChar]) ⟨by decide +kernel, by decide +kernel, by decide +kernel⟩
      (by decide +kernel) ?_ (by decide) (by decide +kernel)
    intro w hr hin
    simp only [Topic.ask, answers, Dimmer.getStatus,
      status_one (i := ⟨.lighting, ⟨cs!"12"⟩⟩) (by simp [TagText, TagChar]) Dimmer.statusBody hr rfl hin]
    rfl
  · refine differs hcmd .dimmer .onTemporizationChange "*#1*12*2*0*5*30##" ⟨cs!"12"⟩
      (.dimResp .lighting ⟨cs!"12"⟩ ⟨cs!"2"⟩ [⟨cs!"0"⟩, ⟨cs!"5"⟩, ⟨cs!"30"⟩]) [[.int 0, .int 5, .int 30]] rfl
      (placed_other (by decide)) ⟨_, rfl⟩ (by simp [Clean, TagText, TagChar]) ⟨by decide +kernel, by decide +kernel, by decide +kernel⟩
      (by decide +kernel) ?_ (by decide) (by decide +kernel)
    intro w hr hin
    simp only [Topic.ask, answers, BaseLight.temporizationRequest,
      dim_one (i := ⟨.lighting, ⟨cs!"12"⟩⟩) (dim := cs!"2") (by simp [TagText, TagChar]) (by simp [TagText, TagChar]) threeInts hr rfl hin]
    rfl
  · refine differs hcmd .dimmer .onLuminosityChange "*#1*12*1*150*255##" ⟨cs!"12"⟩
      (.dimResp .lighting ⟨cs!"12"⟩ ⟨cs!"1"⟩ [⟨cs!"150"⟩, ⟨cs!"255"⟩]) [[.int 150, .int 255]] rfl
      (placed_other (by decide)) ⟨_, rfl⟩ (by simp [Clean, TagText, TagChar]) ⟨by decide +kernel, by decide +kernel, by decide +kernel⟩
      (by decide +kernel) ?_ (by decide) (by decide +kernel)
    intro w hr hin
    simp only [Topic.ask, answers, Dimmer.requestCurrentBrightnessSpeed,
      dim_one (i := ⟨.lighting, ⟨cs!"12"⟩⟩) (dim := cs!"1") (by simp [TagText, TagChar]) (by simp [TagText, TagChar]) twoInts hr rfl hin]
    rfl
  · refine differs hcmd .dimmer .onWhiteTempChange "*#1*12*14*200##" ⟨cs!"12"⟩
      (.dimResp .lighting ⟨cs!"12"⟩ ⟨cs!"14"⟩ [⟨cs!"200"⟩]) [[.int 200]] rfl
      (placed_other (by decide)) ⟨_, rfl⟩ (by simp [Clean, TagText, TagChar]) ⟨by decide +kernel, by decide +kernel, by decide +kernel⟩
      (by decide +kernel) ?_ (by decide) (by decide +kernel)
    intro w hr hin
    simp only [Topic.ask, answers, Dimmer.requestCurrentWhiteTemperature,
      dim_one (i := ⟨.lighting, ⟨cs!"12"⟩⟩) (dim := cs!"14") (by simp [TagText, TagChar]) (by simp [TagText, TagChar]) oneInt hr rfl hin]
    rfl
  · refine differs hcmd .gateway (.registerCallback cs!"11") "*#13**11*255*255*255*0##" ⟨[]⟩
      (.dimResp .gateway ⟨[]⟩ ⟨cs!"11"⟩ [⟨cs!"255"⟩, ⟨cs!"255"⟩, ⟨cs!"255"⟩, ⟨cs!"0"⟩]) [[.str cs!"255.255.255.0"]] rfl
      (placed_other (by decide)) ⟨_, rfl⟩ (by simp [Clean, TagText, TagChar]) ⟨by decide +kernel, by decide +kernel, by decide +kernel⟩
      (by decide +kernel) ?_ (by decide) (by decide +kernel)
    intro w hr hin
    exact oneAnswer_eq _ (gateway_one (what := cs!"11") (by simp [TagText, TagChar]) hr hin Gateway.dotted)
  · refine differs hcmd .gateway (.registerCallback cs!"12") "*#13**12*0*3*80*1*2*3##" ⟨[]⟩
      (.dimResp .gateway ⟨[]⟩ ⟨cs!"12"⟩ [⟨cs!"0"⟩, ⟨cs!"3"⟩, ⟨cs!"80"⟩, ⟨cs!"1"⟩, ⟨cs!"2"⟩, ⟨cs!"3"⟩]) [[.str cs!"0:3:80:1:2:3"]] rfl
      (placed_other (by decide)) ⟨_, rfl⟩ (by simp [Clean, TagText, TagChar]) ⟨by decide +kernel, by decide +kernel, by decide +kernel⟩
      (by decide +kernel) ?_ (by decide) (by decide +kernel)
    intro w hr hin
    exact oneAnswer_eq _ (gateway_one (what := cs!"12") (by simp [TagText, TagChar]) hr hin Gateway.decodeMac)
  · refine differs hcmd .gateway (.registerCallback cs!"15") "*#13**15*200##" ⟨[]⟩
      (.dimResp .gateway ⟨[]⟩ ⟨cs!"15"⟩ [⟨cs!"200"⟩]) [[.str cs!"200"]] rfl
      (placed_other (by decide)) ⟨_, rfl⟩ (by simp [Clean, TagText, TagChar]) ⟨by decide +kernel, by decide +kernel, by decide +kernel⟩
      (by decide +kernel) ?_ (by decide) (by decide +kernel)
    intro w hr hin
    exact oneAnswer_eq _ (gateway_one (what := cs!"15") (by simp [TagText, TagChar]) hr hin fun vs => (Gateway.valueAt vs 0).map GatewayModel.ofStr)
  · refine differs hcmd .gateway (.registerCallback cs!"16") "*#13**16*1*2*3##" ⟨[]⟩
      (.dimResp .gateway ⟨[]⟩ ⟨cs!"16"⟩ [⟨cs!"1"⟩, ⟨cs!"2"⟩, ⟨cs!"3"⟩]) [[.str cs!"1.2.3"]] rfl
      (placed_other (by decide)) ⟨_, rfl⟩ (by simp [Clean, TagText, TagChar]) ⟨by decide +kernel, by decide +kernel, by decide +kernel⟩
      (by decide +kernel) ?_ (by decide) (by decide +kernel)
    intro w hr hin
    exact oneAnswer_eq _ (gateway_one (what := cs!"16") (by simp [TagText, TagChar]) hr hin Gateway.decodeVersion)
  · refine differs hcmd .gateway (.registerCallback cs!"23") "*#13**23*1*2*3##" ⟨[]⟩
      (.dimResp .gateway ⟨[]⟩ ⟨cs!"23"⟩ [⟨cs!"1"⟩, ⟨cs!"2"⟩, ⟨cs!"3"⟩]) [[.str cs!"1.2.3"]] rfl
      (placed_other (by decide)) ⟨_, rfl⟩ (by simp [Clean, TagText, TagChar]) ⟨by decide +kernel, by decide +kernel, by decide +kernel⟩
      (by decide +kernel) ?_ (by decide) (by decide +kernel)
    intro w hr hin
    exact oneAnswer_eq _ (gateway_one (what := cs!"23") (by simp [TagText, TagChar]) hr hin Gateway.decodeVersion)
  · refine differs hcmd .gateway (.registerCallback cs!"24") "*#13**24*1*2*3##" ⟨[]⟩
      (.dimResp .gateway ⟨[]⟩ ⟨cs!"24"⟩ [⟨cs!"1"⟩, ⟨cs!"2"⟩, ⟨cs!"3"⟩]) [[.str cs!"1.2.3"]] rfl
      (placed_other (by decide)) ⟨_, rfl⟩ (by simp [Clean, TagText, TagChar]) ⟨by decide +kernel, by decide +kernel, by decide +kernel⟩
      (by decide +kernel) ?_ (by decide) (by decide +kernel)
    intro w hr hin
    exact oneAnswer_eq _ (gateway_one (what := cs!"24") (by simp [TagText, TagChar]) hr hin Gateway.decodeVersion)
  · refine differs hcmd .energyManagement .onTotalizerSinceReset "*#18*51*72#1*500*1*2*2025*10*30##" ⟨cs!"51"⟩
      (.dimResp .energyManagement ⟨cs!"51"⟩ ⟨cs!"72#1"⟩ [⟨cs!"500"⟩, ⟨cs!"1"⟩, ⟨cs!"2"⟩, ⟨cs!"2025"⟩, ⟨cs!"10"⟩, ⟨cs!"30"⟩]) [[.datetime ⟨⟨2025, 2, 1⟩, ⟨10, 30, 0, 0, none⟩⟩, .float (.nat 500)]] rfl
      (placed_energy.2 ⟨_, .powerMeter cs!"1" (by decide) (by decide +kernel)⟩) ⟨_, rfl⟩ (by simp [Clean, TagText, TagChar]) ⟨by decide +kernel, by decide +kernel, by decide +kernel⟩
      (by decide +kernel) ?_ (by decide) (by decide +kernel)
    intro w hr hin
    exact (oneAnswer_eq _ (energy_one (i := ⟨_, ⟨cs!"51"⟩⟩) (what := cs!"72#1") (by simp [TagText, TagChar]) rfl (by simp [TagText, TagChar]) hr hin EnergyManagement.decodeTotalizers)).trans
      (by decide +kernel)
  · refine differs hcmd .energyManagement .onEnergyUnitPerMonth "*#18*51*52#25#1*500##" ⟨cs!"51"⟩
      (.dimResp .energyManagement ⟨cs!"51"⟩ ⟨cs!"52#25#1"⟩ [⟨cs!"500"⟩]) [[.int 1, .int 25, .float (.nat 500)]] rfl
      (placed_energy.2 ⟨_, .powerMeter cs!"1" (by decide) (by decide +kernel)⟩) ⟨_, rfl⟩ (by simp [Clean, TagText, TagChar]) ⟨by decide +kernel, by decide +kernel, by decide +kernel⟩
      (by decide +kernel) ?_ (by decide) (by decide +kernel)
    intro w hr hin
    exact (oneAnswer_eq _ (energy_one (i := ⟨_, ⟨cs!"51"⟩⟩) (what := cs!"52#25#1") (by simp [TagText, TagChar]) rfl (by simp [TagText, TagChar]) hr hin EnergyManagement.decodeFloat)).trans
      (by decide +kernel)

/-- So the full claim is false. -/
theorem C137_full_refuted : ¬ C137_full := fun h =>
  C137_differ_refuted ⟨[], .command, ⟨id, id, fun _ k _ => k, fun _ => none⟩, []⟩ (by decide) .mac (by decide) (h _ _)

/-- The hypotheses are met: the reply to a question for the hue, which a listener is told too. -/
example (cfg : Config) (hcmd : cfg.session ≠ .event) :
    (Topic.hsv.ask cfg ⟨cs!"12"⟩ ⟨[], true, [.msg (.dimResp .lighting ⟨cs!"12"⟩ ⟨cs!"12"⟩ [⟨cs!"40"⟩, ⟨cs!"60"⟩, ⟨cs!"80"⟩]), .msg .ack],
      []⟩).1 = [[.int 40, .int 60, .int 80]] ∧
    Delivers (.dimResp .lighting ⟨cs!"12"⟩ ⟨cs!"12"⟩ [⟨cs!"40"⟩, ⟨cs!"60"⟩, ⟨cs!"80"⟩]) .lightHsv [.int 40, .int 60, .int 80] := by
  have e : (Topic.hsv.ask cfg ⟨cs!"12"⟩
      ⟨[], true, [.msg (.dimResp .lighting ⟨cs!"12"⟩ ⟨cs!"12"⟩ [⟨cs!"40"⟩, ⟨cs!"60"⟩, ⟨cs!"80"⟩]), .msg .ack], []⟩).1 =
      [[.int 40, .int 60, .int 80]] := by
    simp only [Topic.ask, answers, Dimmer.requestCurrentHsv,
      dim_one (cfg := cfg) (i := ⟨.lighting, ⟨cs!"12"⟩⟩) (dim := cs!"12")
        (w := ⟨[], true, [.msg (.dimResp .lighting ⟨cs!"12"⟩ ⟨cs!"12"⟩ [⟨cs!"40"⟩, ⟨cs!"60"⟩, ⟨cs!"80"⟩]), .msg .ack], []⟩)
        (by simp [TagText, TagChar]) (by simp [TagText, TagChar]) threeInts ⟨rfl, hcmd⟩ rfl rfl]
    rfl
  refine ⟨e, (C137_same_partial cfg .hsv (by decide) _ _ _ (placed_other (by decide)) ⟨_, rfl⟩ ?_ ⟨rfl, hcmd⟩ rfl).1 _ e⟩
  simp [Clean, TagText, TagChar]
