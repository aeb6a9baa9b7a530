import Verif.Proofs.Inject
import Verif.Props.Commands
import Verif.Props.Construct

/-!
# Addresses from outside (C133)
-/

open Py Spec Client Item

/-- C133, commands, as far as it holds: whatever text is given as the address, what a gateway reads is the documented frame of
the command, once; its address is the text up to the first `##`.  If there is none, it is the text. -/
theorem C133_command_partial (cfg : Config) (c : Cmd) (hc : c ≠ .baseTurnOn30Min ∧ c ≠ .cameraFreeResources) (s : Str)
    (hs : TagText s) :
    ∃ text f a rest, Sends cfg (c.run cfg ⟨c.who, ⟨s⟩⟩) text ∧ documented (wish c) a = some f ∧ a <+: s ∧
      FirstFrame text f rest ∧ NoFrame rest ∧ (¬ HasHH (s ++ cs!"#") → a = s ∧ rest = []) := by
  obtain ⟨text, h1, h2⟩ := C39_command_table_partial cfg c hc ⟨s⟩ hs
  -- every frame in the table has the address at its end, or none at all
  have table : (∃ who what, Digits who ∧ Digits what ∧ ∀ x, documented (wish c) x = some (frame [who, what, x])) ∨
      ∃ who what, Digits who ∧ Digits what ∧ ∀ x, documented (wish c) x = some (frame [who, what]) := by
    cases c <;> first
      | exact absurd rfl hc.1
      | exact absurd rfl hc.2
      | exact .inl ⟨_, _, by unfold Digits; decide, by unfold Digits; decide, fun x => rfl⟩
      | exact .inr ⟨_, _, by unfold Digits; decide, by unfold Digits; decide, fun x => rfl⟩
  rcases table with ⟨who, what, d1, d2, ht⟩ | ⟨who, what, d1, d2, ht⟩
  · rw [ht] at h1
    cases h1
    obtain ⟨a, rest, p1, p2, p3, p4⟩ := first_normal d1 d2 hs
    exact ⟨_, _, a, rest, h2, ht a, p1, p2, p3, p4⟩
  · rw [ht] at h1
    cases h1
    refine ⟨_, _, s, [], h2, ht s, List.prefix_rfl, ⟨by simp, '*' :: who ++ '*' :: what, by simp [frame, body], fun h => ?_⟩,
      by simp [NoFrame], fun _ => ⟨rfl, rfl⟩⟩
    have nd : ∀ {t : Str}, Digits t → ∀ c ∈ t, c ≠ '#' := by
      intro t ht c hc e
      have := ht c hc
      rw [e] at this
      exact absurd this (by decide)
    have := hasHH_digits (p := '*' :: who ++ '*' :: what) (s := cs!"#") (fun c hc => by
      simp only [List.cons_append, List.mem_cons, List.mem_append] at hc
      rcases hc with rfl | hc | rfl | hc
      · decide
      · exact nd d1 c hc
      · decide
      · exact nd d2 c hc) h
    obtain ⟨u, v, e⟩ := this
    rcases u with _ | ⟨_, _ | ⟨_, _⟩⟩ <;> simp at e

/-- C133: a text that is no tag makes no item (but for the gateway, which takes no address), so nothing is sent. -/
theorem C133_refused (c : Events.Cls) (hc : c ≠ .gateway) (s : Str) (hs : ¬ TagText s) (o : Option Construct.WhoArg) :
    Construct.new c (.text s) o = .error (.invalidTag s) :=
  C101_bad_address c hc s hs o

/-- C133 is false of the address: at `1##2` a lamp is made, and the gateway reads the command for lamp 1. -/
theorem C133_address_refuted (cfg : Config) :
    Construct.new .light (.text cs!"1##2") none = .ok ⟨.lighting, ⟨cs!"1##2"⟩⟩ ∧
    Sends cfg (Cmd.lightTurnOn.run cfg ⟨.lighting, ⟨cs!"1##2"⟩⟩) cs!"*1*1*1##2##" ∧
    documented .on cs!"1" = some cs!"*1*1*1##" ∧ FirstFrame cs!"*1*1*1##2##" cs!"*1*1*1##" cs!"2##" := by
  refine ⟨by decide +kernel, ?_, rfl, rfl, cs!"*1*1*1", rfl, fun h => ?_⟩
  · obtain ⟨t, h1, h2⟩ := C39_command_table_partial cfg .lightTurnOn (by simp) ⟨cs!"1##2"⟩ (by decide +kernel)
    cases h1
    exact h2
  · obtain ⟨u, v, e⟩ := hasHH_digits (p := cs!"*1*1*1") (s := cs!"#") (by decide) h
    rcases u with _ | ⟨_, _ | ⟨_, _⟩⟩ <;> simp at e

/-- C133 is false of settings: at `1##` a dimmer is made, and instead of a colour for it the gateway reads a status request
and a frame of another system, made of the numbers of the colour. -/
theorem C133_two_frames_refuted (cfg : Config) :
    Construct.new .dimmer (.text cs!"1##") none = .ok ⟨.lighting, ⟨cs!"1##"⟩⟩ ∧
    Sends cfg (Dimmer.setHsv cfg ⟨.lighting, ⟨cs!"1##"⟩⟩ 359 0 100) cs!"*#1*1##*#12*359*0*100##" ∧
    FirstFrame cs!"*#1*1##*#12*359*0*100##" cs!"*#1*1##" cs!"*#12*359*0*100##" ∧
    parseMessage cs!"*#1*1##" = .ok (.status .lighting ⟨cs!"1"⟩) ∧
    parseMessage cs!"*#12*359*0*100##" = .error .valueError := by
  refine ⟨by decide +kernel, ?_, ⟨rfl, cs!"*#1*1", rfl, fun h => ?_⟩, by decide +kernel, by decide +kernel⟩
  · exact (C41_hsv cfg ⟨cs!"1##"⟩ (by decide +kernel) 359 0 100).1 359 0 100 cs!"359" cs!"0" cs!"100" rfl rfl rfl (by decide) (by decide)
      (by decide) (by decide +kernel) (by decide +kernel) (by decide +kernel)
  · obtain ⟨u, v, e⟩ := h
    have : ∀ n ≤ 7, (cs!"*#1*1#").drop n ≠ cs!"##" ++ v := by
      intro n hn e
      have hl := congrArg List.length e
      interval_cases n <;> simp at e
    have hl := congrArg List.length e
    simp at hl
    refine this u.length (by omega) ?_
    have e' : cs!"*#1*1#" = u ++ (cs!"##" ++ v) := by rw [← List.append_assoc]; exact e
    rw [e']
    simp

/-- The hypotheses are met: an ordinary address is read as it was given. -/
example (cfg : Config) : ∃ text f rest, Sends cfg (Cmd.lightTurnOn.run cfg ⟨.lighting, ⟨cs!"12#4#01"⟩⟩) text ∧
    documented .on cs!"12#4#01" = some f ∧ FirstFrame text f rest ∧ rest = [] := by
  obtain ⟨text, f, a, rest, h1, h2, -, h4, -, h6⟩ :=
    C133_command_partial cfg .lightTurnOn (by simp) cs!"12#4#01" (by decide +kernel)
  obtain ⟨rfl, rfl⟩ := h6 (fun ⟨u, v, e⟩ => by
    have hl := congrArg List.length e
    simp at hl
    have e' : cs!"12#4#01#" = u ++ (cs!"##" ++ v) := by rw [← List.append_assoc]; exact e
    have hd : (cs!"12#4#01#").drop u.length = cs!"##" ++ v := by rw [e']; simp
    have : u.length ≤ 6 := by omega
    generalize u.length = n at *
    interval_cases n <;> simp at hd)
  exact ⟨_, _, _, h1, h2, h4, rfl⟩
