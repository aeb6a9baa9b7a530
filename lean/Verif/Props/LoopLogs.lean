import Verif.Proofs.LoopLogs
import Verif.Props.Events

/-!
# What `loop()` says about the events it drops (C113, C114)
-/

open Py Spec Events
open LoopLogs (Note)

theorem waiting_notes {py : Python} {call : Call} {s : State} {q : List Msg} (hi : Inv s) (hw : Waiting s q)
    (hh : ∀ m ∈ q, Harmless m) :
    ∃ ls, LoopLogs.step py call s .resume = ls.flatten ∧
      List.Forall₂ (Noted py call (slotCbs s.registry) (s.step py call .resume)) q ls := by
  obtain ⟨h1, h2, rfl⟩ := hw
  by_cases hq : s.queue = []
  · rw [hq]
    refine ⟨[], ?_, .nil⟩
    unfold LoopLogs.step; dsimp only; rw [if_neg (by tauto)]; rfl
  · have : s.step py call .resume = drain py call s s.queue := by
      unfold State.step; dsimp only; rw [if_pos ⟨h1, hq⟩]
    rw [this]
    have he : LoopLogs.step py call s .resume = LoopLogs.drain py call s s.queue := by
      unfold LoopLogs.step; dsimp only; rw [if_pos ⟨h1, hq⟩]
    rw [he]
    exact LoopLogs.drain_noted py call s.queue s h2 hi.items hi.queue hh _ (drain_frame py call _ s hi.items).1 (Keeps.refl _)

/-! ## C113: nothing is dropped without a word -/

/-- C113: what a run of `loop()` logs, event by event. -/
theorem C113_logged (py : Python) (call : Call) (session : Session) (client : Nat) (h : List Step) (q : List Msg)
    (hw : Waiting (after py call session client h) q) (hh : ∀ m ∈ q, Harmless m) :
    ∃ ls, notes py call session client (h ++ [.resume]) = notes py call session client h ++ ls.flatten ∧
      List.Forall₂ (Noted py call (fun k => registered k h) (after py call session client (h ++ [.resume]))) q ls := by
  have hr : slotCbs (after py call session client h).registry = fun k => registered k h :=
    funext fun k => after_registry py call session client h k
  obtain ⟨ls, h1, h2⟩ := waiting_notes (py := py) (call := call) (after_inv py call session client h) hw hh
  rw [hr] at h2
  refine ⟨ls, ?_, ?_⟩
  · rw [LoopLogs.notes_append, h1]
  · rw [after_append]; exact h2

/-- C113 for one event. -/
theorem C113_one (py : Python) (call : Call) (session : Session) (client : Nat) (h : List Step) (m : Msg)
    (hw : Waiting (after py call session client h) [m]) (hh : Harmless m) :
    ∃ l, notes py call session client (h ++ [.resume]) = notes py call session client h ++ l ∧
      Noted py call (fun k => registered k h) (after py call session client (h ++ [.resume])) m l := by
  obtain ⟨ls, h1, h2⟩ := C113_logged py call session client h [m] hw (by simpa using hh)
  cases h2 with
  | cons ha hb =>
    cases hb
    rename_i l
    exact ⟨l, by simpa using h1, ha⟩

/-- C113 is refuted: a dimension of a light other than 1, 8, 12 and 13 starts nothing and leaves no word, whatever is
registered. -/
theorem C113_light_refuted (call : Call) (session : Session) (client : Nat) (h : List Step) (wher dim : Tag) (vs : List Tag)
    (hd : beforeHash dim.string ∉ [cs!"1", cs!"8", cs!"12", cs!"13"])
    (hw : Waiting (after .upTo312 call session client h) [.dimResp .lighting wher dim vs]) :
    notes .upTo312 call session client (h ++ [.resume]) = notes .upTo312 call session client h ∧
    (after .upTo312 call session client (h ++ [.resume])).trace = (after .upTo312 call session client h).trace := by
  have hh : Harmless (.dimResp .lighting wher dim vs) := harmless_other rfl (by decide)
  have hf : firing (.dimResp .lighting wher dim vs) = none := by
    simp only [List.mem_cons, List.not_mem_nil, or_false, not_or] at hd
    simp [firing, hd]
  obtain ⟨l, h1, h2⟩ := C113_one .upTo312 call session client h _ hw hh
  refine ⟨?_, (ignored_of hf hh .upTo312 call session client h hw).1⟩
  have hm : Muted (.dimResp .lighting wher dim vs) := hd
  cases h2 with
  | signal h => rcases h with h | h <;> cases h
  | unknown h => obtain ⟨_, h⟩ := h; cases h
  | unsupported who wher' g1 _ g => cases g1; cases g
  | undispatched _ _ hp => cases hp
  | served | muted => simpa using h1
  | failed _ _ _ _ _ _ g => exact absurd hm g

/-- C113 as far as it holds: a run of `loop()` over one event is silent about it exactly if it is an ACK or a NACK, or it has an
item and either every callback registered for it gets its task, or it is one of the muted events. -/
theorem C113_silent_partial (py : Python) (call : Call) (session : Session) (client : Nat) (h : List Step) (m : Msg)
    (hw : Waiting (after py call session client h) [m]) (hh : Harmless m) :
    notes py call session client (h ++ [.resume]) = notes py call session client h ↔
      m = .ack ∨ m = .nack ∨ py = .upTo312 ∧ ∃ o, itemFor (after py call session client (h ++ [.resume])) m = some o ∧
        (Served call (fun k => registered k h) o m ∨ Muted m) := by
  obtain ⟨l, h1, h2⟩ := C113_one py call session client h m hw hh
  rw [h1, show ∀ a : List Note, a ++ l = a ↔ l = [] from fun a => by simp]
  have hsig : ∀ {o}, itemFor (after py call session client (h ++ [.resume])) m = some o → m ≠ .ack ∧ m ≠ .nack := by
    intro o ho
    constructor <;> (rintro rfl; cases ho)
  cases h2 with
  | signal h => simp only [true_iff]; tauto
  | unknown h =>
    obtain ⟨ts, rfl⟩ := h
    simp [itemFor, Msg.who]
  | unsupported who wher g1 g2 g3 =>
    simp only [List.cons_ne_nil, false_iff, not_or, not_and, not_exists]
    refine ⟨(by rintro rfl; cases g1), (by rintro rfl; cases g1), fun _ o ho => ?_⟩
    unfold itemFor at ho
    rw [g1, g2] at ho
    have := ((after_inv py call session client (h ++ [.resume])).items.made _ _ ho).1
    rw [itemTypes_lookup, g3] at this
    cases this
  | undispatched o g hp =>
    subst hp
    simp only [List.cons_ne_nil, false_iff, not_or]
    exact ⟨(hsig g).1, (hsig g).2, fun h => nomatch h.1⟩
  | served o g hp hs => simp only [true_iff]; exact .inr (.inr ⟨hp, o, g, .inl hs⟩)
  | muted o g hp hs => simp only [true_iff]; exact .inr (.inr ⟨hp, o, g, .inr hs⟩)
  | failed o e n g hp g1 g2 =>
    simp only [List.cons_ne_nil, false_iff, not_or]
    refine ⟨(hsig g).1, (hsig g).2, ?_⟩
    rintro ⟨_, o', ho', hs⟩
    rw [g] at ho'
    cases ho'
    tauto

/-- C113: an event of an item that is not served and not muted is logged, at WARNING or above, with the reason: an exception
raised by a callback is named; a message of the wrong form is called unsupported. -/
theorem C113_failed (call : Call) (session : Session) (client : Nat) (h : List Step) (m : Msg) (o : Obj)
    (hw : Waiting (after .upTo312 call session client h) [m]) (hh : Harmless m)
    (ho : itemFor (after .upTo312 call session client (h ++ [.resume])) m = some o)
    (hs : ¬ Served call (fun k => registered k h) o m) (hm : ¬ Muted m) :
    ∃ e n, Tells e n ∧ (n.level = .warning ∨ n.level = .error) ∧
      notes .upTo312 call session client (h ++ [.resume]) =
        notes .upTo312 call session client h ++ [n, .itemNotFound m] ∧
      (WrongForm m → n.level = .warning ∧ ∃ text, n = .unsupportedMessage text) ∧
      ∀ slot args, firing m = some (slot, args) → FailsWith call (registered slot h) o args e := by
  obtain ⟨l, h1, h2⟩ := C113_one .upTo312 call session client h m hw hh
  cases h2 with
  | signal h => rcases h with rfl | rfl <;> cases ho
  | unknown h => obtain ⟨ts, rfl⟩ := h; cases ho
  | unsupported who wher g1 g2 g3 =>
    unfold itemFor at ho
    rw [g1, g2] at ho
    have := ((after_inv .upTo312 call session client (h ++ [.resume])).items.made _ _ ho).1
    rw [itemTypes_lookup, g3] at this
    cases this
  | undispatched _ _ hp => cases hp
  | served o' g _ hs' => rw [ho] at g; cases g; exact absurd hs' hs
  | muted _ _ _ hm' => exact absurd hm' hm
  | failed o' e n g _ _ _ hn hf hc =>
    rw [ho] at g
    cases g
    refine ⟨e, n, hn, ?_, h1, ?_, hc⟩
    · cases hn <;> simp [LoopLogs.Note.level]
    · intro hm
      obtain ⟨text, rfl⟩ := hf hm
      cases hn with
      | message => exact ⟨rfl, text, rfl⟩
      | other _ k => exact absurd rfl (k text)

/-! ## C114: "Item not found" -/

/-- C114 is refuted: whenever a run of `loop()` logs "Item not found for message", the item of the message is there. -/
theorem C114_notfound_refuted (py : Python) (call : Call) (session : Session) (client : Nat) (h : List Step) (m : Msg)
    (hw : Waiting (after py call session client h) [m]) (hh : Harmless m) (l : List Note)
    (hn : notes py call session client (h ++ [.resume]) = notes py call session client h ++ l) (x : Msg)
    (hx : .itemNotFound x ∈ l) : x = m ∧ ∃ o, itemFor (after py call session client (h ++ [.resume])) x = some o := by
  obtain ⟨l', h1, h2⟩ := C113_one py call session client h m hw hh
  rw [h1] at hn
  cases List.append_cancel_left hn
  cases h2 with
  | signal | served | muted => cases hx
  | unknown | unsupported => simp at hx
  | undispatched o g => simp at hx; subst hx; exact ⟨rfl, o, g⟩
  | failed o e n g _ _ _ ht =>
    simp only [List.mem_cons, List.not_mem_nil, or_false] at hx
    rcases hx with rfl | hx
    · exact nomatch ht
    · cases hx; exact ⟨rfl, o, g⟩

/-- C114: a message for which the package has no item class is logged as unsupported, at INFO, and not as "not found". -/
theorem C114_unsupported_partial (py : Python) (call : Call) (session : Session) (client : Nat) (h : List Step) (m : Msg)
    (who : Who) (wher : Tag) (h1 : m.who = some who) (h2 : m.wher = some wher) (h3 : classOf who.code = none)
    (hw : Waiting (after py call session client h) [m]) :
    notes py call session client (h ++ [.resume]) = notes py call session client h ++ [.unsupportedItem who wher] ∧
      (Note.unsupportedItem who wher).level = .info := by
  refine ⟨?_, rfl⟩
  have hh : Harmless m := by
    refine harmless_other h1 ?_
    rintro rfl; cases h3
  have hno : ∀ o, itemFor (after py call session client (h ++ [.resume])) m ≠ some o := by
    intro o ho
    unfold itemFor at ho
    rw [h1, h2] at ho
    have := ((after_inv py call session client (h ++ [.resume])).items.made _ _ ho).1
    rw [itemTypes_lookup, h3] at this
    cases this
  obtain ⟨l, g1, g2⟩ := C113_one py call session client h m hw hh
  cases g2 with
  | signal h => rcases h with rfl | rfl <;> cases h1
  | unknown h => obtain ⟨ts, rfl⟩ := h; cases h1
  | unsupported who' wher' k1 k2 _ => rw [h1] at k1; rw [h2] at k2; cases k1; cases k2; exact g1
  | undispatched o g => exact absurd g (hno o)
  | served o g => exact absurd g (hno o)
  | muted o g => exact absurd g (hno o)
  | failed o e n g => exact absurd g (hno o)

/-- C114: from Python 3.13 on every event of an item is logged as "not found". -/
theorem C114_from313 (call : Call) (session : Session) (client : Nat) (h : List Step) (m : Msg) (o : Obj)
    (hw : Waiting (after .from313 call session client h) [m]) (hh : Harmless m)
    (ho : itemFor (after .from313 call session client (h ++ [.resume])) m = some o) :
    notes .from313 call session client (h ++ [.resume]) = notes .from313 call session client h ++ [.itemNotFound m] := by
  obtain ⟨l, g1, g2⟩ := C113_one .from313 call session client h m hw hh
  cases g2 with
  | signal h => rcases h with rfl | rfl <;> cases ho
  | unknown h => obtain ⟨ts, rfl⟩ := h; cases ho
  | unsupported who wher k1 k2 k3 =>
    unfold itemFor at ho
    rw [k1, k2] at ho
    have := ((after_inv .from313 call session client (h ++ [.resume])).items.made _ _ ho).1
    rw [itemTypes_lookup, k3] at this
    cases this
  | undispatched => exact g1
  | served _ _ hp => cases hp
  | muted _ _ hp => cases hp
  | failed _ _ _ _ hp => cases hp

/-! ## Example: six events and what is said about them -/

namespace Example113

/-- A light callback, then: a known event, a light dimension nobody can ask for, an unsupported WHO, a message of no known
form, an automation event that cannot be decoded, and an ACK. -/
def history : List Step :=
  [.register .light .onStatusChange 8, .loop, .packet (bytes "*1*1*11##"), .packet (bytes "*#1*11*2*0##"),
   .packet (bytes "*0*1*11##"), .packet (bytes "*5##"), .packet (bytes "*2*7*11##"), .packet (bytes "*#*1##")]

example : Waiting (after .upTo312 allStart .event 0 history)
    [.normal .lighting ⟨cs!"1"⟩ ⟨cs!"11"⟩, .dimResp .lighting ⟨cs!"11"⟩ ⟨cs!"2"⟩ [⟨cs!"0"⟩], .normal .scene ⟨cs!"1"⟩ ⟨cs!"11"⟩,
     .generic [cs!"5"], .normal .automation ⟨cs!"7"⟩ ⟨cs!"11"⟩, .ack] := by
  unfold Waiting; decide +kernel

example : notes .upTo312 allStart .event 0 (history ++ [.resume]) =
    [.unsupportedItem .scene ⟨cs!"11"⟩, .unknown (.generic [cs!"5"]), .callbackError .valueError,
     .itemNotFound (.normal .automation ⟨cs!"7"⟩ ⟨cs!"11"⟩)] := by decide +kernel

example : (after .upTo312 allStart .event 0 (history ++ [.resume])).trace.map (·.cb) = [8] := by decide +kernel

/-- A status request, of which a light says nothing, and a callback that cannot be called. -/
example : notes .upTo312 (fun st => if st.cb = 9 then .error .typeError else .ok ()) .event 0
      [.register .light .onStatusChange 8, .register .light .onStatusChange 9, .loop, .packet (bytes "*#1*11##"),
       .packet (bytes "*1*1*11##"), .resume] =
    [.unsupportedMessage cs!"*#1*11##", .itemNotFound (.status .lighting ⟨cs!"11"⟩),
     .callbackError .typeError, .itemNotFound (.normal .lighting ⟨cs!"1"⟩ ⟨cs!"11"⟩)] := by decide +kernel

/-- The hypotheses of `C113_light_refuted`. -/
example : Waiting (after .upTo312 allStart .event 0 [.loop, .packet (bytes "*#1*11*2*0##")])
      [.dimResp .lighting ⟨cs!"11"⟩ ⟨cs!"2"⟩ [⟨cs!"0"⟩]] ∧ beforeHash cs!"2" ∉ [cs!"1", cs!"8", cs!"12", cs!"13"] := by
  unfold Waiting; decide +kernel

/-- From Python 3.13 on: the light is there, and "not found". -/
example : notes .from313 allStart .event 0 [.register .light .onStatusChange 8, .loop, .packet (bytes "*1*1*11##"), .resume] =
    [.itemNotFound (.normal .lighting ⟨cs!"1"⟩ ⟨cs!"11"⟩)] ∧
    (itemFor (after .from313 allStart .event 0 [.register .light .onStatusChange 8, .loop, .packet (bytes "*1*1*11##"), .resume])
      (.normal .lighting ⟨cs!"1"⟩ ⟨cs!"11"⟩)).isSome := by decide +kernel

end Example113
