import Verif.Props.Mirror
import Verif.Props.Protocol
import Verif.Spec.House

/-! # C94, from the frames of the gateway to the table of the application -/

open Py Spec Events

namespace Spec

/-- The frame by which a gateway reports that the light at an address went on or off. -/
def report (change : Str × Bool) : Str := cs!"*1*" ++ (if change.2 then cs!"1" else cs!"0") ++ cs!"*" ++ change.1 ++ cs!"##"

/-- A history in which the gateway reports these changes, any number of them in a packet. -/
inductive Reports : List Act → List (Str × Bool) → Prop
  | nil : Reports [] []
  | packet {d h now later} : Protocol.decodeAscii d = .ok (now.map report).flatten → (∀ c ∈ now, Address c.1) → Reports h later →
      Reports (.packet d :: h) (now ++ later)
  | other {a h changes} : (∀ d, a ≠ .packet d) → a ≠ .lost → a ≠ .close → Reports h changes → Reports (a :: h) changes

/-- The last change of the light at `wher`. -/
def lastChange (changes : List (Str × Bool)) (wher : Str) : Option Bool :=
  ((changes.filter (·.1 = wher)).getLast?).map (·.2)

/-- The message of a report. -/
def reportMsg (c : Str × Bool) : Msg := .normal .lighting ⟨if c.2 then cs!"1" else cs!"0"⟩ ⟨c.1⟩

end Spec

theorem report_packet (cs : List (Str × Bool)) (ha : ∀ c ∈ cs, Address c.1) :
    PacketOf PyWs (cs.map report).flatten (cs.map reportMsg) := by
  induction cs with
  | nil => exact .nil
  | cons c cs ih =>
    obtain ⟨a1, a2, a3⟩ := ha c (by simp)
    have e : (if c.2 then cs!"1" else cs!"0") = cs!"1" ∨ (if c.2 then cs!"1" else cs!"0") = cs!"0" := by
      split <;> simp
    have hw : TagText (if c.2 then cs!"1" else cs!"0") ∧ ¬ HasHH (if c.2 then cs!"1" else cs!"0") := by
      rcases e with e | e <;> rw [e] <;>
        exact ⟨by simp [TagText, TagChar], by simp [hasHH_cons_iff, not_hasHH_nil]⟩
    have := PacketOf.cons (ws := PyWs) (p := []) (ts := [Who.lighting.code, if c.2 then cs!"1" else cs!"0", c.1])
      (by simp) (by simp) ?_ ?_ ?_ (FrameOf.normal (w := .lighting)) (ih fun c hc => ha c (by simp [hc]))
    · simpa [frame, body, report, reportMsg, Who.code] using this
    · intro t ht
      simp only [List.mem_cons, List.not_mem_nil, or_false] at ht
      rcases ht with rfl | rfl | rfl
      · simp [TagText, TagChar, Who.code]
      · exact hw.1
      · exact a1
    · intro t ht
      simp only [List.mem_cons, List.not_mem_nil, or_false] at ht
      rcases ht with rfl | rfl | rfl
      · simp [Who.code, hasHH_cons_iff, not_hasHH_nil]
      · exact hw.2
      · exact a2
    · intro t ht
      simp at ht
      subst ht
      exact a3

theorem reports_arrived {h : List Act} {changes : List (Str × Bool)} (hr : Reports h changes) :
    arrived h = changes.map reportMsg := by
  induction hr with
  | nil => rfl
  | @packet d h now later hd ha _ ih =>
    have := C15_packet_of_frames [] d _ [] _ (by rwa [List.append_nil]) (report_packet now ha) (by simp)
    have hp : Protocol.packetMessages d = .ok (now.map reportMsg) := by
      unfold Protocol.dataReceived at this
      rcases hp : Protocol.packetMessages d with e | ms
      · simp [hp] at this
      · simp [hp] at this; rw [this]
    simp only [arrived, hp, ih, List.map_append]
  | @other a h changes h1 h2 h3 _ ih =>
    cases a with
    | packet d => exact absurd rfl (h1 d)
    | lost => exact absurd rfl h2
    | close => exact absurd rfl h3
    | _ => exact ih

theorem lastStatus_reports (changes : List (Str × Bool)) (wher : Str) :
    lastStatus (changes.map reportMsg) wher = lastChange changes wher := by
  induction changes using List.reverseRecOn with
  | nil => rfl
  | append_singleton cs c ih =>
    unfold lastStatus lastChange at ih ⊢
    rw [List.map_append, List.foldl_append, ih, List.filter_append]
    simp only [List.map_cons, List.map_nil, List.foldl_cons, List.foldl_nil, reportMsg]
    by_cases h : c.1 = wher
    · obtain ⟨a, b⟩ := c
      cases b <;> simp_all
    · simp [h]

/-- C94, end to end: when the gateway reports changes of lights by the documented frames, in packets of any number of them, a
table kept by a callback registered before the first loop shows under every address the last change reported, once nothing is
left in the queue. -/
theorem C94_reports_partial (call : Call) (hc : AllStart call) (session : Session) (cb : Cb) (h : List Act)
    (changes : List (Str × Bool)) (hp : ∀ a ∈ h, Act.Plain a) (hr : Reports h changes)
    (hq : ((Many.init session).run .upTo312 call (.register .light .onStatusChange cb :: h)).base.queue = []) (wher : Str) :
    tableOf cb ((Many.init session).run .upTo312 call (.register .light .onStatusChange cb :: h)).base.trace wher =
      lastChange changes wher := by
  rw [C94_mirror_partial call hc session cb h hp hq wher, reports_arrived hr, lastStatus_reports]

/-- Three changes in two packets, a loop that is cancelled and one that goes on. -/
example : Reports [.loop 0 0, .packet (bytes "*1*1*12##*1*1*0114##"), .cancel 0, .packet (bytes "*1*0*12##"), .loop 1 0]
    [(cs!"12", true), (cs!"0114", true), (cs!"12", false)] := by
  have a1 : Address cs!"12" := ⟨by simp [TagText, TagChar], by simp [hasHH_cons_iff, not_hasHH_nil], by decide⟩
  have a2 : Address cs!"0114" := ⟨by simp [TagText, TagChar], by simp [hasHH_cons_iff, not_hasHH_nil], by decide⟩
  refine .other (by simp) (by simp) (by simp) (.packet (now := [(cs!"12", true), (cs!"0114", true)]) (by decide +kernel) ?_
    (.other (by simp) (by simp) (by simp) (.packet (now := [(cs!"12", false)]) (by decide +kernel) ?_
      (.other (by simp) (by simp) (by simp) .nil))))
  · simp [a1, a2]
  · simp [a1]
