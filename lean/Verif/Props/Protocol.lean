import Verif.Proofs.Packet
import Mathlib.Data.List.Forall2
import Mathlib.Data.List.Induction
import Mathlib.Data.List.Nodup

/-! # Properties C15–C21: the connection -/

open Py Spec Protocol

/-! ## C15: packets of frames -/

/-- A list of padded frames with the messages they stand for.  In each frame `##` occurs only as the terminator. -/
inductive Spec.PacketOf (ws : Char → Prop) : Str → List Msg → Prop
  | nil : PacketOf ws [] []
  | cons {p ts m s ms} : (∀ c ∈ p, ws c) → ts ≠ [] → (∀ t ∈ ts, TagText t) → (∀ t ∈ ts, ¬ HasHH t) →
      (∀ t, ts.getLast? = some t → t.getLast? ≠ some '#') → FrameOf ts m → PacketOf ws s ms →
      PacketOf ws (p ++ frame ts ++ s) (m :: ms)

theorem packetOf_text {s : Str} {ms : List Msg} (h : PacketOf PyWs s ms) :
    ∃ fs : List (Str × List Str), s = packetText fs ∧ (∀ f ∈ fs, ∀ c ∈ f.1, PyWs c) ∧
      List.Forall₂ (fun f m => GoodFrame f.2 m) fs ms := by
  induction h with
  | nil => exact ⟨[], rfl, by simp, .nil⟩
  | @cons p ts m s ms hp hne hv h1 h2 hf _ ih =>
    obtain ⟨fs, rfl, hfs, hall⟩ := ih
    have hb := (not_hasHH_body_hash hne).mpr ⟨h1, h2⟩
    refine ⟨(p, ts) :: fs, rfl, ?_, .cons ⟨hne, hb, ?_⟩ hall⟩
    · intro f hf
      simp only [List.mem_cons] at hf
      rcases hf with rfl | hf
      · exact hp
      · exact hfs f hf
    · exact (parseMessage_ok_iff _ _).mpr
        ⟨ts, ⟨hne, hv, ⟨[], [], by simp, by simp, by simp⟩, oneHH_frame hb⟩, hf⟩

/-- C15: a packet of padded frames is appended to the queue completely and in order. -/
theorem C15_packet_of_frames (q : List Msg) (data : List UInt8) (s v : Str) (ms : List Msg)
    (hd : decodeAscii data = .ok (s ++ v)) (hs : PacketOf PyWs s ms) (hv : ∀ c ∈ v, PyWs c) :
    dataReceived q data = (.ok (), q ++ ms) := by
  obtain ⟨fs, rfl, hp, h⟩ := packetOf_text hs
  have : packetMessages data = .ok ms := by
    rw [packetMessages, hd]; exact parsePieces_strip fs ms v hv hp h
  rw [dataReceived, this]

/-- The bytes of a text. -/
def asciiBytes (s : Str) : List UInt8 := s.map (fun c => c.toNat.toUInt8)

example : dataReceived [.ack] (asciiBytes cs!"*#*1##\n*1*1*12## *#1*11##\n") =
    (.ok (), [.ack, .ack, .normal .lighting ⟨cs!"1"⟩ ⟨cs!"12"⟩, .status .lighting ⟨cs!"11"⟩]) := by decide +kernel

example : PacketOf PyWs cs!"*#*1##\n*1*1*12##" [.ack, .normal .lighting ⟨cs!"1"⟩ ⟨cs!"12"⟩] := by
  have h2 : PacketOf PyWs (cs!"\n" ++ frame [Who.lighting.code, cs!"1", cs!"12"] ++ [])
      [.normal .lighting ⟨cs!"1"⟩ ⟨cs!"12"⟩] :=
    .cons (by simp; decide) (by simp) (by simp [TagText, TagChar, Who.code])
      (by simp [Who.code, hasHH_cons_iff, not_hasHH_nil]) (by simp) .normal .nil
  exact .cons (p := []) (by simp) (by simp) (by simp [TagText, TagChar])
    (by simp [hasHH_cons_iff, not_hasHH_nil]) (by simp) .ack h2

/-- A limit of C15: a frame accepted by `parse_message` whose last tag ends in `#` is not accepted in a packet. -/
theorem C15_trailing_hash :
    parseMessage cs!"*1*1*12###" = .ok (.normal .lighting ⟨cs!"1"⟩ ⟨cs!"12#"⟩) ∧
    ∃ s, dataReceived [] (asciiBytes cs!"*1*1*12###") = (.error (.invalidMessage s), []) :=
  ⟨by decide +kernel, cs!"###", by decide +kernel⟩

/-! ## C16: bad packets -/

/-- C16: when `data_received` raises, the queue is unchanged. -/
theorem C16_atomic (q : List Msg) (data : List UInt8) (e : Err) (h : (dataReceived q data).1 = .error e) :
    (dataReceived q data).2 = q := by
  unfold dataReceived at h ⊢
  split <;> simp_all

/-- C16: the queue grows by messages that do not depend on its content, and only at its end. -/
theorem C16_append_only (q : List Msg) (data : List UInt8) :
    ∃ ms, (dataReceived q data).2 = q ++ ms ∧ (dataReceived [] data).2 = ms ∧
      (dataReceived q data).1 = (dataReceived [] data).1 := by
  unfold dataReceived
  split <;> simp

/-- C16: a packet with a byte above 127 raises `UnicodeDecodeError`. -/
theorem C16_non_ascii (q : List Msg) (data : List UInt8) (b : UInt8) (hb : b ∈ data) (h : 128 ≤ b.toNat) :
    dataReceived q data = (.error .unicodeError, q) := by
  have : data.all (fun b => decide (b.toNat < 128)) = false := by
    rw [Bool.eq_false_iff]
    intro hall
    have := List.all_eq_true.mp hall b hb
    simp at this; omega
  simp only [dataReceived, packetMessages, decodeAscii, this]
  rfl

/-- C16: a packet with an invalid piece between terminators raises: whatever the packet, if it is accepted then every
non-empty piece, terminated, is an accepted frame and the queue got exactly their messages. -/
theorem C16_all_or_nothing (q : List Msg) (data : List UInt8) (text : Str) (hd : decodeAscii data = .ok text) :
    ((dataReceived q data).1 = .ok () ↔
      ∀ p ∈ split2 '#' '#' (strip text), p ≠ [] → ∃ m, parseMessage (p ++ cs!"##") = .ok m) := by
  have key : ∀ ps : List Str, (∃ ms, parsePieces ps = .ok ms) ↔
      ∀ p ∈ ps, p ≠ [] → ∃ m, parseMessage (p ++ cs!"##") = .ok m := by
    intro ps
    induction ps with
    | nil => simp [parsePieces]
    | cons p ps ih =>
      rw [parsePieces]
      by_cases hp : p = []
      · simp [hp, ih]
      · rw [if_neg hp]
        simp only [List.mem_cons, forall_eq_or_imp]
        rw [← ih]
        cases hm : parseMessage (p ++ cs!"##") with
        | error e => simp [hp]
        | ok m =>
          cases hr : parsePieces ps with
          | error e => simp
          | ok ms => simp
  rw [← key]
  have : packetMessages data = parsePieces (split2 '#' '#' (strip text)) := by rw [packetMessages, hd]; rfl
  rw [dataReceived, this]
  cases parsePieces (split2 '#' '#' (strip text)) <;> simp

/-- C16: blank packets change nothing. -/
theorem C16_blank (q : List Msg) (data : List UInt8) (text : Str) (hd : decodeAscii data = .ok text)
    (h : ∀ c ∈ text, PyWs c) : dataReceived q data = (.ok (), q) := by
  have := C15_packet_of_frames q data [] text [] (by simpa using hd) .nil h
  simpa using this

example : dataReceived [.ack] (asciiBytes cs!"*1*1*12##garbage##") = (.error (.invalidMessage cs!"garbage##"), [.ack]) := by
  decide +kernel

/-! ## C17: segmentation -/

/-- C17 refuted: a frame cut in two packets is delivered as a different message (WHERE 1 instead of 12). -/
theorem C17_segmentation_refuted :
    receiveAll [] [asciiBytes cs!"*1*1*12##"] = [.normal .lighting ⟨cs!"1"⟩ ⟨cs!"12"⟩] ∧
    receiveAll [] [asciiBytes cs!"*1*1*1", asciiBytes cs!"2##"] = [.normal .lighting ⟨cs!"1"⟩ ⟨cs!"1"⟩] := by
  constructor <;> decide +kernel

theorem PacketOf.append {ws : Char → Prop} {s t : Str} {ms ns : List Msg} (h : PacketOf ws s ms)
    (h' : PacketOf ws t ns) : PacketOf ws (s ++ t) (ms ++ ns) := by
  induction h with
  | nil => exact h'
  | cons hp hne hv h1 h2 hf _ ih =>
    rw [List.append_assoc]; exact .cons hp hne hv h1 h2 hf ih

/-- C17 (partial): when every packet consists of whole frames, the messages delivered are those of the concatenated
stream, so any two such segmentations of a stream of frames agree.
Missing from the full claim: cuts inside a frame. -/
theorem C17_segmentation_partial (q : List Msg) (packets : List (List UInt8)) (texts : List Str)
    (mss : List (List Msg)) (hd : List.Forall₂ (fun d s => decodeAscii d = .ok s) packets texts)
    (hp : List.Forall₂ (fun s ms => PacketOf PyWs s ms) texts mss) :
    receiveAll q packets = q ++ mss.flatten ∧ PacketOf PyWs texts.flatten mss.flatten := by
  constructor
  · induction hd generalizing q mss with
    | nil => cases hp; simp [receiveAll]
    | @cons d s ds ss h _ ih =>
      cases hp with
      | @cons _ ms _ mss' h1 h2 =>
        have := C15_packet_of_frames q d s [] ms (by simpa using h) h1 (by simp)
        rw [receiveAll, this]
        dsimp only
        rw [ih (q ++ ms) mss' h2]
        simp
  · clear hd
    induction hp with
    | nil => exact .nil
    | cons h _ ih => exact PacketOf.append h ih

theorem decodeAscii_append {a b : List UInt8} {s t : Str} (ha : decodeAscii a = .ok s) (hb : decodeAscii b = .ok t) :
    decodeAscii (a ++ b) = .ok (s ++ t) := by
  unfold decodeAscii at ha hb ⊢
  split at ha <;> split at hb <;> simp_all

theorem decodeAscii_flatten {ds : List (List UInt8)} {ss : List Str}
    (h : List.Forall₂ (fun d s => decodeAscii d = .ok s) ds ss) : decodeAscii ds.flatten = .ok ss.flatten := by
  induction h with
  | nil => rfl
  | cons h _ ih => exact decodeAscii_append h ih

/-- C17 (partial): one big packet or many packets of whole frames: same result. -/
theorem C17_merge_partial (q : List Msg) (packets : List (List UInt8)) (texts : List Str)
    (mss : List (List Msg)) (hd : List.Forall₂ (fun d s => decodeAscii d = .ok s) packets texts)
    (hp : List.Forall₂ (fun s ms => PacketOf PyWs s ms) texts mss) :
    receiveAll q packets = receiveAll q [packets.flatten] := by
  obtain ⟨h1, h2⟩ := C17_segmentation_partial q packets texts mss hd hp
  have := C15_packet_of_frames q packets.flatten texts.flatten [] mss.flatten
    (by simpa using decodeAscii_flatten hd) h2 (by simp)
  rw [h1]; simp [receiveAll, this]

example : receiveAll [] [asciiBytes cs!"*#*1##", asciiBytes cs!"*1*1*12##*#*0##"] =
    receiveAll [] [asciiBytes cs!"*#*1##*1*1*12##*#*0##"] := by decide +kernel

/-! ## C76: a bad packet ends the reception -/

/-- C76 is false: after a packet that is rejected nothing is received any more, whatever the gateway sends. -/
theorem C76_later_packets_refuted (q : List Msg) (bad : List UInt8) (e : Err) (h : (dataReceived q bad).1 = .error e)
    (later : List (List UInt8)) : receiveAll q (bad :: later) = q := by
  have h2 := C16_atomic q bad e h
  rw [receiveAll]
  split
  · rename_i h'; rw [h'] at h; cases h
  · rename_i h'; rw [h'] at h2; exact h2

/-- The hypothesis is met by a frame cut in two; the frame after it is lost. -/
example : receiveAll [] [asciiBytes cs!"*1*1*1", asciiBytes cs!"2##", asciiBytes cs!"*1*0*12##"] =
    [.normal .lighting ⟨cs!"1"⟩ ⟨cs!"1"⟩] ∧
    receiveAll [] [asciiBytes cs!"*1*0*12##"] = [.normal .lighting ⟨cs!"0"⟩ ⟨cs!"12"⟩] := by decide +kernel

/-- C76 (partial): what was received before stays. -/
theorem C76_earlier_partial (q : List Msg) (good : List (List UInt8)) (mss : List (List Msg))
    (hg : List.Forall₂ (fun d ms => packetMessages d = .ok ms) good mss) (more : List (List UInt8)) :
    receiveAll q (good ++ more) = receiveAll (q ++ mss.flatten) more := by
  induction hg generalizing q with
  | nil => simp
  | cons h _ ih => simp [receiveAll, dataReceived, h, ih]

/-! ## C18: first in, first out -/

/-- The messages a history receives: those of its packets, up to the first bad one. -/
def Spec.received : List QEv → List Msg
  | [] => []
  | .packet d :: es =>
    match packetMessages d with
    | .ok ms => ms ++ received es
    | .error _ => []
  | _ :: es => received es

/-- C18: whatever the interleaving of packets, readers, wake-ups and cancellations, the messages returned (in order of
return) followed by the queue are the messages received. -/
theorem C18_fifo (evs : List QEv) :
    ((QState.init.run evs).returned.map (·.2)) ++ (QState.init.run evs).queue = received evs := by
  have hget : ∀ (s : QState) (r : Nat), (s.get r).returned.map (·.2) ++ (s.get r).queue =
      s.returned.map (·.2) ++ s.queue ∧ (s.get r).reading = s.reading := by
    intro s r
    unfold QState.get
    split <;> simp_all
  have key : ∀ (evs : List QEv) (s : QState),
      ((s.run evs).returned.map (·.2)) ++ (s.run evs).queue =
        s.returned.map (·.2) ++ s.queue ++ if s.reading then received evs else [] := by
    intro evs
    induction evs with
    | nil => intro s; simp [QState.run, received]
    | cons e es ih =>
      intro s
      have : s.run (e :: es) = (s.step e).run es := rfl
      rw [this, ih]
      cases e with
      | packet d =>
        cases hr : s.reading with
        | false => simp [QState.step, hr]
        | true =>
          cases hp : packetMessages d with
          | ok ms => simp [QState.step, received, dataReceived, hr, hp]
          | error e => simp [QState.step, received, dataReceived, hr, hp]
      | read r => simp only [QState.step, received, hget]
      | resume r =>
        simp only [QState.step, received]
        split
        · rw [(hget _ _).1, (hget _ _).2]
        · rfl
      | cancel r => rfl
  simpa [QState.init] using key evs QState.init

/-- C18: each read returns at most one message, and a reader that is not waiting and reads from a non-empty queue gets
the oldest message at once. -/
theorem C18_read_oldest (s : QState) (r : Nat) (m : Msg) (q : List Msg) (h : s.queue = m :: q) :
    (s.step (.read r)).returned = s.returned ++ [(r, m)] ∧ (s.step (.read r)).queue = q := by
  simp [QState.step, QState.get, h]

example : (QState.init.run [.read 7, .packet (asciiBytes cs!"*#*1##*#*0##"), .read 8, .resume 7]).returned =
    [(8, .ack), (7, .nack)] := by decide +kernel

/-! ## C19: back-pressure -/

/-- Whether the transport is paused after a trace. -/
def Spec.pausedAfter : List Act → Bool
  | [] => false
  | acts => acts.foldl (fun p a => match a with | .paused => true | .resumed => false | .wrote .. => p) false

theorem pausedAfter_eq (acts : List Act) : pausedAfter acts =
    acts.foldl (fun p a => match a with | .paused => true | .resumed => false | .wrote .. => p) false := by
  cases acts <;> rfl

theorem pausedAfter_snoc (acts : List Act) (a : Act) : pausedAfter (acts ++ [a]) =
    match a with | .paused => true | .resumed => false | .wrote .. => pausedAfter acts := by
  simp [pausedAfter_eq]

/-- Every write in a trace happens while the transport is not paused. -/
def Spec.RespectsPause (t : List Act) : Prop :=
  ∀ pre id data post, t = pre ++ .wrote id data :: post → pausedAfter pre = false

theorem respectsPause_snoc {t : List Act} {a : Act} (h : RespectsPause t)
    (ha : ∀ id data, a = .wrote id data → pausedAfter t = false) : RespectsPause (t ++ [a]) := by
  intro pre id data post e
  rcases List.eq_nil_or_concat post with rfl | ⟨post', b, rfl⟩
  · have := List.append_inj' e rfl
    obtain ⟨rfl, e2⟩ := this
    simp at e2
    exact ha id data e2
  · rw [List.concat_eq_append, ← List.cons_append, ← List.append_assoc] at e
    have := List.append_inj' e rfl
    exact h pre id data post' this.1

/-- Invariant of the send side. -/
def SInv (s : SState) : Prop := s.locked = pausedAfter s.trace ∧ RespectsPause s.trace

theorem attempt_inv {s : SState} (h : SInv s) (id : Nat) (data : List UInt8) : SInv (s.attempt id data) := by
  unfold SState.attempt
  split
  · exact h
  · rename_i hl
    have hl : s.locked = false := by simpa using hl
    refine ⟨?_, respectsPause_snoc h.2 ?_⟩
    · simp only [pausedAfter_snoc]; exact h.1
    · intro _ _ _; rw [← h.1]; exact hl

theorem step_inv {s : SState} (h : SInv s) (e : SEv) : SInv (s.step e).2 := by
  unfold SState.step
  split
  · exact h
  · cases e with
    | call id msg =>
      dsimp only
      split
      · exact h
      · exact attempt_inv h _ _
    | wake id =>
      dsimp only
      split
      · exact h
      · rename_i p _
        exact attempt_inv (s := { s with sleeping := s.sleeping.erase p }) h _ _
    | cancel id => exact h
    | pause =>
      dsimp only
      split
      · exact h
      · exact ⟨by simp [pausedAfter_snoc], respectsPause_snoc h.2 (by simp)⟩
    | resume =>
      dsimp only
      split
      · exact ⟨by simp [pausedAfter_snoc], respectsPause_snoc h.2 (by simp)⟩
      · exact h

theorem run_inv {s : SState} (h : SInv s) (evs : List SEv) : SInv (s.run evs) := by
  induction evs generalizing s with
  | nil => exact h
  | cons e es ih => exact ih (step_inv h e)

/-- C19, safety: under every schedule no write reaches the transport while it is paused. -/
theorem C19_no_write_while_paused (evs : List SEv) : RespectsPause (SState.init.run evs).trace := by
  refine (run_inv (s := SState.init) ⟨rfl, ?_⟩ evs).2
  intro pre id data post e
  simp [SState.init] at e

/-- Whether an event is call `id` of a message with bytes `data`. -/
def Spec.isCall (id : Nat) (data : List UInt8) : SEv → Bool
  | .call i msg => i == id && msg.bytes == .ok data
  | _ => false

theorem attempt_count (s : SState) (i : Nat) (d : List UInt8) (id : Nat) (data : List UInt8) :
    (s.attempt i d).trace.count (.wrote id data) + (s.attempt i d).sleeping.count (id, data) =
      s.trace.count (.wrote id data) + s.sleeping.count (id, data) + if i = id ∧ d = data then 1 else 0 := by
  unfold SState.attempt
  split
  · simp [List.count_append, List.count_singleton]; omega
  · simp [List.count_append, List.count_singleton]; omega

theorem step_count (s : SState) (e : SEv) (id : Nat) (data : List UInt8) :
    (s.step e).2.trace.count (.wrote id data) + (s.step e).2.sleeping.count (id, data) ≤
      s.trace.count (.wrote id data) + s.sleeping.count (id, data) + (if isCall id data e then 1 else 0) := by
  unfold SState.step
  split
  · simp
  · cases e with
    | call i msg =>
      dsimp only
      split
      · simp
      · rename_i d hd
        rw [attempt_count]
        simp only [isCall, hd]
        by_cases h : i = id ∧ d = data
        · obtain ⟨rfl, rfl⟩ := h; simp
        · rw [if_neg h]; omega
    | wake i =>
      dsimp only
      split
      · simp
      · rename_i p hp
        have hmem := List.mem_of_find?_eq_some hp
        rw [attempt_count]
        simp only [List.count_erase]
        by_cases h : p.1 = id ∧ p.2 = data
        · have e : p = (id, data) := Prod.ext h.1 h.2
          subst e
          have : 1 ≤ s.sleeping.count (id, data) := List.count_pos_iff.mpr hmem
          simp; omega
        · rw [if_neg h]; omega
    | cancel i =>
      dsimp only
      have : (s.sleeping.filter (fun p => p.1 != i)).count (id, data) ≤ s.sleeping.count (id, data) :=
        List.Sublist.count_le _ List.filter_sublist
      omega
    | pause =>
      dsimp only
      split
      · simp
      · simp [List.count_append]
    | resume =>
      dsimp only
      split
      · simp [List.count_append]
      · simp

/-- C19, at most once: a call writes its message's exact bytes at most once, and nothing else is written.  The number
of writes tagged `id` with content `data`, plus the calls still sleeping, is at most the number of calls `id` of a
message with these bytes. -/
theorem C19_at_most_once (evs : List SEv) (id : Nat) (data : List UInt8) :
    (SState.init.run evs).trace.count (.wrote id data) + (SState.init.run evs).sleeping.count (id, data) ≤
      evs.countP (isCall id data) := by
  have key : ∀ (evs : List SEv) (s : SState),
      (s.run evs).trace.count (.wrote id data) + (s.run evs).sleeping.count (id, data) ≤
        s.trace.count (.wrote id data) + s.sleeping.count (id, data) + evs.countP (isCall id data) := by
    intro evs
    induction evs with
    | nil => intro s; simp [SState.run]
    | cons e es ih =>
      intro s
      have h1 := ih (s.step e).2
      have h2 := step_count s e id data
      have : s.run (e :: es) = (s.step e).2.run es := rfl
      rw [this, List.countP_cons]
      omega
  simpa [SState.init] using key evs SState.init

/-- C19, progress: when writing is not paused, once every sleeping call has had its turn (in any order, with any
repetitions), nothing is pending and each of their messages has been written. -/
theorem C19_progress (ids : List Nat) : ∀ (s : SState), s.locked = false → s.hung = false →
    (s.sleeping.map (·.1)).Nodup → (∀ p ∈ s.sleeping, p.1 ∈ ids) →
    (s.run (ids.map .wake)).sleeping = [] ∧
      (∀ p ∈ s.sleeping, .wrote p.1 p.2 ∈ (s.run (ids.map .wake)).trace) ∧
      ∃ t, (s.run (ids.map .wake)).trace = s.trace ++ t := by
  induction ids with
  | nil =>
    intro s _ _ _ hall
    have : s.sleeping = [] := by
      cases h : s.sleeping with
      | nil => rfl
      | cons p ps => exact absurd (hall p (by simp [h])) (by simp)
    exact ⟨this, by simp [this], [], by simp [SState.run]⟩
  | cons i ids ih =>
    intro s hl hh hnd hall
    have hrun : s.run ((i :: ids).map .wake) = (s.step (.wake i)).2.run (ids.map .wake) := rfl
    rw [hrun]
    cases hf : s.sleeping.find? (fun p => p.1 == i) with
    | none =>
      have hs : (s.step (.wake i)).2 = s := by simp [SState.step, hh, hf]
      rw [hs]
      refine ih s hl hh hnd ?_
      intro p hp
      have := hall p hp
      simp only [List.mem_cons] at this
      rcases this with rfl | h
      · have := List.find?_eq_none.mp hf p hp
        simp at this
      · exact h
    | some p =>
      have hmem := List.mem_of_find?_eq_some hf
      have hpi : p.1 = i := by simpa using List.find?_some hf
      have hs : (s.step (.wake i)).2 =
          { s with sleeping := s.sleeping.erase p, trace := s.trace ++ [.wrote p.1 p.2] } := by
        simp [SState.step, hh, hf, SState.attempt, hl]
      rw [hs]
      have hnd' : ((s.sleeping.erase p).map (·.1)).Nodup := hnd.sublist (List.erase_sublist.map _)
      have hnds : s.sleeping.Nodup := List.Nodup.of_map _ hnd
      obtain ⟨h1, h2, t, h3⟩ := ih { s with sleeping := s.sleeping.erase p, trace := s.trace ++ [.wrote p.1 p.2] }
        hl hh hnd' (by
          intro r hr
          have hr' : r ∈ s.sleeping := List.mem_of_mem_erase hr
          have := hall r hr'
          simp only [List.mem_cons] at this
          rcases this with h | h
          · exfalso
            have : r = p := List.inj_on_of_nodup_map hnd hr' hmem (h.trans hpi.symm)
            rw [this] at hr
            exact hnds.not_mem_erase hr
          · exact h)
      refine ⟨h1, ?_, .wrote p.1 p.2 :: t, by simp [h3]⟩
      intro r hr
      by_cases hrp : r = p
      · rw [hrp, h3]; simp
      · exact h2 r ((List.mem_erase_of_ne hrp).mpr hr)

/-- Whether an event is call `id`. -/
def Spec.isCallOf (id : Nat) : SEv → Bool
  | .call i _ => i == id
  | _ => false

/-- C19: the hypothesis of `C19_progress` on sleeping calls holds in every history whose calls have distinct numbers. -/
theorem C19_sleeping_distinct (evs : List SEv)
    (h : ∀ id, evs.countP (isCallOf id) ≤ 1) :
    ((SState.init.run evs).sleeping.map (·.1)).Nodup := by
  have key : ∀ (evs : List SEv) (s : SState) (id : Nat),
      ((s.run evs).sleeping.map (·.1)).count id ≤ (s.sleeping.map (·.1)).count id +
        evs.countP (isCallOf id) := by
    intro evs
    induction evs with
    | nil => intro s id; simp [SState.run]
    | cons e es ih =>
      intro s id
      have h1 := ih (s.step e).2 id
      have : s.run (e :: es) = (s.step e).2.run es := rfl
      rw [this, List.countP_cons]
      have h2 : ((s.step e).2.sleeping.map (·.1)).count id ≤ (s.sleeping.map (·.1)).count id +
          if isCallOf id e = true then 1 else 0 := by
        have hat : ∀ (s : SState) i d, ((s.attempt i d).sleeping.map (·.1)).count id ≤
            (s.sleeping.map (·.1)).count id + if (i == id) = true then 1 else 0 := by
          intro s i d
          unfold SState.attempt
          split
          · simp [List.count_append, List.count_singleton]
          · simp
        unfold SState.step
        split
        · simp
        · cases e with
          | call i msg =>
            dsimp only
            split
            · simp
            · exact hat _ _ _
          | wake i =>
            dsimp only
            split
            · simp
            · rename_i p hp
              have hmem := List.mem_of_find?_eq_some hp
              refine (hat _ _ _).trans ?_
              have := ((List.perm_cons_erase hmem).map (·.1)).count_eq id
              rw [this]
              simp [List.count_cons]
          | cancel i =>
            dsimp only
            have := (List.Sublist.map (·.1) (List.filter_sublist (l := s.sleeping) (p := fun p => p.1 != i))).count_le id
            omega
          | pause => dsimp only; split <;> simp
          | resume => dsimp only; split <;> simp
      omega
  rw [List.nodup_iff_count_le_one]
  intro id
  have h1 := key evs SState.init id
  have h2 := h id
  have h0 : (SState.init.sleeping.map (·.1)).count id = 0 := rfl
  omega

example : (SState.init.run [.pause, .call 1 .ack, .wake 1, .resume, .wake 1]).trace =
    [.paused, .resumed, .wrote 1 [42, 35, 42, 49, 35, 35]] := by decide +kernel

/-! ## C20: order of concurrent sends -/

/-- The writes of a trace. -/
def Spec.writes : List Act → List (Nat × List UInt8)
  | [] => []
  | .wrote id d :: t => (id, d) :: writes t
  | _ :: t => writes t

/-- The calls of a history, with the bytes of their messages. -/
def Spec.callOrder : List SEv → List (Nat × List UInt8)
  | [] => []
  | .call id msg :: es => (match msg.bytes with | .ok d => [(id, d)] | .error _ => []) ++ callOrder es
  | _ :: es => callOrder es

/-- C20 refuted: a call made after the resume overtakes one that is still asleep. -/
theorem C20_order_refuted :
    let evs := [SEv.pause, .call 1 .ack, .resume, .call 2 .nack, .wake 1]
    (callOrder evs).map (·.1) = [1, 2] ∧ (writes (SState.init.run evs).trace).map (·.1) = [2, 1] := by
  constructor <;> decide +kernel

/-- Each call is made when no earlier call is still asleep, and none is cancelled. -/
def Spec.Sequential (s : SState) : List SEv → Prop
  | [] => True
  | e :: es => (∀ id msg, e = .call id msg → s.sleeping = []) ∧ (∀ id, e ≠ .cancel id) ∧ Sequential (s.step e).2 es

theorem writes_append (a b : List Act) : writes (a ++ b) = writes a ++ writes b := by
  induction a with
  | nil => rfl
  | cons x a ih => cases x <;> simp [writes, ih]

/-- C20 (partial): when each call is made after the previous one completed, messages leave in call order, whatever the
pauses and wake-ups.  Missing from the full claim: overlapping calls. -/
theorem C20_order_partial (evs : List SEv) (hs : Sequential SState.init evs) :
    writes (SState.init.run evs).trace ++ (SState.init.run evs).sleeping <+: callOrder evs := by
  have key : ∀ (evs : List SEv) (s : SState), s.sleeping.length ≤ 1 → Sequential s evs →
      writes (s.run evs).trace ++ (s.run evs).sleeping <+: writes s.trace ++ s.sleeping ++ callOrder evs := by
    intro evs
    induction evs with
    | nil => intro s _ _; simp [SState.run, callOrder]
    | cons e es ih =>
      intro s hlen hseq
      obtain ⟨h1, h2, h3⟩ := hseq
      have hrun : s.run (e :: es) = (s.step e).2.run es := rfl
      rw [hrun]
      have hat : ∀ (s : SState) i d, s.sleeping = [] →
          writes (s.attempt i d).trace ++ (s.attempt i d).sleeping = writes s.trace ++ [(i, d)] ∧
          (s.attempt i d).sleeping.length ≤ 1 := by
        intro s i d h
        unfold SState.attempt
        split <;> simp [h, writes_append, writes]
      by_cases hh : s.hung = true
      · have hs : (s.step e).2 = s := by simp [SState.step, hh]
        rw [hs] at h3 ⊢
        have hrest : ∀ es, (s.run es) = s := by
          intro es
          induction es with
          | nil => rfl
          | cons e es ih => rw [show s.run (e :: es) = (s.step e).2.run es from rfl]; simp [SState.step, hh, ih]
        rw [hrest]
        simp
      have hh : s.hung = false := by simpa using hh
      cases e with
      | call i msg =>
        have hsl := h1 i msg rfl
        cases hb : msg.bytes with
        | error e =>
          have hs : (s.step (.call i msg)).2 = s := by simp [SState.step, hh, hb]
          rw [hs] at h3 ⊢
          simpa [callOrder, hb] using ih s hlen h3
        | ok d =>
          have hs : (s.step (.call i msg)).2 = s.attempt i d := by simp [SState.step, hh, hb]
          rw [hs] at h3 ⊢
          obtain ⟨g1, g2⟩ := hat s i d hsl
          have := ih _ g2 h3
          rw [g1] at this
          simpa [callOrder, hb, hsl] using this
      | wake i =>
        cases hf : s.sleeping.find? (fun p => p.1 == i) with
        | none =>
          have hs : (s.step (.wake i)).2 = s := by simp [SState.step, hh, hf]
          rw [hs] at h3 ⊢
          simpa [callOrder] using ih s hlen h3
        | some p =>
          have hmem := List.mem_of_find?_eq_some hf
          have hsl : s.sleeping = [p] := by
            match hq : s.sleeping, hlen with
            | [], _ => rw [hq] at hmem; cases hmem
            | [q], _ => rw [hq] at hmem; simp at hmem; rw [hmem]
          have hs : (s.step (.wake i)).2 = SState.attempt { s with sleeping := [] } p.1 p.2 := by
            have hpi : p.1 = i := by simpa using List.find?_some hf
            simp [SState.step, hh, hsl, hpi]
          rw [hs] at h3 ⊢
          obtain ⟨g1, g2⟩ := hat { s with sleeping := [] } p.1 p.2 rfl
          have := ih _ g2 h3
          rw [g1] at this
          simpa [callOrder, hsl] using this
      | cancel i => exact absurd rfl (h2 i)
      | pause =>
        have hs : writes (s.step .pause).2.trace = writes s.trace ∧ (s.step .pause).2.sleeping = s.sleeping := by
          simp only [SState.step, hh]
          by_cases hl : s.locked = true <;> simp [hl, writes_append, writes]
        have := ih _ (by rw [hs.2]; exact hlen) h3
        rw [hs.1, hs.2] at this
        simpa [callOrder] using this
      | resume =>
        have hs : writes (s.step .resume).2.trace = writes s.trace ∧ (s.step .resume).2.sleeping = s.sleeping := by
          simp only [SState.step, hh]
          by_cases hl : s.locked = true <;> simp [hl, writes_append, writes]
        have := ih _ (by rw [hs.2]; exact hlen) h3
        rw [hs.1, hs.2] at this
        simpa [callOrder] using this
  simpa [SState.init, writes] using key evs SState.init (by simp [SState.init]) hs

example : Sequential SState.init [.pause, .call 1 .ack, .wake 1, .resume, .wake 1, .call 2 .nack] := by
  refine ⟨by simp, by simp, ?_, by simp, ?_⟩
  · intro _ _ _; rfl
  · refine ⟨by simp, by simp, by simp, by simp, by simp, by simp, ?_, by simp, trivial⟩
    intro _ _ _; decide +kernel

/-! ## C21: connection futures -/

/-- The first full-duplex transport of a history. -/
def Spec.firstMade : List CEv → Option Nat
  | [] => none
  | .made t true :: _ => some t
  | _ :: es => firstMade es

/-- The first loss of a history. -/
def Spec.firstLost : List CEv → Option (Option Err)
  | [] => none
  | .lost e :: _ => some e
  | _ :: es => firstLost es

/-- The future expected for the start of the connection. -/
def Spec.startFuture (evs : List CEv) : Fut Nat :=
  match firstMade evs with
  | none => .pending
  | some t => .result t

/-- The future expected for the end of the connection. -/
def Spec.endFuture (evs : List CEv) : Fut Unit :=
  match firstLost evs with
  | none => .pending
  | some none => .result ()
  | some (some e) => .exception e

theorem CState.run_append (s : CState) (a b : List CEv) : (s.run (a ++ b)).2 = ((s.run a).2.run b).2 := by
  induction a generalizing s with
  | nil => rfl
  | cons e es ih => simp [CState.run, ih]

theorem firstMade_append (a b : List CEv) : firstMade (a ++ b) = (firstMade a).or (firstMade b) := by
  induction a with
  | nil => rfl
  | cons e es ih =>
    cases e with
    | made t d => cases d <;> simp [firstMade, ih]
    | lost x => simp [firstMade, ih]

theorem firstLost_append (a b : List CEv) : firstLost (a ++ b) = (firstLost a).or (firstLost b) := by
  induction a with
  | nil => rfl
  | cons e es ih => cases e <;> simp [firstLost, ih]

/-- C21: after any history the futures hold the first transport and the first loss. -/
theorem C21_first_wins (evs : List CEv) :
    (CState.init.run evs).2.onStart = startFuture evs ∧ (CState.init.run evs).2.onEnd = endFuture evs := by
  induction evs using List.reverseRecOn with
  | nil => exact ⟨rfl, rfl⟩
  | append_singleton es e ih =>
    rw [CState.run_append]
    obtain ⟨h1, h2⟩ := ih
    have hr : ∀ s : CState, (s.run [e]).2 = (s.step e).2 := fun s => rfl
    rw [hr]
    generalize (CState.init.run es).2 = s at h1 h2 ⊢
    unfold startFuture at h1 ⊢
    unfold endFuture at h2 ⊢
    rw [firstMade_append, firstLost_append]
    cases e with
    | made t d =>
      cases d with
      | false => simp [CState.step, firstMade, firstLost, h1, h2]
      | true =>
        simp only [CState.step, firstMade, firstLost]
        cases hm : firstMade es <;> simp_all [Fut.setResult]
    | lost x =>
      cases x with
      | none =>
        simp only [CState.step, firstMade, firstLost]
        cases hm : firstLost es with
        | none => simp_all [Fut.setResult]
        | some y => cases y <;> simp_all [Fut.setResult]
      | some x =>
        simp only [CState.step, firstMade, firstLost]
        cases hm : firstLost es with
        | none => simp_all [Fut.setException]
        | some y => cases y <;> simp_all [Fut.setException]

/-- C21: a callback raises `InvalidStateError` exactly when it repeats an earlier one. -/
theorem C21_repeat_raises (evs : List CEv) (t : Nat) (x : Option Err) :
    (((CState.init.run evs).2.step (.made t true)).1 =
      if (firstMade evs).isSome then .error .invalidStateError else .ok ()) ∧
    (((CState.init.run evs).2.step (.lost x)).1 =
      if (firstLost evs).isSome then .error .invalidStateError else .ok ()) := by
  obtain ⟨h1, h2⟩ := C21_first_wins evs
  generalize (CState.init.run evs).2 = s at h1 h2 ⊢
  unfold startFuture at h1
  unfold endFuture at h2
  constructor
  · cases hm : firstMade evs <;> simp_all [CState.step, Fut.setResult]
  · cases hm : firstLost evs with
    | none => cases x <;> simp_all [CState.step, Fut.setResult, Fut.setException]
    | some y => cases x <;> cases y <;> simp_all [CState.step, Fut.setResult, Fut.setException]

/-- Observation beside C21: the transport used for writing is the latest one, not the one in the future. -/
theorem C21_transport_is_latest (evs : List CEv) (t : Nat) :
    ((CState.init.run evs).2.step (.made t true)).2.transport = some t := by
  simp only [CState.step]
  split
  · rename_i h; simp at h
  · split <;> rfl

example : (CState.init.run [.made 1 true, .lost none, .made 2 true, .lost (some .timeoutError)]) =
    ([.ok (), .ok (), .error .invalidStateError, .error .invalidStateError], ⟨some 2, .result 1, .result ()⟩) := by
  decide
