import Verif.Model.Listen
import Verif.Props.Socket
import Verif.Props.Relay

/-! # C128: what comes right behind the login -/

open Py Spec Events Socket Timed
open Protocol (decodeAscii packetMessages)

namespace Listen

/-- The messages of a text of ASCII frames. -/
def Framed (ms : List Msg) : Prop := ∃ s, PacketOf PyWs s ms ∧ ∀ c ∈ s, c.toNat < 128

theorem packetOf_append {s t : Str} {xs ys : List Msg} (h : PacketOf PyWs s xs) (h' : PacketOf PyWs t ys) :
    PacketOf PyWs (s ++ t) (xs ++ ys) := by
  induction h with
  | nil => exact h'
  | @cons p ts m s ms a b c d e f _ ih =>
    rw [List.append_assoc, List.cons_append]
    exact .cons a b c d e f ih

theorem packetOf_drop : ∀ (xs : List Msg) {ys : List Msg} {s : Str}, PacketOf PyWs s (xs ++ ys) →
    ∃ r t, s = r ++ t ∧ PacketOf PyWs t ys
  | [], _, s, h => ⟨[], s, rfl, h⟩
  | x :: xs, ys, s, h => by
    generalize hz : x :: xs ++ ys = zs at h
    cases h with
    | nil => cases hz
    | @cons p ts m s ms a b c d e f g =>
      cases hz
      obtain ⟨r, t, rfl, h⟩ := packetOf_drop xs g
      exact ⟨p ++ frame ts ++ r, t, by simp, h⟩

theorem decoded_ascii {d : List UInt8} {s : Str} (h : decodeAscii d = .ok s) : ∀ c ∈ s, c.toNat < 128 := by
  unfold decodeAscii at h
  split at h
  · rename_i ha
    cases h
    intro c hc
    obtain ⟨b, hb, rfl⟩ := List.mem_map.1 hc
    have := List.all_eq_true.1 ha b hb
    rw [decide_eq_true_eq] at this
    exact (by decide : ∀ n < 128, (Char.ofNat n).toNat < 128) _ this
  · cases h

theorem framed_packets {ps : Packets} {mss : List (List Msg)} (h : List.Forall₂ (fun p ms => PacketCarries p.2 ms) ps mss) :
    Framed mss.flatten := by
  induction h with
  | nil => exact ⟨[], .nil, by simp⟩
  | @cons p ms ps mss hp _ ih =>
    obtain ⟨t, h1, h2⟩ := ih
    obtain ⟨s, v, h3, h4, -⟩ := hp
    refine ⟨s ++ t, packetOf_append h4 h1, ?_⟩
    intro c hc
    rcases List.mem_append.1 hc with hc | hc
    · exact decoded_ascii h3 c (by simp [hc])
    · exact h2 c hc

/-- There is a packet with these messages. -/
theorem framed_packet {xs ys : List Msg} (h : Framed (xs ++ ys)) : ∃ d, packetMessages d = .ok ys := by
  obtain ⟨s, h1, h2⟩ := h
  obtain ⟨r, t, rfl, h3⟩ := packetOf_drop xs h1
  exact ⟨asciiBytes t, packet_carries_messages
    ⟨t, [], by simpa using Relay.decode_ascii fun c hc => h2 c (by simp [hc]), h3, by simp⟩⟩

/-- A client whose queue is not empty when `start()` returns is one that gets a packet first. -/
theorem started_packet (cfg : Config) (t : TWorld) (py : Python) (call : Events.Call) {d : List UInt8}
    (hd : packetMessages d = .ok (t.arrivals.map (·.2))) :
    started cfg t = (Many.init cfg.session).step py call (.packet d) := by
  simp [started, Many.step, Many.init, State.step, State.init, Protocol.dataReceived, hd]

theorem register_packet (py : Python) (call : Events.Call) (s : Many) (c : Cls) (mt : Method) (cb : Cb) (d : List UInt8) :
    (s.step py call (.packet d)).step py call (.register c mt cb) =
      (s.step py call (.register c mt cb)).step py call (.packet d) := by
  simp only [Many.step, State.step]
  rcases s with ⟨⟨a, b, c', d', e, f, g, i⟩, l⟩
  dsimp only
  obtain ⟨x, hx⟩ : ∃ x, register c mt cb d' = x := ⟨_, rfl⟩
  obtain ⟨⟨r, q⟩, hr⟩ : ∃ r, Protocol.dataReceived c' d = r := ⟨_, rfl⟩
  cases x <;> cases r <;> cases b <;> simp [hx, hr]

theorem setup_packet (py : Python) (call : Events.Call) (rs : List (Cls × Method × Cb)) (d : List UInt8) : ∀ s : Many,
    (s.step py call (.packet d)).run py call (setup rs) = (s.run py call (setup rs)).step py call (.packet d) := by
  induction rs with
  | nil => intro s; rfl
  | cons r rs ih =>
    intro s
    change ((s.step py call (.packet d)).step py call (.register r.1 r.2.1 r.2.2)).run py call (setup rs) = _
    rw [register_packet, ih]
    rfl

/-- `start()` takes its own messages and leaves the others. -/
theorem start_leaves (cfg : Config) (now : Nat) (ps : Packets) (xs ys : Arrivals) (ha : arrivals ps = xs ++ ys)
    (acts : List CAct) (hh : Handshake cfg (xs.map (·.2)) acts) (hst : Steady now xs) :
    call (Client.handshake cfg) (client now ps) = (.ok (), ⟨lastAt now xs, ys, true, acts⟩) := by
  have hrun : ∀ rest, Client.handshake cfg ⟨[], true, (xs.map (·.2)).map InEv.msg ++ rest, []⟩ = (.ok (), ⟨[], true, rest, acts⟩) := by
    intro rest
    have h1 := (C29_start_iff cfg ⟨[some ((xs.map (·.2)).map InEv.msg ++ rest)], false, [], []⟩ _).2
      ⟨xs.map (·.2), rest, [], acts, rfl, hh, rfl⟩
    obtain ⟨r, q', acts', -, h2⟩ := _root_.Framed.handshake cfg true ((xs.map (·.2)).map InEv.msg ++ rest)
    have h3 : Client.start cfg ⟨[some ((xs.map (·.2)).map InEv.msg ++ rest)], false, [], []⟩ =
        Client.handshake cfg ⟨[], true, (xs.map (·.2)).map InEv.msg ++ rest, [.connected]⟩ := rfl
    rw [h3, h2, Prod.mk.injEq, World.mk.injEq] at h1
    obtain ⟨rfl, -, -, rfl, e⟩ := h1
    rw [h2]
    simp only [List.nil_append, List.cons_append, List.cons.injEq, true_and] at e
    rw [e]
    rfl
  exact Clock.call_taken (t := client now ps) (xs := xs) (ys := ys)
    (w := ⟨[], true, inboxOf (lastAt now xs) ys, acts⟩) ha hst (by have := hrun (inboxOf (lastAt now xs) ys); rwa [List.map_map] at this) rfl

end Listen

open Listen

/-- C128: when the login is complete with the first messages received, `start()` returns, and everything that was received
behind it, even in the same packet, is handled by `loop()` as if it came in a packet of its own after `start()`: nothing is
lost and nothing of the login is handled as an event, whatever the program does next. -/
theorem C128_same (cfg : Config) (now : Nat) (ps : Packets) (mss : List (List Msg))
    (hp : List.Forall₂ (fun p ms => PacketCarries p.2 ms) ps mss) (xs ys : Arrivals) (ha : stamped ps mss = xs ++ ys)
    (acts : List CAct) (hh : Handshake cfg (xs.map (·.2)) acts) (hst : Steady now xs) :
    ∃ t d, Timed.call (Client.handshake cfg) (client now ps) = (.ok (), t) ∧ packetMessages d = .ok (ys.map (·.2)) ∧
      ∀ py (call : Events.Call) h, (started cfg t).run py call h = (Many.init cfg.session).run py call (.packet d :: h) := by
  have h1 := arrivals_append hp []
  rw [List.append_nil, ha] at h1
  have hf := framed_packets hp
  rw [← stamped_messages ps mss hp.length_eq, ha, List.map_append] at hf
  obtain ⟨d, hd⟩ := framed_packet hf
  refine ⟨_, d, start_leaves cfg now ps xs ys (by simpa [arrivals] using h1) acts hh hst, hd, fun py call h => ?_⟩
  rw [started_packet cfg _ py call hd]
  rfl

/-- C128: so a program that registers its callbacks, starts and listens is told of the events received behind the login and of
those that come later, once each and in order (under the conditions of C104: Python up to 3.12, and energy events from
documented addresses). -/
theorem C128_told (cfg : Config) (now : Nat) (ps : Packets) (mss : List (List Msg))
    (hp : List.Forall₂ (fun p ms => PacketCarries p.2 ms) ps mss) (xs ys : Arrivals) (ha : stamped ps mss = xs ++ ys)
    (acts : List CAct) (hh : Handshake cfg (xs.map (·.2)) acts) (hst : Steady now xs) (t : TWorld)
    (ht : Timed.call (Client.handshake cfg) (client now ps) = (.ok (), t))
    (call : Events.Call) (hc : AllStart call) (rs : List (Cls × Method × Cb)) (h : List Act) (hpl : ∀ a ∈ h, Act.Plain a)
    (hl : ∀ m ∈ ys.map (·.2) ++ arrived h, Harmless m)
    (hq : ((started cfg t).run .upTo312 call (setup rs ++ h)).base.queue = []) :
    calls ((started cfg t).run .upTo312 call (setup rs ++ h)).base =
      (ys.map (·.2) ++ arrived h).flatMap
        (told fun slot => (rs.filter fun r => slotOf r.1 r.2.1 = some slot).map (·.2.2)) := by
  obtain ⟨t', d, h1, h2, h3⟩ := C128_same cfg now ps mss hp xs ys ha acts hh hst
  rw [ht] at h1
  cases h1
  have key : (started cfg t).run .upTo312 call (setup rs ++ h) =
      (Many.init cfg.session).run .upTo312 call (setup rs ++ .packet d :: h) := by
    rw [h3, many_append]
    change Many.run _ _ _ (setup rs ++ h) = Many.run _ _ (Many.step _ _ _ _) h
    rw [many_append, ← setup_packet]
  have har : arrived (.packet d :: h) = ys.map (·.2) ++ arrived h := by rw [arrived, h2]
  rw [key] at hq ⊢
  rw [C104_listener_partial call hc cfg.session rs (.packet d :: h) (by simpa [Act.Plain] using hpl) (by rw [har]; exact hl) hq, har]

/-- The hypotheses are met: the packet that ends the login also has the first event, and the callback is told of it. -/
example (lib : HmacAuth.Lib) (token : Bytes) :
    let cfg : Config := ⟨cs!"12345", .event, lib, token⟩
    let ps : Packets := [(10, asciiBytes cs!"*#*1##"), (30, asciiBytes cs!"*#*1##*1*1*12##")]
    ∃ t, Timed.call (Client.handshake cfg) (client 0 ps) = (.ok (), t) ∧
      calls ((started cfg t).run .upTo312 allStart (setup [(.light, .onStatusChange, 7)] ++ [.loop 0 0])).base =
        [(7, cs!"12", [.bool true])] := by
  intro cfg ps
  have ack : ∀ {s ms}, PacketOf PyWs s ms → PacketOf PyWs (cs!"*#*1##" ++ s) (.ack :: ms) := fun h =>
    .cons (p := []) (by simp) (by simp) (by simp [TagText, TagChar]) (by simp [hasHH_cons_iff, not_hasHH_nil]) (by simp) .ack h
  have on : PacketOf PyWs cs!"*1*1*12##" [.normal .lighting ⟨cs!"1"⟩ ⟨cs!"12"⟩] :=
    .cons (p := []) (ts := [Who.code .lighting, cs!"1", cs!"12"]) (by simp) (by simp)
      (by simp [TagText, TagChar, Who.code]) (by simp [Who.code, hasHH_cons_iff, not_hasHH_nil]) (by simp) .normal .nil
  have hp : List.Forall₂ (fun p ms => PacketCarries p.2 ms) ps [[.ack], [.ack, .normal .lighting ⟨cs!"1"⟩ ⟨cs!"12"⟩]] :=
    .cons ⟨cs!"*#*1##", [], by decide +kernel, ack .nil, by simp⟩
      (.cons ⟨cs!"*#*1##*1*1*12##", [], by decide +kernel, ack on, by simp⟩ .nil)
  obtain ⟨t, _, h1, -, -⟩ := C128_same cfg 0 ps _ hp [(10, .ack), (30, .ack)] [(30, .normal .lighting ⟨cs!"1"⟩ ⟨cs!"12"⟩)] rfl _
    .free ⟨by decide, by decide, trivial⟩
  refine ⟨t, h1, ?_⟩
  rw [start_leaves cfg 0 ps [(10, .ack), (30, .ack)] [(30, .normal .lighting ⟨cs!"1"⟩ ⟨cs!"12"⟩)] (by decide +kernel) _ .free
    ⟨by decide, by decide, trivial⟩] at h1
  cases h1
  change calls (Many.run .upTo312 allStart ⟨{ State.init .event 0 with queue := [.normal .lighting ⟨cs!"1"⟩ ⟨cs!"12"⟩] },
    fun _ => .none⟩ (setup [(.light, .onStatusChange, 7)] ++ [.loop 0 0])).base = _
  decide +kernel
