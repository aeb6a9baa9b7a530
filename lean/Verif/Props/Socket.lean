import Verif.Model.Socket
import Verif.Props.Wire
import Verif.Props.Timed
import Verif.Props.Client
import Verif.Props.Commands
import Verif.Props.Queries
import Verif.Proofs.Sessions

/-!
# From bytes to bytes (C111)
-/

open Py Spec Protocol Timed Socket

namespace Spec

/-- The packet consists of whole frames, perhaps with white space between them, and these are their messages. -/
def PacketCarries (d : List UInt8) (ms : List Msg) : Prop :=
  ∃ s v, decodeAscii d = .ok (s ++ v) ∧ PacketOf PyWs s ms ∧ ∀ c ∈ v, PyWs c

/-- The messages of packets with the times of the packets. -/
def stamped : Packets → List (List Msg) → Arrivals
  | (t, _) :: ps, ms :: mss => ms.map (fun m => (t, m)) ++ stamped ps mss
  | _, _ => []

/-- Bytes from which no messages are made. -/
def Unreadable (d : List UInt8) : Prop := (dataReceived [] d).1 ≠ .ok ()

end Spec

theorem packet_carries_messages {d : List UInt8} {ms : List Msg} (h : PacketCarries d ms) : packetMessages d = .ok ms := by
  obtain ⟨s, v, h1, h2, h3⟩ := h
  have := C15_packet_of_frames [] d s v ms h1 h2 h3
  unfold dataReceived at this
  split at this
  · rename_i ms' h'
    rw [List.nil_append, List.nil_append, Prod.mk.injEq] at this
    rw [h', this.2]
  · cases this

theorem arrivals_append {ps : Packets} {mss : List (List Msg)} (h : List.Forall₂ (fun p ms => PacketCarries p.2 ms) ps mss)
    (post : Packets) : arrivals (ps ++ post) = stamped ps mss ++ arrivals post := by
  induction h with
  | nil => rfl
  | @cons p ms ps mss hp _ ih =>
    obtain ⟨t, d⟩ := p
    have h1 : arrivals ((t, d) :: (ps ++ post)) = ms.map (fun m => (t, m)) ++ arrivals (ps ++ post) := by
      simp only [arrivals, packet_carries_messages hp]
    rw [List.cons_append, h1, ih, ← List.append_assoc]
    rfl

theorem bytesOut_append (xs ys : List CAct) : bytesOut (xs ++ ys) = bytesOut xs ++ bytesOut ys := by
  induction xs with
  | nil => rfl
  | cons x xs ih => cases x <;> simp [bytesOut, ih]

theorem bytesOut_got (ms : List Msg) : bytesOut (ms.map CAct.got) = [] := by
  induction ms with
  | nil => rfl
  | cons m ms ih => exact ih

theorem stamped_messages (ps : Packets) (mss : List (List Msg)) (h : ps.length = mss.length) :
    (stamped ps mss).map (·.2) = mss.flatten := by
  induction ps generalizing mss with
  | nil => cases mss with | nil => rfl | cons => cases h
  | cons p ps ih =>
    obtain ⟨t, d⟩ := p
    cases mss with
    | nil => cases h
    | cons ms mss =>
      have := ih mss (by simpa using h)
      simp [stamped, this, Function.comp_def]

theorem arrivals_unreadable {a : Nat} {d : List UInt8} (h : Unreadable d) (post : Packets) : arrivals ((a, d) :: post) = [] := by
  unfold Unreadable dataReceived at h
  unfold arrivals
  split at h
  · exact absurd rfl h
  · rename_i e he; rw [he]

theorem arrivals_times (ps : Packets) (b : Nat) (h : ∀ p ∈ ps, b ≤ p.1) : ∀ x ∈ arrivals ps, b ≤ x.1 := by
  induction ps with
  | nil => simp [arrivals]
  | cons p ps ih =>
    obtain ⟨t, d⟩ := p
    intro x hx
    unfold arrivals at hx
    split at hx
    · rcases List.mem_append.1 hx with hx | hx
      · obtain ⟨m, _, rfl⟩ := List.mem_map.1 hx
        exact h _ (List.mem_cons_self ..)
      · exact ih (fun p hp => h p (List.mem_cons_of_mem _ hp)) x hx
    · cases hx

/-- C111: what a client reads are the messages its protocol object puts into the queue, in order. -/
theorem C111_queue (ps : Packets) : (arrivals ps).map (·.2) = receiveAll [] (ps.map (·.2)) := by
  have key : ∀ q, q ++ (arrivals ps).map (·.2) = receiveAll q (ps.map (·.2)) := by
    induction ps with
    | nil => intro q; simp [arrivals, receiveAll]
    | cons p ps ih =>
      obtain ⟨t, d⟩ := p
      intro q
      rw [List.map_cons]
      unfold arrivals receiveAll dataReceived
      cases packetMessages d with
      | ok ms => dsimp only; rw [← ih]; simp [Function.comp_def]
      | error e => simp
  exact key []

/-- C111 (partial): on the socket a command is the bytes of its frame.  If the next packet comes within five seconds and
starts with the frame of an ACK, whatever else comes, the command returns when it comes; if it starts with another frame,
`ResponseError` is raised then; if no packet comes, or an unreadable one, `TimeoutError` is raised after five seconds.  Missing from the
full claim: answers cut inside a frame. -/
theorem C111_command_partial (cfg : Config) (hc : cfg.session ≠ .event) (f : M Unit) (text : Str) (h : Sends cfg f text)
    (now : Nat) (ps : Packets) :
    (∀ a d post m ms, ps = (a, d) :: post → PacketCarries d (m :: ms) → a < now + 5000 →
      call f (client now ps) = (if m = .ack then .ok () else .error .responseError,
        ⟨max now a, ms.map (fun m => (a, m)) ++ arrivals post, true, [.sent text, .got m]⟩)) ∧
    ((∀ p ∈ ps, now + 5000 ≤ p.1) ∨ (∃ a d post, ps = (a, d) :: post ∧ Unreadable d) →
      call f (client now ps) = (.error .timeoutError, ⟨now + 5000, arrivals ps, true, [.sent text]⟩)) ∧
    bytesOut (call f (client now ps)).2.trace = asciiBytes text := by
  obtain ⟨h1, h2⟩ := C107_command_exact cfg hc f text h (client now ps) rfl
  refine ⟨?_, ?_, ?_⟩
  · rintro a d post m ms rfl hd ha
    have := arrivals_append (ps := [(a, d)]) (mss := [m :: ms]) (.cons hd .nil) post
    exact h1 a m (ms.map (fun m => (a, m)) ++ arrivals post) (this.trans (by simp [stamped])) ha
  · rintro (hq | ⟨a, d, post, rfl, hu⟩)
    · refine h2 fun a m rest he => ?_
      exact arrivals_times ps (now + 5000) hq (a, m) (by
        have : arrivals ps = (a, m) :: rest := he
        rw [this]; exact List.mem_cons_self ..)
    · refine h2 fun a' m rest he => ?_
      have : arrivals ((a, d) :: post) = (a', m) :: rest := he
      rw [arrivals_unreadable hu] at this; cases this
  · rcases Clock.quiet_or now (arrivals ps) with hq | ⟨a, m, rest, he, ha⟩
    · rw [h2 hq]; simp [bytesOut, asciiBytes, client]
    · rw [h1 a m rest he ha]; simp [bytesOut, asciiBytes, client]

/-- The hypotheses are met: a light is switched on, the ACK comes after a second, in a packet with an event behind it. -/
example (cfg : Config) (hc : cfg.session ≠ .event) :
    call (Cmd.lightTurnOn.run cfg ⟨.lighting, ⟨cs!"12"⟩⟩) (client 0 [(1000, asciiBytes cs!"*#*1##\n*1*1*12##")]) =
      (.ok (), ⟨1000, [(1000, .normal .lighting ⟨cs!"1"⟩ ⟨cs!"12"⟩)], true, [.sent cs!"*1*1*12##", .got .ack]⟩) := by
  obtain ⟨t, h1, h2⟩ := C39_command_table_partial cfg .lightTurnOn (by simp) ⟨cs!"12"⟩ (by decide +kernel)
  cases h1
  refine (C111_command_partial cfg hc _ _ h2 0 _).1 1000 _ [] .ack [_] rfl
    ⟨cs!"*#*1##\n*1*1*12##", [], by decide +kernel, ?_, by simp⟩ (by decide)
  have h2 : PacketOf PyWs (cs!"\n" ++ frame [Who.lighting.code, cs!"1", cs!"12"] ++ [])
      [.normal .lighting ⟨cs!"1"⟩ ⟨cs!"12"⟩] :=
    .cons (by simp; decide) (by simp) (by simp [TagText, TagChar, Who.code])
      (by simp [Who.code, hasHH_cons_iff, not_hasHH_nil]) (by simp) .normal .nil
  exact .cons (p := []) (by simp) (by simp) (by simp [TagText, TagChar])
    (by simp [hasHH_cons_iff, not_hasHH_nil]) (by simp) .ack h2

/-- C111 is refuted: an ACK that comes in time but in two packets makes the command raise `ResponseError`, unless it is cut just before
its `##`. -/
theorem C111_cut_refuted (cfg : Config) (hc : cfg.session ≠ .event) (f : M Unit) (text : Str) (h : Sends cfg f text)
    (k now a b : Nat) (hk : 0 < k ∧ k < 6) (ha : a < now + 5000) :
    (call f (client now [(a, asciiBytes (cs!"*#*1##".take k)), (b, asciiBytes (cs!"*#*1##".drop k))])).1 =
      if k = 4 then .ok () else .error .responseError := by
  have h1 := (C107_command_exact cfg hc f text h
    (client now [(a, asciiBytes (cs!"*#*1##".take k)), (b, asciiBytes (cs!"*#*1##".drop k))]) rfl).1
  obtain ⟨m, hm, hm'⟩ : ∃ m, packetMessages (asciiBytes (cs!"*#*1##".take k)) = .ok [m] ∧ (m = .ack ↔ k = 4) := by
    have hk : k = 1 ∨ k = 2 ∨ k = 3 ∨ k = 4 ∨ k = 5 := by omega
    rcases hk with rfl | rfl | rfl | rfl | rfl
    · exact ⟨.generic [[]], by decide +kernel, by decide⟩
    · exact ⟨.generic [cs!"#"], by decide +kernel, by decide⟩
    · exact ⟨.generic [cs!"#", []], by decide +kernel, by decide⟩
    · exact ⟨.ack, by decide +kernel, by decide⟩
    · exact ⟨.generic [cs!"#", cs!"1#"], by decide +kernel, by decide⟩
  have he : ∃ rest, arrivals [(a, asciiBytes (cs!"*#*1##".take k)), (b, asciiBytes (cs!"*#*1##".drop k))] = (a, m) :: rest := by
    unfold arrivals; rw [hm]; exact ⟨_, rfl⟩
  obtain ⟨rest, he⟩ := he
  rw [h1 a m rest he ha]
  simp only [hm']

/-- C111 (partial): a query whose replies, each of which it can read, and the ACK after them come in any packets of whole frames,
never five seconds apart, returns the values of all replies, in order, when the ACK comes; its bytes were those of the
request. -/
theorem C111_query_partial {β : Type} (cfg : Config) (hc : cfg.session ≠ .event)
    (query : World → (List β × Except Err Unit) × World) (text : Str) (wanted : Msg → Prop)
    (reads : Msg → Except Err (List β) → Prop) (h : Queries cfg query text wanted reads) (now : Nat) (ps post : Packets)
    (mss : List (List Msg)) (hp : List.Forall₂ (fun p ms => PacketCarries p.2 ms) ps mss) (good : List Msg)
    (hm : mss.flatten = good ++ [.ack]) (hw : ∀ m ∈ good, wanted m) (hst : Steady now (stamped ps mss))
    (yss : List (List β)) (hy : List.Forall₂ (fun m ys => reads m (.ok ys)) good yss) :
    call query (client now (ps ++ post)) = ((yss.flatten, .ok ()),
      ⟨lastAt now (stamped ps mss), arrivals post, true, .sent text :: (good.map .got ++ [.got .ack])⟩) ∧
    bytesOut (call query (client now (ps ++ post))).2.trace = asciiBytes text := by
  have hs := stamped_messages ps mss hp.length_eq
  rw [hm] at hs
  obtain ⟨as, l, e1, e2, e3⟩ := List.map_eq_append_iff.1 hs
  obtain ⟨⟨a, m⟩, l', rfl, e4, e5⟩ := List.map_eq_cons_iff.1 e3
  obtain rfl := List.map_eq_nil_iff.1 e5
  dsimp only at e4
  subst e4
  rw [e1] at hst ⊢
  have split : ∀ (n : Nat) (as : Arrivals), Steady n (as ++ [(a, Msg.ack)]) → Steady n as ∧ a < lastAt n as + 5000 := by
    intro n as
    induction as generalizing n with
    | nil => exact fun h => ⟨trivial, h.1⟩
    | cons p as ih => exact fun h => ⟨⟨h.1, (ih _ h.2).1⟩, (ih _ h.2).2⟩
  obtain ⟨s1, s2⟩ := split now as hst
  have ha : arrivals (ps ++ post) = as ++ (a, .ack) :: arrivals post := by
    rw [arrivals_append hp, e1]; simp
  have := (C107_query_exact cfg hc query text wanted reads h (client now (ps ++ post)) rfl as ((a, .ack) :: arrivals post) ha s1
    (fun p hp => hw p.2 (e2 ▸ List.mem_map_of_mem hp)) yss (by rw [e2]; exact hy)).1 a (arrivals post) rfl s2
  have hg : as.map (fun p => CAct.got p.2) = good.map CAct.got := by
    rw [← e2, List.map_map]; rfl
  rw [this, hg]
  refine ⟨?_, ?_⟩
  · simp [client, lastAt]
  · simp [client, bytesOut, bytesOut_append, bytesOut_got, asciiBytes]

/-- The hypotheses are met: the state of a light, and the ACK in a packet of its own. -/
example (cfg : Config) (hc : cfg.session ≠ .event) :
    (call (Light.getStatus cfg ⟨.lighting, ⟨cs!"12"⟩⟩) (client 0 ([(1000, asciiBytes cs!"*1*1*12##"),
      (5500, asciiBytes cs!"*#*1##")] ++ []))).1 = ([(⟨cs!"12"⟩, true)], .ok ()) := by
  have ack : PacketCarries (asciiBytes cs!"*#*1##") [.ack] :=
    ⟨cs!"*#*1##", [], by decide +kernel, .cons (p := []) (by simp) (by simp) (by simp [TagText, TagChar])
      (by simp [hasHH_cons_iff, not_hasHH_nil]) (by simp) .ack .nil, by simp⟩
  have on : PacketCarries (asciiBytes cs!"*1*1*12##") [.normal .lighting ⟨cs!"1"⟩ ⟨cs!"12"⟩] :=
    ⟨cs!"*1*1*12##", [], by decide +kernel, .cons (p := []) (ts := [Who.lighting.code, cs!"1", cs!"12"]) (by simp) (by simp)
      (by simp [TagText, TagChar, Who.code]) (by simp [Who.code, hasHH_cons_iff, not_hasHH_nil]) (by simp) .normal .nil, by simp⟩
  rw [(C111_query_partial cfg hc _ _ _ _ (C68_light cfg ⟨.lighting, ⟨cs!"12"⟩⟩ (by decide +kernel)) 0 _ []
    [[.normal .lighting ⟨cs!"1"⟩ ⟨cs!"12"⟩], [.ack]] (.cons on (.cons ack .nil)) [.normal .lighting ⟨cs!"1"⟩ ⟨cs!"12"⟩] rfl
    (by simp [StatusReply]) ⟨by decide, by decide, trivial⟩ [[(⟨cs!"12"⟩, true)]] (.cons (.on _ _) .nil)).1]
  rfl

/-- C111 (partial): the handshake on the socket.  If what the gateway writes, in packets of whole frames that are never five
seconds apart, is its part of a complete handshake, then `start()` returns when the last packet is there, and the bytes
written are the client's part. -/
theorem C111_start_partial (cfg : Config) (now : Nat) (ps post : Packets) (mss : List (List Msg))
    (hp : List.Forall₂ (fun p ms => PacketCarries p.2 ms) ps mss) (acts : List CAct) (hh : Handshake cfg mss.flatten acts)
    (hst : Steady now (stamped ps mss)) :
    call (Client.handshake cfg) (client now (ps ++ post)) =
      (.ok (), ⟨lastAt now (stamped ps mss), arrivals post, true, acts⟩) := by
  have hs := stamped_messages ps mss hp.length_eq
  have hin : (stamped ps mss).map (fun p => InEv.msg p.2) = mss.flatten.map InEv.msg := by rw [← hs, List.map_map]; rfl
  have hrun : ∀ rest, Client.handshake cfg ⟨[], true, mss.flatten.map InEv.msg ++ rest, []⟩ = (.ok (), ⟨[], true, rest, acts⟩) := by
    intro rest
    have h1 := (C29_start_iff cfg ⟨[some (mss.flatten.map InEv.msg ++ rest)], false, [], []⟩ _).2
      ⟨mss.flatten, rest, [], acts, rfl, hh, rfl⟩
    obtain ⟨r, q', acts', -, h2⟩ := Framed.handshake cfg true (mss.flatten.map InEv.msg ++ rest)
    have h3 : Client.start cfg ⟨[some (mss.flatten.map InEv.msg ++ rest)], false, [], []⟩ =
        Client.handshake cfg ⟨[], true, mss.flatten.map InEv.msg ++ rest, [.connected]⟩ := rfl
    rw [h3, h2, Prod.mk.injEq, World.mk.injEq] at h1
    obtain ⟨rfl, -, -, rfl, e⟩ := h1
    rw [h2]
    simp only [List.nil_append, List.cons_append, List.cons.injEq, true_and] at e
    rw [e]
    rfl
  exact Clock.call_taken (t := client now (ps ++ post)) (xs := stamped ps mss) (ys := arrivals post)
    (w := ⟨[], true, inboxOf (lastAt now (stamped ps mss)) (arrivals post), acts⟩) (arrivals_append hp post) hst
    (by rw [hin]; exact hrun _) rfl

/-- The hypotheses are met: OPEN authentication with three packets; the client writes the session frame and the answer. -/
example (lib : HmacAuth.Lib) (token : Bytes) :
    call (Client.handshake ⟨cs!"12345", .command, lib, token⟩) (client 0 [(10, asciiBytes cs!"*#*1##"),
      (2000, asciiBytes cs!"*#603356072##"), (6000, asciiBytes cs!"*#*1##")]) =
    (.ok (), ⟨6000, [], true, [.got .ack, .sent cs!"*99*9##", .got (.generic [cs!"#603356072"]), .sent cs!"*#25280520##",
      .got .ack]⟩) ∧
    bytesOut [.got .ack, .sent cs!"*99*9##", .got (.generic [cs!"#603356072"]), .sent cs!"*#25280520##", .got .ack] =
      asciiBytes cs!"*99*9##*#25280520##" := by
  refine ⟨?_, by decide +kernel⟩
  have ack : PacketCarries (asciiBytes cs!"*#*1##") [.ack] :=
    ⟨cs!"*#*1##", [], by decide +kernel, .cons (p := []) (by simp) (by simp) (by simp [TagText, TagChar])
      (by simp [hasHH_cons_iff, not_hasHH_nil]) (by simp) .ack .nil, by simp⟩
  have ch : PacketCarries (asciiBytes cs!"*#603356072##") [.generic [cs!"#603356072"]] :=
    ⟨cs!"*#603356072##", [], by decide +kernel, .cons (p := []) (by simp) (ts := [cs!"#603356072"]) (by simp) (by simp [TagText, TagChar])
      (by simp [hasHH_cons_iff, not_hasHH_nil]) (by simp) (.generic (by rintro (h | h | ⟨_, _, _, h, _⟩ | ⟨_, _, _, h, _⟩) <;> simp at h)) .nil, by simp⟩
  exact C111_start_partial ⟨cs!"12345", .command, lib, token⟩ 0 _ [] [[.ack], [.generic [cs!"#603356072"]], [.ack]]
    (.cons ack (.cons ch (.cons ack .nil))) _
    (.open _ cs!"#603356072" cs!"25280520" rfl (show OpenAuth.ownCalcPassStr cs!"12345" cs!"#603356072" = _ by decide +kernel))
    ⟨by decide, by decide, by decide, trivial⟩
