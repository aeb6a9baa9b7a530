import Verif.Proofs.WireLogs
import Verif.Props.HmacAuth

/-!
# What the log says about packets and messages, and what becomes of error reports (C115, C116, C117)
-/

open Py Spec Protocol WireLogs
open WireLogs (Rec)

/-! ## C115: refused packets -/

/-- C115 is refuted: behind good frames, a refused frame takes them with it.  Nothing of the packet is delivered, and the log
is the same whatever the good frames before it are and whatever comes after it. -/
theorem C115_neighbours_refuted (d : List UInt8) (s p rest : Str) (ms : List Msg) (e : Err) (hs : PacketOf PyWs s ms)
    (hm : ms ≠ []) (h1 : ¬ HasHH (p ++ cs!"#")) (h2 : p ≠ []) (h3 : parseMessage (p ++ cs!"##") = .error e)
    (hd : decodeAscii d = .ok (s ++ (p ++ cs!"##" ++ rest))) :
    receiveAll [] [d] = [] ∧
    receive [d] = (if isParseError e then [.invalid e] else []) ++ [.occurred e, .protocolError, .lost (some e)] := by
  obtain ⟨fs, rfl, hp, h⟩ := packetOf_text hs
  have hne : fs ≠ [] := by rintro rfl; cases h; exact hm rfl
  have hpp := refused_behind fs ms p rest e hne hp h h1 h2 h3
  have hl : WireLogs.dataReceived d = (.error e, if isParseError e then [.invalid e] else []) := by
    unfold WireLogs.dataReceived; rw [hd]; dsimp only; rw [hpp]
  constructor
  · rw [← journal_receive]
    unfold receive
    rw [hl]; dsimp only
    rw [journal_append, journal_fatal]
    split <;> rfl
  · unfold receive
    rw [hl]; rfl

/-- C115 is refuted: about a frame with an unknown WHO the log has no warning, and no word of the frame. -/
theorem C115_unknown_who_refuted (d : List UInt8) (u v : Str) (ts : List Str) (s : Str) (hu : ∀ c ∈ u, PyWs c)
    (hv : ∀ c ∈ v, PyWs c) (hne : ts ≠ []) (ht : ∀ t ∈ ts, TagText t) (hh : ¬ HasHH (body ts ++ cs!"#")) (hw : WhoText ts s)
    (hs : ∀ w : Who, s ≠ w.code) (hd : decodeAscii d = .ok (u ++ frame ts ++ v)) :
    receive [d] = [.occurred .valueError, .protocolError, .lost (some .valueError)] := by
  have hpm : parseMessage (body ts ++ cs!"##") = .error .valueError :=
    (parseMessage_error_iff _ _).mpr (.inl ⟨ts, s, ⟨hne, ht, ⟨[], [], by simp, by simp, by simp [frame]⟩, oneHH_frame hh⟩, hw, hs, rfl⟩)
  have hpp : parsePieces (split2 '#' '#' (strip (u ++ frame ts ++ v))) = .error .valueError := by
    rw [strip_pad hu hv, strip_frame hne]
    have : frame ts = body ts ++ cs!"##" ++ [] := by simp [frame]
    rw [this, split2_append_sep hh, parsePieces, if_neg, hpm]
    · rfl
    · cases ts with
      | nil => exact absurd rfl hne
      | cons => simp [body]
  unfold receive WireLogs.dataReceived
  rw [hd]; dsimp only; rw [hpp]; rfl

/-- C115 as far as it holds: what the log says about a packet that is refused.  A packet with a byte above 127 is logged whole.
Of any other the first piece that is refused is logged, unless it is a frame with an unknown WHO. -/
theorem C115_refused_partial (d : List UInt8) (e : Err) (he : packetMessages d = .error e) :
    (e = .unicodeError ∧ (∃ b ∈ d, 128 ≤ b.toNat) ∧
      receive [d] = [.notAscii d, .occurred e, .protocolError, .lost (some e)]) ∨
    ∃ text pre p post, decodeAscii d = .ok text ∧ Pieces text (pre ++ p :: post) ∧ p ≠ [] ∧
      (∀ q ∈ pre, q ≠ [] → ∃ m, parseMessage (q ++ cs!"##") = .ok m) ∧
      ((∃ t, e = .invalidMessage t ∧ (t = p ++ cs!"##" ∨ t = strip (p ++ cs!"##")) ∧
          receive [d] = [.invalid e, .occurred e, .protocolError, .lost (some e)]) ∨
        (e = .valueError ∧ (∃ ts s, PyFrame (p ++ cs!"##") ts ∧ WhoText ts s ∧ ∀ w : Who, s ≠ w.code) ∧
          receive [d] = [.occurred e, .protocolError, .lost (some e)])) := by
  have hr : ∀ l, WireLogs.dataReceived d = (.error e, l) → receive [d] = l ++ [.occurred e, .protocolError, .lost (some e)] := by
    intro l h; unfold receive; rw [h]; rfl
  rcases dataReceived_cases d with ⟨h0, h1, h2⟩ | ⟨text, e', h0, h1, h3, h2⟩ | ⟨h1, _⟩ | ⟨_, _, h1, _⟩
  · rw [h1] at he; cases he
    left
    refine ⟨rfl, ?_, hr _ h2⟩
    unfold decodeAscii at h0
    split at h0
    · cases h0
    · rename_i hn
      simpa using hn
  · rw [h3] at he; cases he
    right
    obtain ⟨pre, p, post, g1, g2, g3, g4⟩ := pieces_error h1
    refine ⟨text, pre, p, post, h0, ⟨?_, ?_⟩, g3, g2, ?_⟩
    · rw [← g1, join_split2]
    · rw [← g1]; exact split2_pieces _
    · rcases (parseMessage_error_iff _ _).mp g4 with ⟨ts, s, k1, k2, k3, rfl⟩ | ⟨_, _, s, rfl⟩
      · exact .inr ⟨rfl, ⟨ts, s, k1, k2, k3⟩, hr _ h2⟩
      · exact .inl ⟨s, rfl, invalid_text g4, hr _ h2⟩
  · rw [h1] at he; cases he
  · rw [h1] at he; cases he

/-- C115: a packet that is no text is shown whole, in hexadecimal, in a warning. -/
theorem C115_not_ascii_partial (other : Err → Str) (msg : Str) (d : List UInt8) (h : ∃ b ∈ d, 128 ≤ b.toNat) :
    ∃ r ∈ receive [d], r.level = .warning ∧ Quotes other msg r (hexText d) := by
  have hd : decodeAscii d = .error .unicodeError := by
    unfold decodeAscii
    rw [if_neg]
    obtain ⟨b, hb, hl⟩ := h
    simp only [List.all_eq_true, not_forall]
    exact ⟨b, hb, by simpa using hl⟩
  refine ⟨.notAscii d, ?_, rfl, cs!"Received data not ascii: ", [], ?_⟩
  · unfold receive WireLogs.dataReceived; rw [hd]; simp
  · rw [← HmacAuth.hexdigest_eq]; simp [Rec.text]

/-- C115: a packet that holds nothing but one frame, which is none, is quoted in a warning. -/
theorem C115_alone_partial (other : Err → Str) (msg : Str) (d : List UInt8) (text p : Str) (hd : decodeAscii d = .ok text)
    (hp : p ≠ []) (h1 : ¬ HasHH (p ++ cs!"#")) (hs : strip text = p ++ cs!"##") (hf : ¬ ∃ ts, PyFrame (p ++ cs!"##") ts) :
    ∃ r ∈ receive [d], r.level = .warning ∧ Quotes other msg r (p ++ cs!"##") := by
  have he : ∃ s, parseMessage (p ++ cs!"##") = .error (.invalidMessage s) := by
    refine parseMessage_not_frame fun ⟨ts, h⟩ => hf ⟨ts, (isFrame_iff _ _).mpr h⟩
  obtain ⟨s, he⟩ := he
  have hst : strip (p ++ cs!"##") = p ++ cs!"##" := by rw [← hs, strip_strip]
  have hs' : s = p ++ cs!"##" := by
    rcases invalid_text he with h | h
    · exact h
    · rw [h, hst]
  have hpp : parsePieces (split2 '#' '#' (strip text)) = .error (.invalidMessage s) := by
    have : p ++ cs!"##" = p ++ cs!"##" ++ [] := by simp
    rw [hs, this, split2_append_sep h1, parsePieces, if_neg hp, he]; rfl
  refine ⟨.invalid (.invalidMessage s), ?_, rfl, cs!"Received invalid message: " ++ cs!"Invalid message: ", [], ?_⟩
  · unfold receive WireLogs.dataReceived
    rw [hd]; dsimp only; rw [hpp]; simp [isParseError]
  · rw [hs']; simp [Rec.text, errText]

/-! ## C116: the log at DEBUG -/

/-- C116: what the log says has been received is what is delivered, for every sequence of packets. -/
theorem C116_received (ds : List (List UInt8)) : journal (receive ds) = receiveAll [] ds := journal_receive ds

/-- C116: and it can be read off the texts of the log: connections with the same log have received the same messages. -/
theorem C116_readable (other : Err → Str) (msg : Str) (ds ds' : List (List UInt8))
    (h : (receive ds).map (·.text other msg) = (receive ds').map (·.text other msg)) : receiveAll [] ds = receiveAll [] ds' := by
  rw [← journal_receive, ← journal_receive]
  exact journal_texts other msg _ _ (receive_plain ds) (receive_plain ds') h

/-- C116: messages that are received are shown differently unless they are the same. -/
theorem C116_repr (s t : Str) (a b : Msg) (ha : parseMessage s = .ok a) (hb : parseMessage t = .ok b) :
    a.repr = b.repr ↔ a = b := by
  constructor
  · intro h
    rw [Msg.repr_eq, Msg.repr_eq] at h
    exact Msg.reprBody_inj (parsed_tags ha) (parsed_tags hb) (List.append_cancel_right h)
  · rintro rfl; rfl

/-- C116: what the log says has been sent is what has been written, in order, among the pauses and resumptions, in every history
of calls, congestion and cancellations. -/
theorem C116_sent (evs : List SEv) : wire (Sender.init.run evs) = (SState.init.run evs).trace.map wired := by
  have h : Agree Sender.init SState.init := ⟨rfl, rfl, rfl, by simp [Sender.init]⟩
  simpa [SState.init] using (agree_run h evs).symm

/-- C116: what has been written can be read off the texts of the log as well. -/
theorem C116_sent_readable (other : Err → Str) (msg : Str) (evs evs' : List SEv)
    (h : (Sender.init.run evs).map (·.text other msg) = (Sender.init.run evs').map (·.text other msg)) :
    (SState.init.run evs).trace.map wired = (SState.init.run evs').trace.map wired := by
  rw [← C116_sent, ← C116_sent]
  exact wire_texts other msg _ _ h

/-- C116: no message is logged above DEBUG on its way in. -/
theorem C116_debug (ds : List (List UInt8)) : journal ((receive ds).filter fun r => r.level ≠ .debug) = [] := by
  generalize receive ds = l
  induction l with
  | nil => rfl
  | cons r l ih => cases r <;> simp [Rec.level, journal] at ih ⊢ <;> exact ih

/-- C116: nor on its way out. -/
theorem C116_sent_debug (evs : List SEv) : wire ((Sender.init.run evs).filter fun r => r.level ≠ .debug) = [] := by
  generalize Sender.init.run evs = l
  induction l with
  | nil => rfl
  | cons r l ih => cases r <;> simp [Rec.level, wire] at ih ⊢ <;> exact ih

/-! ## C117: error reports -/

/-- C117 is refuted: once a client has been made on an event loop, whatever handler the program had set, and until it sets one
again, its error reports go to the handler of the package, also after the client has been closed.  A report without an exception
is dropped without a word. -/
theorem C117_refuted (h : Handler) (evs evs' : List HEv) (hs : ∀ x, .set x ∉ evs') (c : Context) :
    (h.run (evs ++ .construct :: evs')).tell c = .pyown (handler c) ∧ (c.exception = none → handler c = []) := by
  constructor
  · have : h.run (evs ++ .construct :: evs') = .pyown := by
      have := run_keeps ((h.run evs).step .construct) evs' hs
      unfold Handler.run at this ⊢
      rw [List.foldl_append, List.foldl_cons, this]
      simp [Handler.step]
    rw [this]; rfl
  · intro hc; unfold handler; rw [hc]

/-- C117 as far as it holds: without a client nothing changes. -/
theorem C117_untouched_partial (h : Handler) (evs : List HEv) (hs : ∀ x, .set x ∉ evs) (hc : .construct ∉ evs) :
    h.run evs = h := by
  rw [run_keeps h evs hs, if_neg hc]

/-- C117: a handler set after the last client has been made is the one that is called. -/
theorem C117_set_again (h : Handler) (evs evs' : List HEv) (n : Nat) (hs : ∀ x, .set x ∉ evs') (hc : .construct ∉ evs') (c : Context) :
    (h.run (evs ++ .set (some n) :: evs')).tell c = .program n c := by
  have := C117_untouched_partial ((h.run evs).step (.set (some n))) evs' hs hc
  unfold Handler.run at this ⊢
  rw [List.foldl_append, List.foldl_cons, this]; rfl

/-- C117: a report with an exception is logged at ERROR by the package's handler, with its message and the exception, and all the
handler logs is at ERROR. -/
theorem C117_logged (other : Err → Str) (msg : Str) (c : Context) (e : Err) (he : c.exception = some e) :
    (∃ r ∈ handler c, Quotes other msg r msg ∧ Quotes other msg r (errText other e)) ∧ ∀ r ∈ handler c, r.level = .error := by
  unfold handler
  rw [he]
  refine ⟨⟨_, List.mem_cons_self, ⟨cs!"Exception occurred: ", cs!" (" ++ errText other e ++ cs!")", by simp [Rec.text]⟩,
    ⟨cs!"Exception occurred: " ++ msg ++ cs!" (", cs!")", by simp [Rec.text]⟩⟩, ?_⟩
  intro r hr
  dsimp only at hr
  rcases List.mem_cons.1 hr with rfl | hr
  · rfl
  · split_ifs at hr <;> simp at hr <;> subst hr <;> rfl

/-! ## Examples -/

namespace Example115

/-- Two good frames, one that is none, and one more good frame, in one packet. -/
def packet : List UInt8 := asciiBytes cs!"*1*1*12##*1*0*12##*1*x##*1*1*13##"

example : receive [packet] =
    [.invalid (.invalidMessage cs!"*1*x##"), .occurred (.invalidMessage cs!"*1*x##"), .protocolError,
     .lost (some (.invalidMessage cs!"*1*x##"))] := by decide +kernel

/-- Its text meets the hypotheses of `C115_neighbours_refuted`. -/
example : decodeAscii packet = .ok (cs!"*1*1*12##*1*0*12##" ++ (cs!"*1*x" ++ cs!"##" ++ cs!"*1*1*13##")) ∧
    parseMessage (cs!"*1*x" ++ cs!"##") = .error (.invalidMessage cs!"*1*x##") := by decide +kernel

example : PacketOf PyWs cs!"*1*1*12##*1*0*12##"
    [.normal .lighting ⟨cs!"1"⟩ ⟨cs!"12"⟩, .normal .lighting ⟨cs!"0"⟩ ⟨cs!"12"⟩] := by
  have h2 : PacketOf PyWs ([] ++ frame [Who.lighting.code, cs!"0", cs!"12"] ++ []) [.normal .lighting ⟨cs!"0"⟩ ⟨cs!"12"⟩] :=
    .cons (by simp) (by simp) (by simp [TagText, TagChar, Who.code])
      (by simp [Who.code, hasHH_cons_iff, not_hasHH_nil]) (by simp) .normal .nil
  exact .cons (p := []) (ts := [Who.lighting.code, cs!"1", cs!"12"]) (by simp) (by simp) (by simp [TagText, TagChar, Who.code])
    (by simp [Who.code, hasHH_cons_iff, not_hasHH_nil]) (by simp) .normal h2

example : ¬ HasHH (cs!"*1*x" ++ cs!"#") := by simp [hasHH_cons_iff, not_hasHH_nil]

/-- An unknown WHO. -/
example : receive [asciiBytes cs!"*99*1*12##"] = [.occurred .valueError, .protocolError, .lost (some .valueError)] := by
  decide +kernel

example : WhoText [cs!"99", cs!"1", cs!"12"] cs!"99" ∧ ∀ w : Who, cs!"99" ≠ w.code :=
  ⟨.plain (by simp) (by simp), fun w => by cases w <;> decide⟩

/-- A byte that is not ASCII. -/
example : receive [[42, 200, 35, 35]] =
    [.notAscii [42, 200, 35, 35], .occurred .unicodeError, .protocolError, .lost (some .unicodeError)] := by decide +kernel

example : (Rec.notAscii [42, 200, 35, 35]).text (fun _ => []) [] = cs!"Received data not ascii: 2ac82323" := by decide +kernel

/-- What is shown of two good packets. -/
example : (receive [asciiBytes cs!"*#*1##", asciiBytes cs!"*1*1*12##*#1*12*1*5##"]).map (·.text (fun _ => []) []) =
    [cs!"Received messages: [<ACK: #,1>]",
     cs!"Received messages: [<NormalMessage: 1,1,12>, <DimensionResponse: 1,12,1,5>]"] := by decide +kernel

/-- Not of messages that have been received: two messages that are shown alike. -/
example : (Msg.generic []).repr = (Msg.generic [[]]).repr := by decide +kernel

/-- A message that has to wait, one cancelled, one written. -/
example : Sender.init.run [.pause, .call 1 .ack, .call 2 .nack, .cancel 2, .resume, .wake 1, .resume] =
    [.paused, .resumed, .sent cs!"*#*1##", .occurred .runtimeError, .protocolError] := by decide +kernel

/-- The handler of a program that makes a client and closes it: a pending task that is destroyed is not reported any more. -/
example : ((Handler.program 7).run [.construct, .start, .close]).tell ⟨none, true, false, false⟩ = .pyown [] ∧
    ((Handler.program 7).run [.start, .close]).tell ⟨none, true, false, false⟩ = .program 7 ⟨none, true, false, false⟩ ∧
    ((Handler.program 7).run [.construct]).tell ⟨some .valueError, false, false, true⟩ =
      .pyown [.occurred .valueError, .transportError] := by decide +kernel

end Example115
