import Verif.Props.Protocol

/-! # C95: what one protocol object writes, another receives -/

open Py Spec Protocol

/-- Messages that keep their meaning on the wire: valid tags, a printed form that denotes the message (C10), and a single
terminator, at the end (C13). -/
def Spec.Portable (m : Msg) : Prop :=
  (∀ t ∈ m.tags, TagText t) ∧ Faithful m ∧ ∃ b, m.str = b ++ cs!"##" ∧ ¬ HasHH (b ++ cs!"#")

/-- The bytes of messages written one after the other (`transport.write` for each, `protocol.py:132`). -/
inductive Spec.Written : List Msg → List UInt8 → Prop
  | nil : Written [] []
  | cons {m ms d ds} : m.bytes = .ok d → Written ms ds → Written (m :: ms) (d ++ ds)

theorem decode_bytes {m : Msg} {d : List UInt8} (h : m.bytes = .ok d) : decodeAscii d = .ok m.str := by
  unfold Msg.bytes Msg.encodeAscii at h
  split at h
  · rename_i ha
    cases h
    have hb : ∀ c ∈ m.str, c.toNat < 128 := by simpa using ha
    have hn : ∀ c : Char, c.toNat < 128 → c.toNat.toUInt8.toNat = c.toNat := by
      intro c hc
      simp only [Nat.toUInt8, UInt8.toNat_ofNat']
      omega
    unfold decodeAscii
    rw [if_pos]
    · congr 1
      rw [List.map_map]
      conv_rhs => rw [← List.map_id m.str]
      apply List.map_congr_left
      intro c hc
      simp only [Function.comp, id]
      rw [hn c (hb c hc), Char.ofNat_toNat]
    · simp only [List.all_map, List.all_eq_true, Function.comp, decide_eq_true_eq]
      intro c hc
      rw [hn c (hb c hc)]; exact hb c hc
  · cases h

theorem written_packet {ms : List Msg} {d : List UInt8} (hw : Written ms d) (hp : ∀ m ∈ ms, Portable m) :
    ∃ s, decodeAscii d = .ok s ∧ PacketOf PyWs s ms := by
  induction hw with
  | nil => exact ⟨[], rfl, .nil⟩
  | @cons m ms d ds hb _ ih =>
    obtain ⟨s, h1, h2⟩ := ih fun m hm => hp m (List.mem_cons_of_mem _ hm)
    obtain ⟨hv, hf, ht⟩ := hp m (List.mem_cons_self ..)
    obtain ⟨t1, t2⟩ := (C13_one_terminator_partial m).1 ht
    refine ⟨m.str ++ s, decodeAscii_append (decode_bytes hb) h1, ?_⟩
    have := PacketOf.cons (ws := PyWs) (p := []) (by simp) (printTags_ne m) ((Msg.tags_valid_iff m).1 hv) t1 t2
      ((frameOf_printTags m).2 hf) h2
    rwa [List.nil_append, ← str_eq_frame] at this

/-- C95 (partial): messages that keep their meaning on the wire are received as they were, in the order written, however the
writes are grouped into packets of whole frames.  Missing from the full claim: the other messages, and cuts inside a frame. -/
theorem C95_wire_partial (q : List Msg) (groups : List (List Msg)) (packets : List (List UInt8))
    (hp : ∀ g ∈ groups, ∀ m ∈ g, Portable m) (hw : List.Forall₂ Written groups packets) :
    receiveAll q packets = q ++ groups.flatten := by
  have : ∃ texts, List.Forall₂ (fun d s => decodeAscii d = .ok s) packets texts ∧
      List.Forall₂ (fun s ms => PacketOf PyWs s ms) texts groups := by
    induction hw with
    | nil => exact ⟨[], .nil, .nil⟩
    | cons h _ ih =>
      obtain ⟨ts, a, b⟩ := ih fun g hg => hp g (List.mem_cons_of_mem _ hg)
      obtain ⟨s, c, d⟩ := written_packet h (hp _ (List.mem_cons_self ..))
      exact ⟨s :: ts, .cons c a, .cons d b⟩
  obtain ⟨texts, a, b⟩ := this
  exact (C17_segmentation_partial q packets texts groups a b).1

theorem first_hh {s : Str} (h : HasHH s) : ∃ b r, s = b ++ cs!"##" ++ r ∧ ¬ HasHH (b ++ cs!"#") := by
  induction s with
  | nil => exact absurd h not_hasHH_nil
  | cons c s ih =>
    by_cases h0 : c = '#' ∧ s.head? = some '#'
    · obtain ⟨rfl, h0⟩ := h0
      cases s with
      | nil => cases h0
      | cons d s =>
        cases h0
        exact ⟨[], s, rfl, by simp [hasHH_cons_iff, not_hasHH_nil]⟩
    · obtain ⟨b, r, rfl, hb⟩ := ih (((hasHH_cons_iff c s).1 h).resolve_left h0)
      refine ⟨c :: b, r, by simp, ?_⟩
      rw [List.cons_append, hasHH_cons_iff]
      rintro (⟨rfl, h1⟩ | h1)
      · refine h0 ⟨rfl, ?_⟩
        cases b <;> simp_all
      · exact hb h1

/-- A message whose printed form begins with a frame that denotes it is printed as this frame. -/
theorem print_prefix {ts : List Str} {m : Msg} {rest : Str} (hne : ts ≠ []) (h : FrameOf ts m) (e : m.str = frame ts ++ rest) :
    rest = [] := by
  have len : (frame (printTags m)).length ≤ (frame ts).length → rest = [] := by
    intro hl
    rw [← str_eq_frame, e] at hl
    simpa using hl
  have star : printTags m = ts ++ [[]] → rest = [] := by
    intro hp
    rw [str_eq_frame, hp] at e
    simp only [frame] at e
    have : ∀ ts, body (ts ++ [[]]) = body ts ++ cs!"*" := by
      intro ts
      induction ts with
      | nil => rfl
      | cons t ts ih => simp [body, ih]
    rw [this] at e
    simp at e
  have values : ∀ vs : List Str, vs ≠ [] → printValues (vs.map Tag.mk) = vs := fun vs h => printValues_mk vs h
  cases h with
  | ack => exact len (by simp [printTags])
  | nack => exact len (by simp [printTags])
  | normal => exact len (by simp [printTags])
  | status => exact len (by simp [printTags])
  | dimReq => exact len (by simp [printTags])
  | @dimWrite w a d vs =>
    by_cases hv : vs = []
    · subst hv; exact star rfl
    · exact len (by simp [printTags, values vs hv])
  | @dimResp w a d vs =>
    by_cases hv : vs = []
    · subst hv; exact star rfl
    · exact len (by simp [printTags, values vs hv])
  | @dimRespHash w a d vs =>
    by_cases hv : vs = []
    · subst hv; exact len (by simp [printTags, printValues, frame, body])
    · exact len (by simp [printTags, values vs hv, frame, body])
  | @generic ts =>
    refine len ?_
    simp [printTags, hne]

/-- C95: the condition is needed: a message alone in a packet is received as it was only if it keeps its meaning on the wire. -/
theorem C95_alone_partial (m : Msg) (hv : ∀ t ∈ m.tags, TagText t) (d : List UInt8) (hb : m.bytes = .ok d) :
    receiveAll [] [d] = [m] ↔ Portable m := by
  constructor
  · intro h
    have hd := decode_bytes hb
    have hp : packetMessages d = .ok [m] := by
      simp only [receiveAll, dataReceived] at h
      rcases hp : packetMessages d with e | ms
      · simp [hp] at h
      · simp only [hp] at h; simpa using h
    rw [packetMessages, hd] at hp
    change parsePieces (split2 '#' '#' (strip m.str)) = _ at hp
    rw [str_eq_frame, strip_frame (printTags_ne m), ← str_eq_frame] at hp
    obtain ⟨b, rest, e, hn⟩ := first_hh (s := m.str) (by rw [str_eq_frame]; exact ⟨body (printTags m), [], by simp [frame]⟩)
    have hbne : b ≠ [] := by
      rintro rfl
      rw [str_eq_frame] at e
      rcases ht : printTags m with _ | ⟨t, ts⟩
      · exact printTags_ne m ht
      · rw [ht] at e; simp [frame, body] at e
    rw [e, split2_append_sep hn, parsePieces, if_neg hbne] at hp
    have hm : parseMessage (b ++ cs!"##") = .ok m := by
      rcases h1 : parseMessage (b ++ cs!"##") with x | m'
      · rw [h1] at hp; cases hp
      · rw [h1] at hp
        rcases h2 : parsePieces (split2 '#' '#' rest) with x | ms
        · rw [h2] at hp; cases hp
        · rw [h2] at hp; cases hp; rfl
    obtain ⟨ts, ⟨h1, h2, ⟨u, v, hu, hv', h3⟩, h4⟩, hf⟩ := (parseMessage_ok_iff _ _).1 hm
    have hw : strip (b ++ cs!"##") = b ++ cs!"##" := by
      apply strip_eq_self
      · intro c hc
        have hh : m.str.head? = some '*' := by
          rw [str_eq_frame]
          rcases ht : printTags m with _ | ⟨t, ts⟩
          · exact absurd ht (printTags_ne m)
          · rfl
        rw [e] at hh
        rcases b with _ | ⟨x, b⟩
        · exact absurd rfl hbne
        · simp at hc hh; rw [← hc, hh]; decide
      · intro c hc
        simp at hc
        subst hc; decide
    have he : b ++ cs!"##" = frame ts := by
      rw [← hw, h3, strip_pad hu hv', strip_frame h1]
    have hr : rest = [] := print_prefix h1 hf (by rw [e, he])
    rw [hr, List.append_nil] at e
    exact ⟨hv, ((C10_parse_print_partial m hv).1 (by rw [e]; exact hm)).1, b, e, hn⟩
  · intro h
    have := C95_wire_partial [] [[m]] [d] (by simpa using h) (.cons (by simpa using Written.cons hb .nil) .nil)
    simpa using this

/-- C95 is refuted: a request for a dimension with parameters is received as a response, a tag with `##` splits a message in
two, and a tag that ends in `#` makes the next message part of the error. -/
theorem C95_wire_refuted :
    (∃ m : Msg, (∀ t ∈ m.tags, TagText t) ∧ ∃ d m', m.bytes = .ok d ∧ receiveAll [] [d] = [m'] ∧ m'.type ≠ m.type) ∧
    (∃ m : Msg, (∀ t ∈ m.tags, TagText t) ∧ ∃ d, m.bytes = .ok d ∧ (receiveAll [] [d]).length = 2) ∧
    (∃ m : Msg, (∀ t ∈ m.tags, TagText t) ∧ ∃ d, m.bytes = .ok d ∧ receiveAll [] [d] = []) :=
  ⟨⟨.dimReq .energyManagement ⟨cs!"51"⟩ ⟨cs!"511#1"⟩, by simp [Msg.tags, TagText, TagChar, Who.code],
      asciiBytes cs!"*#18*51*511#1##", .dimResp .energyManagement ⟨cs!"51"⟩ ⟨cs!"511#1"⟩ [], by decide +kernel,
      by decide +kernel, by decide⟩,
    ⟨.normal .lighting ⟨cs!"1##"⟩ ⟨cs!"12"⟩, by simp [Msg.tags, TagText, TagChar, Who.code],
      asciiBytes cs!"*1*1##*12##", by decide +kernel, by decide +kernel⟩,
    ⟨.normal .lighting ⟨cs!"1"⟩ ⟨cs!"12#"⟩, by simp [Msg.tags, TagText, TagChar, Who.code],
      asciiBytes cs!"*1*1*12###", by decide +kernel, by decide +kernel⟩⟩

/-- Three messages in two packets. -/
example : List.Forall₂ Written
    [[.normal .lighting ⟨cs!"1"⟩ ⟨cs!"12"⟩, .status .automation ⟨cs!"0114"⟩],
      [.dimWrite .gateway ⟨[]⟩ ⟨cs!"0"⟩ [⟨cs!"10"⟩, ⟨cs!"30"⟩]]]
    [asciiBytes cs!"*1*1*12##*#2*0114##", asciiBytes cs!"*#13**#0*10*30##"] :=
  .cons (Written.cons (d := asciiBytes cs!"*1*1*12##") (by decide +kernel)
      (Written.cons (d := asciiBytes cs!"*#2*0114##") (ds := []) (by decide +kernel) .nil))
    (.cons (Written.cons (d := asciiBytes cs!"*#13**#0*10*30##") (ds := []) (by decide +kernel) .nil) .nil)
example : Portable (.dimWrite .gateway ⟨[]⟩ ⟨cs!"0"⟩ [⟨cs!"10"⟩, ⟨cs!"30"⟩]) := by
  refine ⟨by simp [Msg.tags, TagText, TagChar, Who.code], ⟨by simp [Digits], by simp⟩, (C13_one_terminator_partial _).2 ?_⟩
  simp [printTags, printValues, hasHH_cons_iff, not_hasHH_nil, Who.code]
