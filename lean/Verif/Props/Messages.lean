import Verif.Props.Tags
import Verif.Proofs.Print
import Mathlib.Tactic.Tauto

/-! # Properties C06–C14 and C69: messages -/

open Py Spec

/-- Whitespace in the sense of `str.strip`. -/
abbrev PyWs (c : Char) : Prop := isSpace c = true

/-! ## C06: accepted language -/

/-- A frame, character by character: `*`, then characters from `0-9 * #`, then `##`, between whitespace, with a single
terminator in the whole text. -/
def Spec.WellFormed (ws : Char → Prop) (m : Str) : Prop :=
  OneHH m ∧ ∃ x, (∀ c ∈ x, c ∈ cs!"0123456789*#") ∧ Padded ws (cs!"*" ++ x ++ cs!"##") m

theorem wellFormed_iff (ws : Char → Prop) (m : Str) : WellFormed ws m ↔ ∃ ts, IsFrame ws m ts := by
  constructor
  · rintro ⟨h1, x, hx, h2⟩
    have hne := split1_ne_nil '*' x
    refine ⟨split1 '*' x, hne, ?_, ?_, h1⟩
    · intro t ht c hc
      have hs := not_mem_of_mem_split1 ht
      have := hx c (mem_of_mem_split1 ht c hc)
      have hc' : c ≠ '*' := fun e => hs (e ▸ hc)
      simp only [List.mem_cons, List.not_mem_nil, or_false, TagChar] at this ⊢
      tauto
    · rw [frame_eq hne, join_split1]; simpa using h2
  · rintro ⟨ts, hne, hv, hp, h1⟩
    refine ⟨h1, join cs!"*" ts, ?_, ?_⟩
    · intro c hc
      have := body_valid hv c
      rw [MsgRe.body_eq_join hne] at this
      exact this (by simp [hc])
    · rw [frame_eq hne] at hp; simpa using hp

/-- C06: `parse_message(m)` raises `InvalidMessage` exactly when `m` is not well formed. -/
theorem C06_invalid_iff (m : Str) : (∃ s, parseMessage m = .error (.invalidMessage s)) ↔ ¬ WellFormed PyWs m := by
  rw [wellFormed_iff]
  constructor
  · rintro ⟨s, h⟩
    rcases (parseMessage_error_iff m _).mp h with ⟨_, _, _, _, _, e⟩ | ⟨hn, _⟩
    · cases e
    · exact hn
  · intro hn
    cases h : parseMessage m with
    | ok r =>
      obtain ⟨ts, hf, _⟩ := (parseMessage_ok_iff m r).mp h
      exact absurd ⟨ts, hf⟩ hn
    | error e =>
      rcases (parseMessage_error_iff m e).mp h with ⟨ts, _, hf, _⟩ | ⟨_, _, s, rfl⟩
      · exact absurd ⟨ts, hf⟩ hn
      · exact ⟨s, rfl⟩

/-- C06: no exception other than `InvalidMessage` and `ValueError` leaves `parse_message`; in particular neither
`InvalidTag` nor `IndexError` nor `NotImplementedError`. -/
theorem C06_no_other_error (m : Str) (e : Err) (h : parseMessage m = .error e) :
    e = .valueError ∨ ∃ s, e = .invalidMessage s := by
  rcases (parseMessage_error_iff m e).mp h with ⟨_, _, _, _, _, e⟩ | ⟨_, _, s⟩
  · exact .inl e
  · exact .inr s

example : parseMessage cs!" *1*1*12##\n" = .ok (.normal .lighting ⟨cs!"1"⟩ ⟨cs!"12"⟩) := by decide
example : ∃ s, parseMessage cs!"*1*1*12" = .error (.invalidMessage s) := ⟨_, rfl⟩
example : ∃ s, parseMessage cs!"*1*1##*12##" = .error (.invalidMessage s) := ⟨_, rfl⟩

/-! ## C07: classification -/

/-- C07: a text parses to `r` exactly when it is a (padded) frame whose tags stand for `r` in the frame table. -/
theorem C07_classified (m : Str) (r : Msg) : parseMessage m = .ok r ↔ ∃ ts, PyFrame m ts ∧ FrameOf ts r :=
  parseMessage_ok_iff m r

/-- C07: the tags of a text are determined by it, so the table gives at most one answer. -/
theorem C07_unique (m : Str) (ts us : List Str) (r r' : Msg) (h : PyFrame m ts) (h' : PyFrame m us)
    (hr : FrameOf ts r) (hr' : FrameOf us r') : ts = us ∧ r = r' := by
  refine ⟨pyFrame_unique h h', ?_⟩
  have e1 := (C07_classified m r).mpr ⟨ts, h, hr⟩
  have e2 := (C07_classified m r').mpr ⟨us, h', hr'⟩
  rw [e1] at e2; cases e2; rfl

/-- C07, the rows of the table for structured frames, read off directly. -/
theorem C07_rows (w : Who) (a b d : Str) (vs : List Str) (hv : ∀ t ∈ a :: b :: d :: vs, TagText t) :
    (OneHH (frame [w.code, a, b]) → parseMessage (frame [w.code, a, b]) = .ok (.normal w ⟨a⟩ ⟨b⟩)) ∧
    (OneHH (frame ['#' :: w.code, a]) → parseMessage (frame ['#' :: w.code, a]) = .ok (.status w ⟨a⟩)) ∧
    (Digits d → OneHH (frame ['#' :: w.code, a, d]) →
      parseMessage (frame ['#' :: w.code, a, d]) = .ok (.dimReq w ⟨a⟩ ⟨d⟩)) ∧
    (Digits d → OneHH (frame (('#' :: w.code) :: a :: ('#' :: d) :: vs)) →
      parseMessage (frame (('#' :: w.code) :: a :: ('#' :: d) :: vs)) = .ok (.dimWrite w ⟨a⟩ ⟨d⟩ (vs.map Tag.mk))) ∧
    (Digits d → vs ≠ [] → OneHH (frame (('#' :: w.code) :: a :: d :: vs)) →
      parseMessage (frame (('#' :: w.code) :: a :: d :: vs)) = .ok (.dimResp w ⟨a⟩ ⟨d⟩ (vs.map Tag.mk))) := by
  have pad : ∀ s : Str, Padded PyWs s s := fun s => ⟨[], [], by simp, by simp, by simp⟩
  have hw := TagText.of_digits w.code_digits
  have ha := hv a (by simp)
  have hb := hv b (by simp)
  have hd := hv d (by simp)
  have hvs : ∀ v ∈ vs, TagText v := fun v h => hv v (by simp [h])
  refine ⟨fun h => ?_, fun h => ?_, fun hdd h => ?_, fun hdd h => ?_, fun hdd hne h => ?_⟩ <;>
    rw [C07_classified]
  · exact ⟨_, ⟨by simp, by simp [hw, ha, hb], pad _, h⟩, .normal⟩
  · exact ⟨_, ⟨by simp, by simp [TagText.cons_hash, hw, ha], pad _, h⟩, .status⟩
  · exact ⟨_, ⟨by simp, by simp [TagText.cons_hash, hw, ha, hd], pad _, h⟩, .dimReq hdd⟩
  · exact ⟨_, ⟨by simp, by simp [TagText.cons_hash, hw, ha, hd]; exact hvs, pad _, h⟩, .dimWrite hdd⟩
  · refine ⟨_, ⟨by simp, by simp [TagText.cons_hash, hw, ha, hd]; exact hvs, pad _, h⟩, .dimResp ?_ (.inl hne)⟩
    rintro r rfl
    exact Digits.not_hash hdd (by simp)

example : parseMessage cs!"*#13**#0*21*10*00*01##" =
    .ok (.dimWrite .gateway ⟨[]⟩ ⟨cs!"0"⟩ [⟨cs!"21"⟩, ⟨cs!"10"⟩, ⟨cs!"00"⟩, ⟨cs!"01"⟩]) := by decide +kernel
example : parseMessage cs!"*99*0##" = .ok (.generic [cs!"99", cs!"0"]) := by decide +kernel

/-! ## C69: parameterised dimensions -/

/-- C69 refuted: the documented request for energy dimension 511 with a parameter (`docs/original/who18.md`), and a
writing with a parameterised dimension, are both classified as responses. -/
theorem C69_parameterised_dimension_refuted :
    parseMessage cs!"*#18*51*511#1##" = .ok (.dimResp .energyManagement ⟨cs!"51"⟩ ⟨cs!"511#1"⟩ []) ∧
    parseMessage cs!"*#18*51*#1200#1*5##" = .ok (.dimResp .energyManagement ⟨cs!"51"⟩ ⟨cs!"1200#1"⟩ [⟨cs!"5"⟩]) := by
  constructor <;> decide +kernel

/-- C69 refuted in general: no request with a parameterised dimension, and no writing to one, is ever classified by
its direction. -/
theorem C69_never_by_direction (m : Str) (ts : List Str) (w : Who) (a d : Str) (vs : List Str) (hf : PyFrame m ts)
    (hd : ¬ Digits d) (hts : ts = ['#' :: w.code, a, d] ∧ (∀ r, d ≠ '#' :: r) ∨
      ts = ('#' :: w.code) :: a :: ('#' :: d) :: vs) :
    ∃ vs', parseMessage m = .ok (.dimResp w ⟨a⟩ ⟨d⟩ vs') := by
  rcases hts with ⟨rfl, h⟩ | rfl
  · exact ⟨_, (C07_classified _ _).mpr ⟨_, hf, .dimResp (vs := []) h (.inr hd)⟩⟩
  · exact ⟨_, (C07_classified _ _).mpr ⟨_, hf, .dimRespHash hd⟩⟩

/-- C69 (partial): a response with a parameterised dimension and at least one value is a response.
Missing from the full claim: requests and writings, see `C69_parameterised_dimension_refuted`. -/
theorem C69_response_partial (m : Str) (w : Who) (a d : Str) (vs : List Str) (hvs : vs ≠ [])
    (hd : ∀ r, d ≠ '#' :: r) (hf : PyFrame m (('#' :: w.code) :: a :: d :: vs)) :
    parseMessage m = .ok (.dimResp w ⟨a⟩ ⟨d⟩ (vs.map Tag.mk)) :=
  (C07_classified _ _).mpr ⟨_, hf, .dimResp hd (.inl hvs)⟩

/-! ## C08: unknown WHO -/

/-- C08 refuted: a well-formed frame with an unknown WHO raises `ValueError`, which is not a `ParseError`. -/
theorem C08_unknown_who_refuted :
    WellFormed PyWs cs!"*99*1*12##" ∧ parseMessage cs!"*99*1*12##" = .error .valueError := by
  have h : parseMessage cs!"*99*1*12##" = .error .valueError := by decide +kernel
  refine ⟨?_, h⟩
  by_contra hn
  obtain ⟨s, hs⟩ := (C06_invalid_iff _).mpr hn
  rw [h] at hs; cases hs

/-- C08 (partial): `ValueError` is raised exactly for well-formed structured frames with an unknown WHO; every other
well-formed frame yields a message.
Missing from the full claim: these frames should be `GenericMessage`s. -/
theorem C08_unknown_who_partial (m : Str) :
    (parseMessage m = .error .valueError ↔ ∃ ts s, PyFrame m ts ∧ WhoText ts s ∧ ∀ w : Who, s ≠ w.code) ∧
    (∀ ts, PyFrame m ts → (∀ s, WhoText ts s → ∃ w : Who, s = w.code) → ∃ r, parseMessage m = .ok r) := by
  constructor
  · rw [parseMessage_error_iff]
    constructor
    · rintro (⟨ts, s, h1, h2, h3, _⟩ | ⟨_, _, s, h⟩)
      · exact ⟨ts, s, h1, h2, h3⟩
      · cases h
    · rintro ⟨ts, s, h1, h2, h3⟩; exact .inl ⟨ts, s, h1, h2, h3, rfl⟩
  · intro ts hf hw
    cases h : parseMessage m with
    | ok r => exact ⟨r, rfl⟩
    | error e =>
      rcases (parseMessage_error_iff m e).mp h with ⟨us, s, h1, h2, h3, _⟩ | ⟨hn, _⟩
      · cases pyFrame_unique hf h1
        obtain ⟨w, e⟩ := hw s h2
        exact absurd e (h3 w)
      · exact absurd ⟨ts, hf⟩ hn

/-! ## C09: print after parse -/

/-- Frames that do not survive a round trip: a dimension frame without values whose dimension has a `#`, or a writing
with a parameterised dimension. -/
def Spec.Lossy (ts : List Str) : Prop :=
  (∃ w : Who, ∃ a d, ts = ['#' :: w.code, a, d] ∧ '#' ∈ d) ∨
  (∃ w : Who, ∃ a d vs, ts = ('#' :: w.code) :: a :: ('#' :: d) :: vs ∧ ¬ Digits d)

theorem padded_strip {s m : Str} (h : Padded PyWs s m) : strip m = strip s := by
  obtain ⟨u, v, hu, hv, rfl⟩ := h; exact strip_pad hu hv

theorem str_padded_iff {m : Str} {ts : List Str} (hf : PyFrame m ts) (r : Msg) (hr : ∀ t ∈ printTags r, TagText t) :
    Padded PyWs r.str m ↔ printTags r = ts := by
  obtain ⟨h1, h2, h3, _⟩ := hf
  constructor
  · intro h
    have := (padded_strip h).symm.trans (padded_strip h3)
    rw [str_eq_frame, strip_frame (printTags_ne r), strip_frame h1] at this
    exact (frame_eq_iff (printTags_ne r) hr h1 h2).mp this
  · rintro rfl; rw [str_eq_frame]; exact h3

theorem printValues_mk (vs : List Str) (h : vs ≠ []) : printValues (vs.map Tag.mk) = vs := by
  simp [printValues, h, Function.comp_def]

theorem not_digits_of_hash {d : Str} (h : '#' ∈ d) : ¬ Digits d := fun hd => Digits.not_hash hd h

theorem hash_of_not_digits {d : Str} (hd : TagText d) (h : ¬ Digits d) : '#' ∈ d := by
  by_contra hn
  apply h
  intro c hc
  have := hd c hc
  have hne : c ≠ '#' := fun e => hn (e ▸ hc)
  simp only [TagChar, List.mem_cons, List.not_mem_nil, or_false] at this ⊢
  tauto

theorem printTags_frameOf {ts : List Str} {r : Msg} (hne : ts ≠ []) (hv : ∀ t ∈ ts, TagText t) (h : FrameOf ts r) :
    (∀ t ∈ printTags r, TagText t) ∧ (printTags r = ts ↔ ¬ Lossy ts) := by
  have hmk : ∀ vs : List Str, (∀ t ∈ vs, TagText t) → ∀ t ∈ printValues (vs.map Tag.mk), TagText t := by
    intro vs h
    by_cases e : vs = []
    · subst e; simp [printValues, TagText.nil]
    · rw [printValues_mk vs e]; exact h
  have notLossy : ∀ {us : List Str}, us.length ≤ 2 → ¬ Lossy us := by
    rintro us h (⟨w, a, d, rfl, _⟩ | ⟨w, a, d, vs, rfl, _⟩) <;> simp at h
  cases h with
  | ack => exact ⟨by simpa [printTags] using hv, by simp [printTags, notLossy]⟩
  | nack => exact ⟨by simpa [printTags] using hv, by simp [printTags, notLossy]⟩
  | @normal w a b =>
    refine ⟨hv, (iff_true_left rfl).mpr ?_⟩
    rintro (⟨w', a', d', e, _⟩ | ⟨w', a', d', vs, e, _⟩) <;> simp at e <;> exact w.code_ne_hash _ e.1
  | status => exact ⟨hv, by simp [printTags, notLossy]⟩
  | @dimReq w a d hd =>
    refine ⟨hv, (iff_true_left rfl).mpr ?_⟩
    rintro (⟨w', a', d', e, hh⟩ | ⟨w', a', d', vs, e, _⟩)
    · simp at e; rw [← e.2.2] at hh; exact Digits.not_hash hd hh
    · simp at e; exact Digits.not_hash hd (by rw [e.2.2.1]; simp)
  | @dimWrite w a d vs hd =>
    refine ⟨?_, ?_⟩
    · have := hmk vs (fun t ht => hv t (by simp [ht]))
      simp only [printTags, List.mem_cons, forall_eq_or_imp]
      exact ⟨hv _ (by simp), hv _ (by simp), hv _ (by simp), this⟩
    · simp only [printTags, List.cons.injEq, true_and]
      by_cases e : vs = []
      · subst e
        simp only [printValues, List.map_nil, if_true, reduceCtorEq, false_iff, not_not]
        exact .inl ⟨w, a, '#' :: d, rfl, by simp⟩
      · rw [printValues_mk vs e]
        simp only [true_iff]
        rintro (⟨w', a', d', e', _⟩ | ⟨w', a', d', vs', e', h⟩)
        · simp at e'; exact e e'.2.2.2
        · simp at e'; exact h (e'.2.2.1 ▸ hd)
  | @dimResp w a d vs h1 h2 =>
    refine ⟨?_, ?_⟩
    · have := hmk vs (fun t ht => hv t (by simp [ht]))
      simp only [printTags, List.mem_cons, forall_eq_or_imp]
      exact ⟨hv _ (by simp), hv _ (by simp), hv _ (by simp), this⟩
    · simp only [printTags, List.cons.injEq, true_and]
      by_cases e : vs = []
      · subst e
        simp only [printValues, List.map_nil, if_true, reduceCtorEq, false_iff, not_not]
        refine .inl ⟨w, a, d, rfl, hash_of_not_digits (hv _ (by simp)) ?_⟩
        rcases h2 with h2 | h2
        · exact absurd rfl h2
        · exact h2
      · rw [printValues_mk vs e]
        simp only [true_iff]
        rintro (⟨w', a', d', e', _⟩ | ⟨w', a', d', vs', e', h⟩)
        · simp at e'; exact e e'.2.2.2
        · simp at e'; exact h1 _ e'.2.2.1
  | @dimRespHash w a d vs hd =>
    refine ⟨?_, ?_⟩
    · have := hmk vs (fun t ht => hv t (by simp [ht]))
      simp only [printTags, List.mem_cons, forall_eq_or_imp]
      exact ⟨hv _ (by simp), hv _ (by simp), TagText.cons_hash.mp (hv _ (by simp)), this⟩
    · constructor
      · intro e
        simp only [printTags, List.cons.injEq, true_and] at e
        exact absurd e.1.symm (List.cons_ne_self _ _)
      · intro hn; exact absurd (.inr ⟨w, a, d, vs, rfl, hd⟩) hn
  | @generic ts hs =>
    have e : printTags (.generic ts) = ts := by simp [printTags, hne]
    refine ⟨e.symm ▸ hv, (iff_true_left e).mpr ?_⟩
    rintro (⟨w, a, d, rfl, _⟩ | ⟨w, a, d, vs, rfl, _⟩) <;> exact hs (structured_hash w.code_ne_nil)

/-- C09 (partial): `str(parse_message(m))` is `m` without surrounding whitespace exactly for the frames that are not
`Lossy`.  Missing from the full claim: the lossy frames. -/
theorem C09_print_parse_partial (m : Str) (ts : List Str) (r : Msg) (hf : PyFrame m ts)
    (h : parseMessage m = .ok r) : Padded PyWs r.str m ↔ ¬ Lossy ts := by
  obtain ⟨us, hf', hr⟩ := (parseMessage_ok_iff m r).mp h
  cases pyFrame_unique hf hf'
  obtain ⟨h1, h2⟩ := printTags_frameOf hf.1 hf.2.1 hr
  rw [str_padded_iff hf r h1, h2]

/-- C09: the same with `strip`. -/
theorem C09_print_parse_strip (m : Str) (ts : List Str) (r : Msg) (hf : PyFrame m ts) (h : parseMessage m = .ok r)
    (hl : ¬ Lossy ts) : r.str = strip m := by
  have hp := (C09_print_parse_partial m ts r hf h).mpr hl
  rw [padded_strip hp, str_eq_frame, strip_frame (printTags_ne r)]

/-- C09 refuted: the documented energy request prints back with an extra `*`. -/
theorem C09_print_parse_refuted :
    ∃ m r, parseMessage m = .ok r ∧ r.str ≠ strip m ∧ m = cs!"*#18*51*511#1##" ∧ r.str = cs!"*#18*51*511#1*##" :=
  ⟨_, _, C69_parameterised_dimension_refuted.1, by decide +kernel, rfl, by decide +kernel⟩

example : ∃ r, parseMessage cs!"\t*#1*12*1*100*50## " = .ok r ∧ r.str = cs!"*#1*12*1*100*50##" :=
  ⟨.dimResp .lighting ⟨cs!"12"⟩ ⟨cs!"1"⟩ [⟨cs!"100"⟩, ⟨cs!"50"⟩], by decide +kernel, by decide +kernel⟩

/-! ## C10: parse after print -/

/-- Messages whose printed form denotes them. -/
def Spec.Faithful : Msg → Prop
  | .ack | .nack | .normal .. | .status .. => True
  | .dimReq _ _ d => Digits d.string
  | .dimWrite _ _ d vs => Digits d.string ∧ vs ≠ []
  | .dimResp _ _ d vs => (∀ r, d.string ≠ '#' :: r) ∧ vs ≠ []
  | .generic ts => ts ≠ [] ∧ ¬ Structured ts

theorem map_mk_string (vs : List Tag) : (vs.map (·.string)).map Tag.mk = vs := by
  simp [Function.comp_def]

theorem frameOf_printTags (m : Msg) : FrameOf (printTags m) m ↔ Faithful m := by
  constructor
  · intro h
    cases m with
    | ack => trivial
    | nack => trivial
    | normal => trivial
    | status => trivial
    | dimReq w a d =>
      cases h' : d.string with
      | nil => simp [Faithful, h', Digits.nil]
      | cons c s =>
        generalize hts : printTags (.dimReq w a d) = ts at h
        cases h with
        | dimReq hd => exact hd
    | dimWrite w a d vs =>
      generalize hts : printTags (.dimWrite w a d vs) = ts at h
      cases h with
      | @dimWrite _ a' d' vs' hd =>
        refine ⟨hd, ?_⟩
        intro e
        simp at e; subst e
        simp [printTags, printValues] at hts
    | dimResp w a d vs =>
      generalize hts : printTags (.dimResp w a d vs) = ts at h
      cases h with
      | @dimResp _ a' d' vs' h1 h2 =>
        refine ⟨h1, ?_⟩
        intro e
        simp at e; subst e
        simp [printTags, printValues] at hts
      | @dimRespHash _ a' d' vs' h1 =>
        simp [printTags] at hts
    | generic ts =>
      have hne := printTags_ne (.generic ts)
      generalize hts : printTags (.generic ts) = us at h hne
      cases h with
      | generic hs => exact ⟨hne, hs⟩
  · intro h
    cases m with
    | ack => exact .ack
    | nack => exact .nack
    | normal w a b => exact .normal
    | status w a => exact .status
    | dimReq w a d => exact .dimReq h
    | dimWrite w a d vs =>
      have e : printValues vs = vs.map (·.string) := by simp [printValues, h.2]
      have := FrameOf.dimWrite (w := w) (a := a.string) (vs := vs.map (·.string)) h.1
      rw [map_mk_string] at this
      rw [printTags, e]; exact this
    | dimResp w a d vs =>
      have e : printValues vs = vs.map (·.string) := by simp [printValues, h.2]
      have := FrameOf.dimResp (w := w) (a := a.string) (vs := vs.map (·.string)) h.1 (.inl (by simpa using h.2))
      rw [map_mk_string] at this
      rw [printTags, e]; exact this
    | generic ts =>
      rw [printTags, if_neg h.1]; exact .generic h.2

/-- C10 (partial): a message made of valid tags parses back to itself exactly when it is `Faithful` and its text has a
single terminator.  Missing from the full claim: the other messages. -/
theorem C10_parse_print_partial (m : Msg) (hv : ∀ t ∈ m.tags, TagText t) :
    parseMessage m.str = .ok m ↔ Faithful m ∧ OneHH m.str := by
  have hp := (Msg.tags_valid_iff m).mp hv
  rw [parseMessage_ok_iff, str_eq_frame, ← frameOf_printTags]
  have pad : Padded PyWs (frame (printTags m)) (frame (printTags m)) := ⟨[], [], by simp, by simp, by simp⟩
  constructor
  · rintro ⟨ts, hf, hr⟩
    have h1 : OneHH (frame (printTags m)) := hf.2.2.2
    have : PyFrame (frame (printTags m)) (printTags m) := ⟨printTags_ne m, hp, pad, h1⟩
    cases pyFrame_unique hf this
    exact ⟨hr, h1⟩
  · rintro ⟨hr, h1⟩
    exact ⟨_, ⟨printTags_ne m, hp, pad, h1⟩, hr⟩

/-- C10 refuted: a request with a parameterised dimension comes back as a response; a normal message with a `##` in a
tag does not come back at all. -/
theorem C10_parse_print_refuted :
    (∃ m : Msg, (∀ t ∈ m.tags, TagText t) ∧ ∃ m', parseMessage m.str = .ok m' ∧ m'.type ≠ m.type) ∧
    (∃ m : Msg, (∀ t ∈ m.tags, TagText t) ∧ ∃ s, parseMessage m.str = .error (.invalidMessage s)) :=
  ⟨⟨.dimReq .energyManagement ⟨cs!"51"⟩ ⟨cs!"511#1"⟩, by simp [Msg.tags, TagText, TagChar, Who.code],
      .dimResp .energyManagement ⟨cs!"51"⟩ ⟨cs!"511#1"⟩ [], by decide +kernel, by decide⟩,
    ⟨.normal .lighting ⟨cs!"1##"⟩ ⟨cs!"12"⟩, by simp [Msg.tags, TagText, TagChar, Who.code], _, by rfl⟩⟩

example : Faithful (.dimWrite .gateway ⟨[]⟩ ⟨cs!"0"⟩ [⟨cs!"21"⟩, ⟨cs!"10"⟩]) ∧
    parseMessage (Msg.dimWrite .gateway ⟨[]⟩ ⟨cs!"0"⟩ [⟨cs!"21"⟩, ⟨cs!"10"⟩]).str =
      .ok (.dimWrite .gateway ⟨[]⟩ ⟨cs!"0"⟩ [⟨cs!"21"⟩, ⟨cs!"10"⟩]) :=
  ⟨⟨by simp [Digits], by simp⟩, by decide +kernel⟩

/-! ## C11: whitespace -/

/-- The class of an outcome, without the text an exception carries. -/
def outcome (x : Except Err Msg) : Except (Bool ⊕ Err) Msg :=
  match x with
  | .ok m => .ok m
  | .error (.invalidMessage _) => .error (.inl true)
  | .error e => .error (.inr e)

/-- C11: padding a text with whitespace changes neither the parsed message nor the class of the exception. -/
theorem C11_whitespace (u v m : Str) (hu : ∀ c ∈ u, PyWs c) (hv : ∀ c ∈ v, PyWs c) :
    outcome (parseMessage (u ++ m ++ v)) = outcome (parseMessage m) := by
  have hs : strip (u ++ m ++ v) = strip m := strip_pad hu hv
  have hc : count2 '#' '#' (u ++ m ++ v) = count2 '#' '#' m := by rw [← count2_strip, hs, count2_strip]
  unfold parseMessage
  rw [hs, hc]
  by_cases h : count2 '#' '#' m ≠ 1
  · simp [h, outcome]
  · simp [h]

/-- C11: in particular success is preserved in both directions, with the same message. -/
theorem C11_whitespace_ok (u v m : Str) (r : Msg) (hu : ∀ c ∈ u, PyWs c) (hv : ∀ c ∈ v, PyWs c) :
    parseMessage (u ++ m ++ v) = .ok r ↔ parseMessage m = .ok r := by
  have h := C11_whitespace u v m hu hv
  have key : ∀ x : Except Err Msg, outcome x = .ok r ↔ x = .ok r := by
    intro x
    cases x with
    | ok y => simp [outcome]
    | error e => cases e <;> simp [outcome]
  rw [← key, h, key]

example : parseMessage cs!"\n *#*1##\t" = parseMessage cs!"*#*1##" := by decide +kernel

/-! ## C12: equality and hashing -/

/-- C12: `==` holds exactly when class and tag texts agree, and then the messages have the same fields. -/
theorem C12_eq_iff (a b : Msg) :
    (a.pyEq b = true ↔ a.type = b.type ∧ a.tags = b.tags) ∧ (a.pyEq b = true ↔ a = b) := by
  have ht : ∀ vs vs' : List Tag, vs.map (·.string) = vs'.map (·.string) → vs = vs' := by
    intro vs vs' h
    have := congrArg (List.map Tag.mk) h
    rwa [map_mk_string, map_mk_string] at this
  have hT : ∀ t t' : Tag, t.string = t'.string → t = t' := by
    rintro ⟨s⟩ ⟨s'⟩ h; cases h; rfl
  have key : a.pyEq b = true ↔ a.type = b.type ∧ a.tags = b.tags := by
    cases a <;> cases b <;> simp [Msg.pyEq, Msg.type]
  refine ⟨key, key.trans ⟨?_, by rintro rfl; exact ⟨rfl, rfl⟩⟩⟩
  rintro ⟨h1, h2⟩
  cases a <;> cases b <;> simp [Msg.type] at h1 <;> simp [Msg.tags] at h2 ⊢
  · exact ⟨Who.code_inj h2.1, hT _ _ h2.2.1, hT _ _ h2.2.2⟩
  · exact ⟨Who.code_inj h2.1, hT _ _ h2.2⟩
  · exact ⟨Who.code_inj h2.1, hT _ _ h2.2.1, hT _ _ h2.2.2⟩
  · exact ⟨Who.code_inj h2.1, hT _ _ h2.2.1, hT _ _ h2.2.2.1, ht _ _ h2.2.2.2⟩
  · exact ⟨Who.code_inj h2.1, hT _ _ h2.2.1, hT _ _ h2.2.2.1, ht _ _ h2.2.2.2⟩
  · exact h2

/-- C12: `==` is an equivalence relation. -/
theorem C12_equivalence : Equivalence (fun a b : Msg => a.pyEq b = true) where
  refl a := (C12_eq_iff a a).2.mpr rfl
  symm {a b} h := (C12_eq_iff b a).2.mpr ((C12_eq_iff a b).2.mp h).symm
  trans {a b c} h h' := (C12_eq_iff a c).2.mpr (((C12_eq_iff a b).2.mp h).trans ((C12_eq_iff b c).2.mp h'))

/-- C12: equal messages have the same bytes. -/
theorem C12_bytes (a b : Msg) (h : a.pyEq b = true) : a.bytes = b.bytes := by
  rw [(C12_eq_iff a b).2.mp h]

/-- C12 (partial): equal messages that are not `GenericMessage`s have equal hashes.
Missing from the full claim: `GenericMessage`. -/
theorem C12_hash_partial (h : MsgType × List Str → Int) (a b : Msg) (hg : a.type ≠ .generic) (e : a.pyEq b = true) :
    ∃ n, a.pyHash h = .ok n ∧ b.pyHash h = .ok n := by
  cases (C12_eq_iff a b).2.mp e
  cases a <;> simp [Msg.type] at hg <;> exact ⟨_, rfl, rfl⟩

/-- C12, hash clause refuted: hashing any parsed `GenericMessage` raises `TypeError`. -/
theorem C12_hash_refuted : ∃ m r, parseMessage m = .ok r ∧ ∀ h, r.pyHash h = .error .typeError :=
  ⟨cs!"*99*0##", .generic [cs!"99", cs!"0"], by decide +kernel, fun _ => rfl⟩

example : (Msg.status .lighting ⟨cs!"12"⟩).pyEq (.status .lighting ⟨cs!"12"⟩) = true := by decide

/-! ## C13: bytes -/

/-- The bytes of `0-9 * #`. -/
def Spec.wireByte (b : UInt8) : Prop := b ∈ ([48, 49, 50, 51, 52, 53, 54, 55, 56, 57, 42, 35] : List UInt8)

theorem encodeAscii_wire {s : Str} (h : ∀ c ∈ s, c ∈ cs!"0123456789*#") :
    Msg.encodeAscii s = .ok (s.map (fun c => c.toNat.toUInt8)) ∧
      ∀ b ∈ s.map (fun c => c.toNat.toUInt8), wireByte b := by
  constructor
  · have : s.all (fun c => decide (c.toNat < 128)) = true := by
      rw [List.all_eq_true]
      intro c hc
      have := h c hc
      simp only [List.mem_cons, List.not_mem_nil, or_false] at this
      rcases this with rfl | rfl | rfl | rfl | rfl | rfl | rfl | rfl | rfl | rfl | rfl | rfl <;> decide
    simp only [Msg.encodeAscii, this, if_true]
  · intro b hb
    obtain ⟨c, hc, rfl⟩ := List.mem_map.mp hb
    have := h c hc
    simp only [List.mem_cons, List.not_mem_nil, or_false] at this
    rcases this with rfl | rfl | rfl | rfl | rfl | rfl | rfl | rfl | rfl | rfl | rfl | rfl <;> simp [wireByte]

/-- C13: the bytes of a message made of valid tags: `*`, then wire bytes, then `##`. -/
theorem C13_bytes (m : Msg) (hv : ∀ t ∈ m.tags, TagText t) :
    ∃ x, m.bytes = .ok (42 :: x ++ [35, 35]) ∧ ∀ b ∈ x, wireByte b := by
  have hp := (Msg.tags_valid_iff m).mp hv
  have hne := printTags_ne m
  have hj : ∀ c ∈ join ['*'] (printTags m), c ∈ cs!"0123456789*#" := by
    intro c hc
    have := body_valid hp c
    rw [MsgRe.body_eq_join hne] at this
    exact this (by simp [hc])
  have hall : ∀ c ∈ m.str, c ∈ cs!"0123456789*#" := by
    intro c hc
    rw [str_eq_frame, frame_eq hne] at hc
    simp only [List.mem_cons, List.mem_append, List.not_mem_nil, or_false] at hc
    rcases hc with rfl | hc | rfl | rfl
    · simp
    · exact hj c hc
    · simp
    · simp
  refine ⟨(join ['*'] (printTags m)).map (fun c => c.toNat.toUInt8), ?_, (encodeAscii_wire hj).2⟩
  rw [Msg.bytes, (encodeAscii_wire hall).1, str_eq_frame, frame_eq hne]
  simp

/-- C13 (partial): the text of a message has no terminator before its end exactly when no printed tag contains `##`
and the last printed tag does not end in `#`.
Missing from the full claim: the constructors accept tags with `##`. -/
theorem C13_one_terminator_partial (m : Msg) :
    (∃ b, m.str = b ++ cs!"##" ∧ ¬ HasHH (b ++ cs!"#")) ↔
      (∀ t ∈ printTags m, ¬ HasHH t) ∧ ∀ t, (printTags m).getLast? = some t → t.getLast? ≠ some '#' := by
  rw [← not_hasHH_body_hash (printTags_ne m), str_eq_frame, frame]
  constructor
  · rintro ⟨b, h1, h2⟩; rwa [List.append_cancel_right h1]
  · intro h; exact ⟨_, rfl, h⟩

/-- The tags a program can get: by the constructor from a string or an int, by adding parameters. -/
inductive Made : Tag → Prop
  | str {s t} : Tag.ofStr s = .ok t → Made t
  | int {n t} : Tag.ofInt n = .ok t → Made t
  | parameter {t p t'} : Made t → t.withParameter p = .ok t' → Made t'
  | parameterInt {t n t'} : Made t → t.withParameterInt n = .ok t' → Made t'

theorem Made.tagText {t : Tag} (h : Made t) : TagText t.string := by
  have str : ∀ {s t}, Tag.ofStr s = .ok t → TagText t.string := by
    intro s t h
    rcases C01_tag_str s with ⟨h1, h2⟩ | ⟨_, h2⟩
    · rw [h2] at h; cases h; exact h1
    · rw [h2] at h; cases h
  cases h with
  | str h => exact str h
  | int h =>
    obtain ⟨k, _, hn, _⟩ := (C01_tag_int _ _).1 h
    rw [(numeral_iff _ _).1 hn]
    exact TagText.of_digits (natToStr_digits k)
  | parameter _ h => exact str h
  | parameterInt _ h =>
    unfold Tag.withParameterInt at h
    rename_i n _
    rcases hs : strInt n with e | s
    · rw [hs] at h; cases h
    · rw [hs] at h; exact str h

/-- C13: so every message made of tags that the constructors give goes out as one line of digits, `*` and `#`. -/
theorem C13_constructed (m : Msg) (hm : ∀ t ∈ m.tags, Made ⟨t⟩) :
    ∃ x, m.bytes = .ok (42 :: x ++ [35, 35]) ∧ ∀ b ∈ x, wireByte b :=
  C13_bytes m fun t ht => (hm t ht).tagText

example : Made ⟨cs!"12#4"⟩ := .parameter (p := cs!"4") (.int (n := 12) (t := ⟨cs!"12"⟩) (by decide)) (by decide)

/-- C13, terminator clause refuted: a tag accepted by the constructors smuggles a terminator, so one message is two
frames on the bus. -/
theorem C13_one_terminator_refuted :
    ∃ t, Tag.ofStr cs!"1##" = .ok t ∧
      (Msg.normal .lighting t ⟨cs!"12"⟩).str = frame [cs!"1", cs!"1"] ++ frame [cs!"12"] :=
  ⟨⟨cs!"1##"⟩, by decide, by decide⟩

example : (Msg.normal .lighting ⟨cs!"1"⟩ ⟨cs!"12"⟩).bytes = .ok [42, 49, 42, 49, 42, 49, 50, 35, 35] := by decide

/-! ## C14: ACK and NACK -/

/-- C14: `parse_message` returns an ACK exactly on `*#*1##`, a NACK exactly on `*#*0##`, up to whitespace. -/
theorem C14_ack_nack (m : Str) :
    (parseMessage m = .ok .ack ↔ Padded PyWs cs!"*#*1##" m) ∧ (parseMessage m = .ok .nack ↔ Padded PyWs cs!"*#*0##" m) := by
  have one : ∀ {s}, (∃ d : Char, d ≠ '#' ∧ s = ['*', '#', '*', d, '#', '#']) → Padded PyWs s m → OneHH m := by
    rintro s ⟨d, hd, rfl⟩ h
    rw [← count2_one_iff, ← count2_strip, padded_strip h]
    have : strip ['*', '#', '*', d, '#', '#'] = ['*', '#', '*', d, '#', '#'] :=
      strip_eq_self (by simp [isSpace_star]) (by simp [isSpace_hash])
    rw [this]
    simp [count2, hd]
  constructor
  · rw [parseMessage_ok_iff]
    constructor
    · rintro ⟨ts, hf, hr⟩; cases hr; exact hf.2.2.1
    · intro h
      exact ⟨[cs!"#", cs!"1"], ⟨by simp, by simp [TagText, TagChar], h, one ⟨'1', by decide, rfl⟩ h⟩, .ack⟩
  · rw [parseMessage_ok_iff]
    constructor
    · rintro ⟨ts, hf, hr⟩; cases hr; exact hf.2.2.1
    · intro h
      exact ⟨[cs!"#", cs!"0"], ⟨by simp, by simp [TagText, TagChar], h, one ⟨'0', by decide, rfl⟩ h⟩, .nack⟩

/-- C14 (partial), `ACK.parse`/`NACK.parse`: their own tag list is accepted; what is accepted is exactly a list whose
first tag is `#` or whose second is the right digit.
Missing from the full claim: lists with only one of the two are accepted as well. -/
theorem C14_class_parse_partial (tags : List Str) :
    (Msg.parseAck tags = .ok .ack ↔ tags.head? = some cs!"#" ∨ (tags ≠ [] ∧ tags[1]? = some cs!"1")) ∧
    (Msg.parseNack tags = .ok .nack ↔ tags.head? = some cs!"#" ∨ (tags ≠ [] ∧ tags[1]? = some cs!"0")) := by
  rcases tags with _ | ⟨a, _ | ⟨b, rest⟩⟩
  · constructor <;> simp [Msg.parseAck, Msg.parseNack, index]
  · constructor <;> by_cases h : a = cs!"#" <;> simp [Msg.parseAck, Msg.parseNack, index, h]
  · constructor <;> by_cases h : a = cs!"#"
    · simp [Msg.parseAck, index, h]
    · by_cases h' : b = cs!"1" <;> simp [Msg.parseAck, index, h, h']
    · simp [Msg.parseNack, index, h]
    · by_cases h' : b = cs!"0" <;> simp [Msg.parseNack, index, h, h']

/-- C14, class-parser clause refuted: `ACK.parse(["#", "0"])` returns an ACK. -/
theorem C14_class_parse_refuted : Msg.parseAck [cs!"#", cs!"0"] = .ok .ack ∧ Msg.parseNack [cs!"#", cs!"1"] = .ok .nack := by
  constructor <;> decide

example : parseMessage cs!"*#*1##" = .ok .ack := by decide +kernel
