import Verif.Proofs.Regex
import Verif.Spec.Grammar

/-! # Analysis of `parse_message` -/

open Py Spec

/-! ### occurrences of `##` -/

theorem hasHH_cons_iff (c : Char) (s : Str) :
    HasHH (c :: s) ↔ (c = '#' ∧ s.head? = some '#') ∨ HasHH s := by
  constructor
  · rintro ⟨u, v, h⟩
    cases u with
    | nil =>
      simp at h
      obtain ⟨rfl, rfl⟩ := h
      exact .inl ⟨rfl, rfl⟩
    | cons d u =>
      simp at h
      exact .inr ⟨u, v, by simpa using h.2⟩
  · rintro (⟨rfl, h⟩ | ⟨u, v, rfl⟩)
    · cases s with
      | nil => simp at h
      | cons d s => simp at h; subst h; exact ⟨[], s, rfl⟩
    · exact ⟨c :: u, v, by simp⟩

theorem not_hasHH_nil : ¬ HasHH [] := by
  rintro ⟨u, v, h⟩; simp at h

theorem count2_zero_iff (s : Str) : count2 '#' '#' s = 0 ↔ ¬ HasHH s := by
  fun_induction count2 '#' '#' s with
  | case1 => simp [not_hasHH_nil]
  | case2 c => simp [hasHH_cons_iff, not_hasHH_nil]
  | case3 c d s h ih => simp [hasHH_cons_iff, h]
  | case4 c d s h ih =>
    rw [ih, hasHH_cons_iff c]
    simp only [List.head?_cons, Option.some.injEq]
    tauto

theorem not_oneHH_nil : ¬ OneHH [] := by rintro ⟨u, v, h, _⟩; simp at h

/-- Counting one terminator is having exactly one, from the left. -/
theorem count2_one_iff (s : Str) : count2 '#' '#' s = 1 ↔ OneHH s := by
  fun_induction count2 '#' '#' s with
  | case1 => simp [not_oneHH_nil]
  | case2 c =>
    simp only [Nat.zero_ne_one, false_iff]
    rintro ⟨u, v, h, _⟩
    have := congrArg List.length h
    simp at this; omega
  | case3 c d s h ih =>
    obtain ⟨rfl, rfl⟩ := h
    rw [Nat.add_eq_right, count2_zero_iff]
    constructor
    · intro h
      refine ⟨[], s, rfl, ?_, h⟩
      rw [← count2_zero_iff]; rfl
    · rintro ⟨u, v, h, h1, h2⟩
      cases u with
      | nil => simp at h; subst h; exact h2
      | cons e u =>
        exfalso
        simp at h
        obtain ⟨rfl, h⟩ := h
        apply h1
        cases u with
        | nil => exact ⟨[], [], rfl⟩
        | cons e u => simp at h; rw [← h.1]; exact ⟨[], u ++ cs!"#", by simp⟩
  | case4 c d s h ih =>
    refine ih.trans ?_
    constructor
    · rintro ⟨u, v, e, h1, h2⟩
      refine ⟨c :: u, v, by rw [e]; simp, ?_, h2⟩
      rw [List.cons_append, hasHH_cons_iff]
      rintro (⟨rfl, hh⟩ | hh)
      · apply h
        refine ⟨rfl, ?_⟩
        cases u with
        | nil => simp at e; exact e.1
        | cons x u => simp at hh e; rw [← hh]; exact e.1
      · exact h1 hh
    · rintro ⟨u, v, e, h1, h2⟩
      cases u with
      | nil => simp at e; exact absurd ⟨e.1, e.2.1⟩ h
      | cons x u =>
        simp at e
        obtain ⟨rfl, e⟩ := e
        refine ⟨u, v, by simpa using e, ?_, h2⟩
        intro hh; apply h1
        rw [List.cons_append, hasHH_cons_iff]; exact .inr hh

/-! ### frames -/

theorem body_cons (t : Str) (ts : List Str) : body (t :: ts) = '*' :: t ++ body ts := rfl

theorem frame_eq {ts : List Str} (h : ts ≠ []) : frame ts = '*' :: (join ['*'] ts ++ ['#', '#']) := by
  rw [frame, MsgRe.body_eq_join h]; rfl

theorem frame_tags {ts : List Str} (h : ts ≠ []) (hs : ∀ t ∈ ts, '*' ∉ t) :
    split1 '*' (removeSuffix (removePrefix (frame ts) cs!"*") cs!"##") = ts := by
  rw [frame_eq h, show ('*' :: (join ['*'] ts ++ ['#', '#']) : Str) = cs!"*" ++ (join ['*'] ts ++ ['#', '#']) from rfl,
    removePrefix_append, removeSuffix_append, split1_join h hs]

/-- A frame determines its tags. -/
theorem frame_inj {ts us : List Str} (ht : ts ≠ []) (hu : us ≠ []) (hts : ∀ t ∈ ts, '*' ∉ t)
    (hus : ∀ t ∈ us, '*' ∉ t) (h : frame ts = frame us) : ts = us := by
  rw [← frame_tags ht hts, ← frame_tags hu hus, h]

theorem frame_getLast (ts : List Str) : (frame ts).getLast? = some '#' := by
  simp [frame]

theorem frame_head {ts : List Str} (h : ts ≠ []) : (frame ts).head? = some '*' := by
  rw [frame_eq h]; rfl

theorem strip_frame {ts : List Str} (h : ts ≠ []) : strip (frame ts) = frame ts := by
  apply strip_eq_self
  · intro c hc; rw [frame_head h] at hc; cases hc; exact isSpace_star
  · intro c hc; rw [frame_getLast] at hc; cases hc; exact isSpace_hash

theorem pyMatch_frame (r : Re) (ts : List Str) : r.pyMatch (frame ts) = true ↔ r.Lang (frame ts) := by
  rw [Re.pyMatch_eq (by rw [frame_getLast]; decide), Re.accepts_iff]

/-! ### shapes of tag lists -/

/-- Tag lists accepted by the DimensionRequest pattern. -/
def isDimReq : List Str → Bool
  | [('#' :: _ :: _), _, d] => d.all isDigit
  | _ => false

/-- Tag lists accepted by the DimensionWriting pattern. -/
def isDimWrite : List Str → Bool
  | ('#' :: _ :: _) :: _ :: ('#' :: d) :: _ => d.all isDigit
  | _ => false

/-- Tag lists accepted by the DimensionResponse pattern. -/
def isDimResp : List Str → Bool
  | ('#' :: _ :: _) :: _ :: _ :: _ => true
  | _ => false

/-- Tag lists accepted by the NormalMessage pattern. -/
def isNormal : List Str → Bool
  | [_ :: _, _, _] => true
  | _ => false

/-- Tag lists accepted by the StatusRequest pattern. -/
def isStatus : List Str → Bool
  | ['#' :: _ :: _, _] => true
  | _ => false

/-- `parse_message` after the frame has been taken apart. -/
def parseTags (ts : List Str) : Except Err Msg :=
  if ts = [cs!"#", cs!"1"] then Msg.parseAck ts
  else if isDimReq ts then Msg.parseDimReq ts
  else if isDimWrite ts then Msg.parseDimWrite ts
  else if isDimResp ts then Msg.parseDimResp ts
  else if ts = [cs!"#", cs!"0"] then Msg.parseNack ts
  else if isNormal ts then Msg.parseNormal ts
  else if isStatus ts then Msg.parseStatus ts
  else Msg.parseGeneric ts

section
variable {ts : List Str} (hne : ts ≠ []) (hv : ∀ t ∈ ts, TagText t)
include hne hv

theorem frame_eq_iff {us : List Str} (hu : us ≠ []) (hu' : ∀ t ∈ us, TagText t) : frame ts = frame us ↔ ts = us :=
  ⟨fun h => frame_inj hne hu (fun t ht => TagText.not_star (hv t ht)) (fun t ht => TagText.not_star (hu' t ht)) h, fun h => by rw [h]⟩

theorem match_ack : MsgRe.ack.pyMatch (frame ts) = decide (ts = [cs!"#", cs!"1"]) := by
  rw [Bool.eq_iff_iff, pyMatch_frame, MsgRe.lang_ack, decide_eq_true_iff]
  apply frame_eq_iff hne hv (by simp)
  intro t ht
  rw [← isValidTag_iff]
  revert t; decide

theorem match_nack : MsgRe.nack.pyMatch (frame ts) = decide (ts = [cs!"#", cs!"0"]) := by
  rw [Bool.eq_iff_iff, pyMatch_frame, MsgRe.lang_nack, decide_eq_true_iff]
  apply frame_eq_iff hne hv (by simp)
  intro t ht
  rw [← isValidTag_iff]
  revert t; decide

theorem match_normal : MsgRe.normal.pyMatch (frame ts) = isNormal ts := by
  rw [Bool.eq_iff_iff, pyMatch_frame, MsgRe.lang_normal]
  constructor
  · rintro ⟨a, b, c, ha, h1, h2, h3, h⟩
    rw [frame_eq_iff hne hv (by simp) (by simp [h1, h2, h3])] at h
    subst h
    cases a with
    | nil => exact absurd rfl ha
    | cons => rfl
  · intro h
    unfold isNormal at h
    split at h
    · exact ⟨_, _, _, by simp, hv _ (by simp), hv _ (by simp), hv _ (by simp), rfl⟩
    · cases h

theorem match_status : MsgRe.status.pyMatch (frame ts) = isStatus ts := by
  rw [Bool.eq_iff_iff, pyMatch_frame, MsgRe.lang_status]
  constructor
  · rintro ⟨a, b, ha, h1, h2, h⟩
    rw [frame_eq_iff hne hv (by simp) (by simp [TagText.cons_hash, h1, h2])] at h
    subst h
    cases a with
    | nil => exact absurd rfl ha
    | cons => rfl
  · intro h
    unfold isStatus at h
    split at h
    · exact ⟨_, _, by simp, TagText.cons_hash.mp (hv _ (by simp)), hv _ (by simp), rfl⟩
    · cases h

theorem match_dimReq : MsgRe.dimReq.pyMatch (frame ts) = isDimReq ts := by
  rw [Bool.eq_iff_iff, pyMatch_frame, MsgRe.lang_dimReq]
  constructor
  · rintro ⟨a, b, d, ha, h1, h2, h3, h⟩
    rw [frame_eq_iff hne hv (by simp) (by simp [TagText.cons_hash, h1, h2, TagText.of_digits h3])] at h
    subst h
    cases a with
    | nil => exact absurd rfl ha
    | cons => exact (all_isDigit_iff d).mpr h3
  · intro h
    unfold isDimReq at h
    split at h
    · exact ⟨_, _, _, by simp, TagText.cons_hash.mp (hv _ (by simp)), hv _ (by simp), (all_isDigit_iff _).mp h, rfl⟩
    · cases h

theorem match_dimWrite : MsgRe.dimWrite.pyMatch (frame ts) = isDimWrite ts := by
  rw [Bool.eq_iff_iff, pyMatch_frame, MsgRe.lang_dimWrite]
  constructor
  · rintro ⟨a, b, d, vs, ha, h1, h2, h3, h4, h⟩
    rw [frame_eq_iff hne hv (by simp) (by simpa [TagText.cons_hash, h1, h2, TagText.of_digits h3] using h4)] at h
    subst h
    cases a with
    | nil => exact absurd rfl ha
    | cons => exact (all_isDigit_iff d).mpr h3
  · intro h
    unfold isDimWrite at h
    split at h
    · exact ⟨_, _, _, _, by simp, TagText.cons_hash.mp (hv _ (by simp)), hv _ (by simp), (all_isDigit_iff _).mp h,
        fun v hv' => hv v (by simp [hv']), rfl⟩
    · cases h

theorem match_dimResp : MsgRe.dimResp.pyMatch (frame ts) = isDimResp ts := by
  rw [Bool.eq_iff_iff, pyMatch_frame, MsgRe.lang_dimResp]
  constructor
  · rintro ⟨a, b, d, vs, ha, h1, h2, h3, h4, h⟩
    rw [frame_eq_iff hne hv (by simp) (by simpa [TagText.cons_hash, h1, h2, h3] using h4)] at h
    subst h
    cases a with
    | nil => exact absurd rfl ha
    | cons => rfl
  · intro h
    unfold isDimResp at h
    split at h
    · exact ⟨_, _, _, _, by simp, TagText.cons_hash.mp (hv _ (by simp)), hv _ (by simp), hv _ (by simp),
        fun v hv' => hv v (by simp [hv']), rfl⟩
    · cases h

theorem match_generic : MsgRe.generic.pyMatch (frame ts) = true := by
  rw [pyMatch_frame, MsgRe.lang_generic]
  exact ⟨ts, hne, hv, rfl⟩

theorem tryClasses_frame : tryClasses (frame ts) ts messageClasses = parseTags ts := by
  simp only [messageClasses, tryClasses, match_ack hne hv, match_dimReq hne hv, match_dimWrite hne hv,
    match_dimResp hne hv, match_nack hne hv, match_normal hne hv, match_status hne hv, decide_eq_true_eq, parseTags]

/-- `parse_message` on (padded) frames. -/
theorem parseMessage_frame {m : Str} (hm : strip m = frame ts) (hc : count2 '#' '#' m = 1) :
    parseMessage m = parseTags ts := by
  have hs : ∀ t ∈ ts, '*' ∉ t := fun t ht => TagText.not_star (hv t ht)
  unfold parseMessage
  simp only [hc, ne_eq, not_true_eq_false, if_false, hm, frame_tags hne hs, match_generic hne hv,
    Bool.true_eq_false, tryClasses_frame hne hv]

end

/-- `parse_message` rejects everything else with `InvalidMessage`. -/
theorem parseMessage_not_frame {m : Str} (h : ¬ ∃ ts, ts ≠ [] ∧ (∀ t ∈ ts, TagText t) ∧ strip m = frame ts ∧
    count2 '#' '#' m = 1) : ∃ s, parseMessage m = .error (.invalidMessage s) := by
  unfold parseMessage
  by_cases hc : count2 '#' '#' m = 1
  · have hg : MsgRe.generic.pyMatch (strip m) = false := by
      rw [← Bool.not_eq_true, Re.pyMatch_eq, Re.accepts_iff, MsgRe.lang_generic]
      · rintro ⟨ts, h1, h2, h3⟩
        exact h ⟨ts, h1, h2, h3, hc⟩
      · intro hl
        have := strip_getLast _ hl
        revert this; decide
    exact ⟨strip m, by simp [hc, hg]⟩
  · exact ⟨m, by simp [hc]⟩

theorem padded_frame_iff {ts : List Str} (h : ts ≠ []) (m : Str) :
    Padded (fun c => isSpace c = true) (frame ts) m ↔ strip m = frame ts := by
  constructor
  · rintro ⟨u, v, hu, hv, rfl⟩
    rw [strip_pad hu hv, strip_frame h]
  · intro hm
    obtain ⟨u, v, hu, hv, e⟩ := exists_ws_strip m
    exact ⟨u, v, hu, hv, by rw [← hm]; exact e⟩

theorem isFrame_iff (m : Str) (ts : List Str) : IsFrame (fun c => isSpace c = true) m ts ↔
    (ts ≠ [] ∧ (∀ t ∈ ts, TagText t) ∧ strip m = frame ts ∧ count2 '#' '#' m = 1) := by
  unfold IsFrame
  constructor
  · rintro ⟨h1, h2, h3, h4⟩
    exact ⟨h1, h2, (padded_frame_iff h1 m).mp h3, (count2_one_iff m).mpr h4⟩
  · rintro ⟨h1, h2, h3, h4⟩
    exact ⟨h1, h2, (padded_frame_iff h1 m).mpr h3, (count2_one_iff m).mp h4⟩

/-! ### tags -/

theorem Who.ofStr_ok_iff (s : Str) (w : Who) : Who.ofStr s = .ok w ↔ s = w.code := by
  constructor
  · intro h
    unfold Who.ofStr at h
    split at h
    · rename_i w' hw
      have := List.find?_some hw
      cases h
      exact (beq_iff_eq.mp this).symm
    · cases h
  · rintro rfl; cases w <;> rfl

theorem Who.ofStr_code (w : Who) : Who.ofStr w.code = .ok w := (Who.ofStr_ok_iff _ _).mpr rfl

theorem Who.ofStr_error {s : Str} (h : ∀ w : Who, s ≠ w.code) : Who.ofStr s = .error .valueError := by
  cases hs : Who.ofStr s with
  | ok w => exact absurd ((Who.ofStr_ok_iff s w).mp hs) (h w)
  | error e =>
    unfold Who.ofStr at hs
    split at hs
    · cases hs
    · exact hs.symm ▸ rfl

theorem Tag.ofStr_ok {s : Str} (h : TagText s) : Tag.ofStr s = .ok ⟨s⟩ := by
  simp [Tag.ofStr, (isValidTag_iff s).mpr h]

theorem mapM_ofStr {vs : List Str} (h : ∀ v ∈ vs, TagText v) :
    vs.mapM Tag.ofStr = .ok (vs.map Tag.mk) := by
  induction vs with
  | nil => rfl
  | cons v vs ih =>
    rw [List.mapM_cons, Tag.ofStr_ok (h v (by simp)), ih (fun x hx => h x (by simp [hx]))]
    rfl

theorem Who.code_ne_nil (w : Who) : w.code ≠ [] := by cases w <;> decide
theorem Who.code_digits (w : Who) : Digits w.code := by
  rw [← all_isDigit_iff]; cases w <;> decide
theorem Who.code_inj {w w' : Who} (h : w.code = w'.code) : w = w' := by
  have := Who.ofStr_code w
  rw [h, Who.ofStr_code] at this
  exact (Except.ok.inj this).symm
