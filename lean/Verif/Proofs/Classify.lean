import Verif.Proofs.Parse

/-! # The result of `parse_message` on frames -/

open Py Spec

theorem removePrefix_hash (s : Str) : removePrefix ('#' :: s) cs!"#" = s := removePrefix_append cs!"#" s

section
variable {x : Char} {a b c d : Str} {vs : List Str}

theorem parseTags_status (hb : TagText b) :
    parseTags ['#' :: x :: a, b] = (Who.ofStr (x :: a)).map (Msg.status · ⟨b⟩) := by
  simp [parseTags, isDimReq, isDimWrite, isDimResp, isNormal, isStatus, Msg.parseStatus, index,
    removePrefix_hash, Tag.ofStr_ok hb]
  cases Who.ofStr (x :: a) <;> rfl

theorem TagText_removePrefix (h : TagText d) : TagText (removePrefix d cs!"#") := by
  unfold removePrefix
  split
  · intro c hc; exact h c (List.mem_of_mem_drop hc)
  · exact h

/-- What a dimension tag list stands for once the WHO is known. -/
def dimMsg (w : Who) (b d : Str) (vs : List Str) : Msg :=
  if vs = [] ∧ d.all isDigit then .dimReq w ⟨b⟩ ⟨d⟩
  else if isDimWrite (cs!"#0" :: b :: d :: vs) then .dimWrite w ⟨b⟩ ⟨removePrefix d cs!"#"⟩ (vs.map Tag.mk)
  else .dimResp w ⟨b⟩ ⟨removePrefix d cs!"#"⟩ (vs.map Tag.mk)

theorem isDimWrite_hash : isDimWrite (('#' :: x :: a) :: b :: d :: vs) = isDimWrite (cs!"#0" :: b :: d :: vs) := by
  cases d with
  | nil => rfl
  | cons z d =>
    by_cases hz : z = '#'
    · subst hz; rfl
    · simp [isDimWrite]
      split <;> rename_i h <;> simp at h <;> try exact absurd h.2.2.1.1 hz
      split <;> rename_i h' <;> simp at h' <;> try exact absurd h'.2.2.1.1 hz
      rfl

theorem isDimReq_hash : isDimReq (('#' :: x :: a) :: b :: d :: vs) = decide (vs = [] ∧ d.all isDigit) := by
  cases vs with
  | nil => simp [isDimReq, List.all_eq]
  | cons v vs => simp [isDimReq]

theorem parseDimFields_eq (hb : TagText b) (hd : TagText d) (hvs : ∀ v ∈ vs, TagText v) :
    Msg.parseDimFields (('#' :: x :: a) :: b :: d :: vs) =
      (Who.ofStr (x :: a)).map (fun w => (w, ⟨b⟩, ⟨removePrefix d cs!"#"⟩, vs.map Tag.mk)) := by
  simp only [Msg.parseDimFields, List.drop_succ_cons, List.drop_zero, mapM_ofStr hvs, index,
    List.getElem?_cons_zero, List.getElem?_cons_succ, Tag.ofStr_ok hb, ok_bind,
    Tag.ofStr_ok (TagText_removePrefix hd), removePrefix_hash]
  cases Who.ofStr (x :: a) <;> rfl

theorem parseTags_dim (hb : TagText b) (hd : TagText d) (hvs : ∀ v ∈ vs, TagText v) :
    parseTags (('#' :: x :: a) :: b :: d :: vs) = (Who.ofStr (x :: a)).map (fun w => dimMsg w b d vs) := by
  unfold parseTags dimMsg
  rw [if_neg (by simp), isDimReq_hash, isDimWrite_hash]
  by_cases h1 : vs = [] ∧ d.all isDigit = true
  · obtain ⟨rfl, h1⟩ := h1
    simp only [h1, and_self, decide_true, if_true]
    simp only [Msg.parseDimReq, index, List.getElem?_cons_zero, List.getElem?_cons_succ, Tag.ofStr_ok hb,
      Tag.ofStr_ok hd, ok_bind, removePrefix_hash]
    cases Who.ofStr (x :: a) <;> rfl
  · simp only [h1, decide_false, if_false, Bool.false_eq_true]
    by_cases h2 : isDimWrite (cs!"#0" :: b :: d :: vs) = true
    · simp only [h2, if_true, Msg.parseDimWrite, parseDimFields_eq hb hd hvs]
      cases Who.ofStr (x :: a) <;> rfl
    · simp only [h2, isDimResp, if_true, Msg.parseDimResp, parseDimFields_eq hb hd hvs]
      cases Who.ofStr (x :: a) <;> rfl

theorem parseTags_normal (hx : ¬ (x = '#' ∧ a ≠ [])) (hb : TagText b) (hc : TagText c) :
    parseTags [x :: a, b, c] = (Who.ofStr (x :: a)).map (Msg.normal · ⟨b⟩ ⟨c⟩) := by
  have key : parseTags [x :: a, b, c] = Msg.parseNormal [x :: a, b, c] := by
    unfold parseTags
    have h1 : isDimReq [x :: a, b, c] = false := by
      unfold isDimReq; split
      · rename_i h; simp at h; exact absurd ⟨h.1.1, by simp [h.1.2]⟩ hx
      · rfl
    have h2 : isDimWrite [x :: a, b, c] = false := by
      unfold isDimWrite; split
      · rename_i h; simp at h; exact absurd ⟨h.1.1, by simp [h.1.2]⟩ hx
      · rfl
    have h3 : isDimResp [x :: a, b, c] = false := by
      unfold isDimResp; split
      · rename_i h; simp at h; exact absurd ⟨h.1.1, by simp [h.1.2]⟩ hx
      · rfl
    simp [h1, h2, h3, isNormal]
  rw [key]
  simp only [Msg.parseNormal, index, List.getElem?_cons_zero, List.getElem?_cons_succ, Tag.ofStr_ok hb,
      Tag.ofStr_ok hc, ok_bind]
  cases Who.ofStr (x :: a) <;> rfl

theorem checkTags_ok {ts : List Str} (h : ∀ t ∈ ts, TagText t) : Msg.checkTags ts = .ok () := by
  induction ts with
  | nil => rfl
  | cons t ts ih =>
    simp [Msg.checkTags, (isValidTag_iff t).mpr (h t (by simp)), ih (fun x hx => h x (by simp [hx]))]

theorem parseTags_generic {ts : List Str} (hv : ∀ t ∈ ts, TagText t) (h : ¬ Structured ts) :
    parseTags ts = .ok (.generic ts) := by
  unfold Structured at h
  push Not at h
  obtain ⟨h1, h2, h3, h4⟩ := h
  have e1 : isDimReq ts = false := by
    unfold isDimReq; split
    · have := h4 _ _ _ rfl; simp at this
    · rfl
  have e2 : isDimWrite ts = false := by
    unfold isDimWrite; split
    · have := h4 _ _ _ rfl; simp at this
    · rfl
  have e3 : isDimResp ts = false := by
    unfold isDimResp; split
    · have := h4 _ _ _ rfl; simp at this
    · rfl
  have e4 : isNormal ts = false := by
    unfold isNormal; split
    · have := h3 _ _ _ rfl; simp at this
    · rfl
  have e5 : isStatus ts = false := by
    unfold isStatus; split
    · have := h4 _ _ _ rfl; simp at this
    · rfl
  simp only [parseTags, h1, h2, e1, e2, e3, e4, e5, if_false, Bool.false_eq_true, Msg.parseGeneric, checkTags_ok hv]
  rfl

end

theorem parseTags_ack : parseTags [cs!"#", cs!"1"] = .ok .ack := by rfl
theorem parseTags_nack : parseTags [cs!"#", cs!"0"] = .ok .nack := by rfl

/-- The five shapes of a tag list. -/
theorem shape_cases (ts : List Str) :
    ts = [cs!"#", cs!"1"] ∨ ts = [cs!"#", cs!"0"] ∨
    (∃ x a b, ts = ['#' :: x :: a, b]) ∨
    (∃ x a b d vs, ts = ('#' :: x :: a) :: b :: d :: vs) ∨
    (∃ x a b c, ts = [x :: a, b, c] ∧ ¬ (x = '#' ∧ a ≠ [])) ∨ ¬ Structured ts := by
  by_cases h : Structured ts
  · rcases h with h | h | ⟨a, b, c, rfl, ha⟩ | ⟨a, b, vs, rfl, ha⟩
    · exact .inl h
    · exact .inr (.inl h)
    · cases a with
      | nil => exact absurd rfl ha
      | cons x a =>
        by_cases hx : x = '#' ∧ a ≠ []
        · obtain ⟨rfl, ha'⟩ := hx
          cases a with
          | nil => exact absurd rfl ha'
          | cons x a => exact .inr (.inr (.inr (.inl ⟨x, a, b, c, [], rfl⟩)))
        · exact .inr (.inr (.inr (.inr (.inl ⟨x, a, b, c, rfl, hx⟩))))
    · cases a with
      | nil => exact absurd rfl ha
      | cons x a =>
        cases vs with
        | nil => exact .inr (.inr (.inl ⟨x, a, b, rfl⟩))
        | cons d vs => exact .inr (.inr (.inr (.inl ⟨x, a, b, d, vs, rfl⟩)))
  · exact .inr (.inr (.inr (.inr (.inr h))))

/-- The result of the dimension branch, declaratively. -/
theorem frameOf_dimMsg (w : Who) (b d : Str) (vs : List Str) :
    FrameOf (('#' :: w.code) :: b :: d :: vs) (dimMsg w b d vs) := by
  unfold dimMsg
  split
  · rename_i h
    obtain ⟨rfl, h⟩ := h
    exact .dimReq ((all_isDigit_iff d).mp h)
  · rename_i h
    cases d with
    | nil =>
      have : isDimWrite (cs!"#0" :: b :: [] :: vs) = false := rfl
      rw [this]
      simp only [Bool.false_eq_true, if_false]
      refine .dimResp (by simp) (.inl ?_)
      rintro rfl; exact h ⟨rfl, rfl⟩
    | cons z d =>
      by_cases hz : z = '#'
      · subst hz
        have : isDimWrite (cs!"#0" :: b :: ('#' :: d) :: vs) = d.all isDigit := rfl
        rw [this, removePrefix_hash]
        split
        · rename_i hd; exact .dimWrite ((all_isDigit_iff d).mp hd)
        · rename_i hd; exact .dimRespHash (fun e => hd ((all_isDigit_iff d).mpr e))
      · have : isDimWrite (cs!"#0" :: b :: (z :: d) :: vs) = false := by
          unfold isDimWrite; split
          · rename_i e; simp at e; exact absurd e.2.2.1.1 hz
          · rfl
        have hp : removePrefix (z :: d) cs!"#" = z :: d := by
          apply removePrefix_of_not
          rintro ⟨t, e⟩; simp at e; exact hz e.1
        rw [this, hp]
        simp only [Bool.false_eq_true, if_false]
        refine .dimResp ?_ ?_
        · intro r e; simp at e; exact hz e.1
        · by_cases hvs : vs = []
          · right
            intro e; exact h ⟨hvs, (all_isDigit_iff _).mpr e⟩
          · exact .inl hvs

theorem structured_hash {a b : Str} {vs : List Str} (h : a ≠ []) : Structured (('#' :: a) :: b :: vs) :=
  .inr (.inr (.inr ⟨a, b, vs, rfl, h⟩))

theorem Who.code_ne_hash (w : Who) (r : Str) : w.code ≠ '#' :: r := by
  intro h
  have := Digits.not_hash w.code_digits
  rw [h] at this; simp at this

/-- The specification relation is functional. -/
theorem frameOf_dim_unique {w : Who} {b d : Str} {vs : List Str} {r : Msg}
    (h : FrameOf (('#' :: w.code) :: b :: d :: vs) r) : r = dimMsg w b d vs := by
  have hw : ∀ w' : Who, '#' :: w.code = '#' :: w'.code → w' = w := fun w' e => Who.code_inj (List.cons.inj e).2.symm
  have hwne : w.code ≠ [] := w.code_ne_nil
  generalize hts : ('#' :: w.code) :: b :: d :: vs = ts at h
  cases h with
  | ack => simp at hts
  | nack => simp at hts
  | @normal w' a b =>
    simp at hts
    exact absurd hts.1.symm (w'.code_ne_hash _)
  | status => simp at hts
  | @dimReq w' a d hd =>
    simp only [List.cons.injEq] at hts
    obtain ⟨⟨_, e⟩, rfl, rfl, rfl⟩ := hts
    cases Who.code_inj e
    rw [dimMsg, if_pos ⟨rfl, (all_isDigit_iff _).mpr hd⟩]
  | @dimWrite w' a d' vs' hd =>
    simp only [List.cons.injEq] at hts
    obtain ⟨⟨_, e⟩, rfl, rfl, rfl⟩ := hts
    cases Who.code_inj e
    rw [dimMsg, if_neg, if_pos, removePrefix_hash]
    · exact (all_isDigit_iff _).mpr hd
    · rintro ⟨_, h⟩; simp at h; exact absurd h.1 (by decide)
  | @dimResp w' a d' vs' hd1 hd2 =>
    simp only [List.cons.injEq] at hts
    obtain ⟨⟨_, e⟩, rfl, rfl, rfl⟩ := hts
    cases Who.code_inj e
    have hp : removePrefix d cs!"#" = d := removePrefix_of_not (by rintro ⟨t, e⟩; exact hd1 t (by simpa using e))
    rw [dimMsg, if_neg, if_neg, hp]
    · intro h
      unfold isDimWrite at h
      split at h
      · rename_i e; simp at e; exact hd1 _ e.2.2.1
      · cases h
    · rintro ⟨rfl, h⟩
      rcases hd2 with h2 | h2
      · exact h2 rfl
      · exact h2 ((all_isDigit_iff _).mp h)
  | @dimRespHash w' a d' vs' hd =>
    simp only [List.cons.injEq] at hts
    obtain ⟨⟨_, e⟩, rfl, rfl, rfl⟩ := hts
    cases Who.code_inj e
    rw [dimMsg, if_neg, if_neg, removePrefix_hash]
    · intro h; exact hd ((all_isDigit_iff _).mp h)
    · rintro ⟨_, h⟩; simp at h; exact absurd h.1 (by decide)
  | generic h => exact absurd (hts ▸ structured_hash hwne) h

theorem map_ok_iff {α β : Type} {x : Except Err α} {f : α → β} {b : β} : x.map f = .ok b ↔ ∃ a, x = .ok a ∧ f a = b := by
  cases x <;> simp [Except.map]

/-- Success of the tag-level parser is the specification relation. -/
theorem parseTags_ok_iff {ts : List Str} (hne : ts ≠ []) (hv : ∀ t ∈ ts, TagText t) (r : Msg) :
    parseTags ts = .ok r ↔ FrameOf ts r := by
  rcases shape_cases ts with rfl | rfl | ⟨x, a, b, rfl⟩ | ⟨x, a, b, d, vs, rfl⟩ | ⟨x, a, b, c, rfl, hx⟩ | h
  · rw [parseTags_ack]
    constructor
    · intro h; cases h; exact .ack
    · intro h
      generalize hts : ([cs!"#", cs!"1"] : List Str) = ts at h
      cases h with
      | ack => rfl
      | @status w _ => simp at hts; exact absurd hts.1 w.code_ne_nil
      | generic h => exact absurd (.inl hts.symm) h
      | _ => simp at hts
  · rw [parseTags_nack]
    constructor
    · intro h; cases h; exact .nack
    · intro h
      generalize hts : ([cs!"#", cs!"0"] : List Str) = ts at h
      cases h with
      | nack => rfl
      | @status w _ => simp at hts; exact absurd hts.1 w.code_ne_nil
      | generic h => exact absurd (.inr (.inl hts.symm)) h
      | _ => simp at hts
  · rw [parseTags_status (hv b (by simp)), map_ok_iff]
    constructor
    · rintro ⟨w, hw, rfl⟩
      rw [Who.ofStr_ok_iff] at hw
      rw [hw]; exact .status
    · intro h
      generalize hts : ['#' :: x :: a, b] = ts at h
      cases h with
      | @status w _ =>
        simp only [List.cons.injEq, and_true, true_and] at hts
        exact ⟨w, (Who.ofStr_ok_iff _ _).mpr hts.1, by rw [hts.2]⟩
      | generic h => exact absurd (hts ▸ structured_hash (by simp)) h
      | _ => simp at hts
  · rw [parseTags_dim (hv b (by simp)) (hv d (by simp)) (fun v hv' => hv v (by simp [hv'])), map_ok_iff]
    constructor
    · rintro ⟨w, hw, rfl⟩
      rw [Who.ofStr_ok_iff] at hw
      rw [hw]; exact frameOf_dimMsg w b d vs
    · intro h
      have : ∃ w : Who, x :: a = w.code := by
        generalize hts : ('#' :: x :: a) :: b :: d :: vs = ts at h
        cases h with
        | ack => simp at hts
        | nack => simp at hts
        | status => simp at hts
        | @normal w => simp at hts; exact absurd hts.1.symm (w.code_ne_hash _)
        | @dimReq w => simp at hts; exact ⟨w, hts.1⟩
        | @dimWrite w => simp at hts; exact ⟨w, hts.1⟩
        | @dimResp w => simp at hts; exact ⟨w, hts.1⟩
        | @dimRespHash w => simp at hts; exact ⟨w, hts.1⟩
        | generic h => exact absurd (hts ▸ structured_hash (by simp)) h
      obtain ⟨w, hw⟩ := this
      rw [hw] at h
      exact ⟨w, (Who.ofStr_ok_iff _ _).mpr hw, (frameOf_dim_unique h).symm⟩
  · rw [parseTags_normal hx (hv b (by simp)) (hv c (by simp)), map_ok_iff]
    constructor
    · rintro ⟨w, hw, rfl⟩
      rw [Who.ofStr_ok_iff] at hw
      rw [hw]; exact .normal
    · intro h
      generalize hts : [x :: a, b, c] = ts at h
      cases h with
      | ack => simp at hts
      | nack => simp at hts
      | status => simp at hts
      | @normal w => simp at hts; exact ⟨w, (Who.ofStr_ok_iff _ _).mpr hts.1, by rw [hts.2.1, hts.2.2]⟩
      | @dimReq w => simp at hts; exact absurd ⟨hts.1.1, hts.1.2 ▸ w.code_ne_nil⟩ hx
      | @dimWrite w => simp at hts; exact absurd ⟨hts.1.1, hts.1.2 ▸ w.code_ne_nil⟩ hx
      | @dimResp w => simp at hts; exact absurd ⟨hts.1.1, hts.1.2 ▸ w.code_ne_nil⟩ hx
      | @dimRespHash w => simp at hts; exact absurd ⟨hts.1.1, hts.1.2 ▸ w.code_ne_nil⟩ hx
      | generic h => exact absurd (.inr (.inr (.inl ⟨_, _, _, hts.symm, by simp⟩))) h
  · rw [parseTags_generic hv h]
    constructor
    · intro e; cases e; exact .generic h
    · intro e
      cases e with
      | generic _ => rfl
      | ack => exact absurd (.inl rfl) h
      | nack => exact absurd (.inr (.inl rfl)) h
      | @normal w => exact absurd (.inr (.inr (.inl ⟨_, _, _, rfl, w.code_ne_nil⟩))) h
      | @status w => exact absurd (structured_hash w.code_ne_nil) h
      | @dimReq w => exact absurd (structured_hash w.code_ne_nil) h
      | @dimWrite w => exact absurd (structured_hash w.code_ne_nil) h
      | @dimResp w => exact absurd (structured_hash w.code_ne_nil) h
      | @dimRespHash w => exact absurd (structured_hash w.code_ne_nil) h

theorem map_error_iff {α β : Type} {x : Except Err α} {f : α → β} {e : Err} : x.map f = .error e ↔ x = .error e := by
  cases x <;> simp [Except.map]

theorem Who.ofStr_error_iff (s : Str) (e : Err) : Who.ofStr s = .error e ↔ e = .valueError ∧ ∀ w : Who, s ≠ w.code := by
  constructor
  · intro h
    have hw : ∀ w : Who, s ≠ w.code := by
      rintro w rfl; rw [Who.ofStr_code] at h; cases h
    rw [Who.ofStr_error hw] at h
    cases h; exact ⟨rfl, hw⟩
  · rintro ⟨rfl, h⟩; exact Who.ofStr_error h

/-- The tag-level parser fails exactly on an unknown WHO, with `ValueError`. -/
theorem parseTags_error_iff {ts : List Str} (hv : ∀ t ∈ ts, TagText t) (e : Err) :
    parseTags ts = .error e ↔ e = .valueError ∧ ∃ s, WhoText ts s ∧ ∀ w : Who, s ≠ w.code := by
  rcases shape_cases ts with rfl | rfl | ⟨x, a, b, rfl⟩ | ⟨x, a, b, d, vs, rfl⟩ | ⟨x, a, b, c, rfl, hx⟩ | h
  · rw [parseTags_ack]; simp
    rintro - s hs
    cases hs; contradiction
  · rw [parseTags_nack]; simp
    rintro - s hs
    cases hs; contradiction
  · rw [parseTags_status (hv b (by simp)), map_error_iff, Who.ofStr_error_iff]
    constructor
    · rintro ⟨h1, h2⟩; exact ⟨h1, _, .hash (by simp), h2⟩
    · rintro ⟨h1, s, hs, h2⟩
      cases hs; exact ⟨h1, h2⟩
  · rw [parseTags_dim (hv b (by simp)) (hv d (by simp)) (fun v hv' => hv v (by simp [hv'])), map_error_iff,
      Who.ofStr_error_iff]
    constructor
    · rintro ⟨h1, h2⟩; exact ⟨h1, _, .hash (by simp), h2⟩
    · rintro ⟨h1, s, hs, h2⟩
      cases hs with
      | hash => exact ⟨h1, h2⟩
      | plain _ h => exact absurd rfl (h _ (by simp))
  · rw [parseTags_normal hx (hv b (by simp)) (hv c (by simp)), map_error_iff, Who.ofStr_error_iff]
    constructor
    · rintro ⟨h1, h2⟩
      refine ⟨h1, _, .plain (by simp) ?_, h2⟩
      intro r hr e
      simp at e
      exact hx ⟨e.1, e.2 ▸ hr⟩
    · rintro ⟨h1, s, hs, h2⟩
      cases hs with
      | hash h => exact absurd ⟨rfl, h⟩ hx
      | plain => exact ⟨h1, h2⟩
  · rw [parseTags_generic hv h]
    simp
    rintro - s hs
    cases hs with
    | hash ha => exact absurd (structured_hash ha) h
    | plain ha => exact absurd (.inr (.inr (.inl ⟨_, _, _, rfl, ha⟩))) h

abbrev PyFrame := IsFrame (fun c => isSpace c = true)

/-- Master theorem: success of `parse_message`. -/
theorem parseMessage_ok_iff (m : Str) (r : Msg) :
    parseMessage m = .ok r ↔ ∃ ts, PyFrame m ts ∧ FrameOf ts r := by
  by_cases h : ∃ ts, ts ≠ [] ∧ (∀ t ∈ ts, TagText t) ∧ strip m = frame ts ∧ count2 '#' '#' m = 1
  · obtain ⟨ts, h1, h2, h3, h4⟩ := h
    rw [parseMessage_frame h1 h2 h3 h4, parseTags_ok_iff h1 h2]
    constructor
    · intro h; exact ⟨ts, (isFrame_iff _ _).mpr ⟨h1, h2, h3, h4⟩, h⟩
    · rintro ⟨us, hu, h⟩
      obtain ⟨u1, u2, u3, u4⟩ := (isFrame_iff _ _).mp hu
      have : ts = us := (frame_eq_iff h1 h2 u1 u2).mp (h3.symm.trans u3)
      rw [this]; exact h
  · obtain ⟨s, hs⟩ := parseMessage_not_frame h
    rw [hs]
    constructor
    · intro h; cases h
    · rintro ⟨ts, hf, _⟩; exact absurd ⟨ts, (isFrame_iff _ _).mp hf⟩ h

/-- Master theorem: failure of `parse_message`. -/
theorem parseMessage_error_iff (m : Str) (e : Err) :
    parseMessage m = .error e ↔
      (∃ ts s, PyFrame m ts ∧ WhoText ts s ∧ (∀ w : Who, s ≠ w.code) ∧ e = .valueError) ∨
      ((¬ ∃ ts, PyFrame m ts) ∧ parseMessage m = .error e ∧ ∃ s, e = .invalidMessage s) := by
  by_cases h : ∃ ts, ts ≠ [] ∧ (∀ t ∈ ts, TagText t) ∧ strip m = frame ts ∧ count2 '#' '#' m = 1
  · obtain ⟨ts, h1, h2, h3, h4⟩ := h
    have hf : PyFrame m ts := (isFrame_iff _ _).mpr ⟨h1, h2, h3, h4⟩
    rw [parseMessage_frame h1 h2 h3 h4, parseTags_error_iff h2]
    constructor
    · rintro ⟨rfl, s, hs, hw⟩; exact .inl ⟨ts, s, hf, hs, hw, rfl⟩
    · rintro (⟨us, s, hu, hs, hw, rfl⟩ | ⟨hn, _⟩)
      · obtain ⟨u1, u2, u3, u4⟩ := (isFrame_iff _ _).mp hu
        have : ts = us := (frame_eq_iff h1 h2 u1 u2).mp (h3.symm.trans u3)
        subst this
        exact ⟨rfl, s, hs, hw⟩
      · exact absurd ⟨ts, hf⟩ hn
  · have hn : ¬ ∃ ts, PyFrame m ts := by
      rintro ⟨ts, hf⟩; exact h ⟨ts, (isFrame_iff _ _).mp hf⟩
    obtain ⟨s, hs⟩ := parseMessage_not_frame h
    constructor
    · intro e1
      refine .inr ⟨hn, e1, s, ?_⟩
      rw [hs] at e1; cases e1; rfl
    · rintro (⟨us, _, hu, _⟩ | ⟨_, h, _⟩)
      · exact absurd ⟨us, hu⟩ hn
      · exact h

theorem pyFrame_unique {m : Str} {ts us : List Str} (h : PyFrame m ts) (h' : PyFrame m us) : ts = us := by
  obtain ⟨h1, h2, h3, h4⟩ := (isFrame_iff _ _).mp h
  obtain ⟨u1, u2, u3, u4⟩ := (isFrame_iff _ _).mp h'
  exact (frame_eq_iff h1 h2 u1 u2).mp (h3.symm.trans u3)
