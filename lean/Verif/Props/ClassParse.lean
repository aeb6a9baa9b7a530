import Verif.Props.Messages

/-! # Properties of the messages' fields and of the parsers of the classes: C07, C13, C86 -/

open Py Spec

/-! ## C07: the fields of a parsed message -/

/-- C07: `who` and `where` of a parsed message are the texts at their places in the frame; an ACK, a NACK and a generic
message have none. -/
theorem C07_fields (m : Str) (ts : List Str) (r : Msg) (hm : PyFrame m ts) (h : parseMessage m = .ok r) :
    (r.type = .normal → ts[0]? = r.who.map Who.code ∧ ts[2]? = r.wher.map Tag.string) ∧
    (r.type = .statusRequest ∨ r.type = .dimensionRequest ∨ r.type = .dimensionWriting ∨ r.type = .dimensionResponse →
      ts[0]? = r.who.map (fun w => '#' :: w.code) ∧ ts[1]? = r.wher.map Tag.string) ∧
    (r.type = .ack ∨ r.type = .nack ∨ r.type = .generic → r.who = none ∧ r.wher = none) := by
  obtain ⟨us, h1, h2⟩ := (C07_classified m r).1 h
  obtain rfl := pyFrame_unique hm h1
  cases h2 <;> simp [Msg.type, Msg.who, Msg.wher]

/-- C07: the tags of a parsed message are those of the frame, except that the `#` in front of WHO, which marks requests and
dimension messages, and the `#` in front of DIMENSION are left out. -/
theorem C07_tags (m : Str) (ts : List Str) (r : Msg) (hm : PyFrame m ts) (h : parseMessage m = .ok r) :
    (r.type = .ack ∨ r.type = .nack ∨ r.type = .normal ∨ r.type = .generic → r.tags = ts) ∧
    (r.type = .statusRequest ∨ r.type = .dimensionRequest →
      ∃ who more, r.tags = who :: more ∧ ts = ('#' :: who) :: more) ∧
    (r.type = .dimensionWriting →
      ∃ who wher dim vs, r.tags = who :: wher :: dim :: vs ∧ ts = ('#' :: who) :: wher :: ('#' :: dim) :: vs) ∧
    (r.type = .dimensionResponse →
      ∃ who wher dim vs, r.tags = who :: wher :: dim :: vs ∧
        (ts = ('#' :: who) :: wher :: dim :: vs ∨ ts = ('#' :: who) :: wher :: ('#' :: dim) :: vs)) := by
  obtain ⟨us, h1, h2⟩ := (C07_classified m r).1 h
  obtain rfl := pyFrame_unique hm h1
  cases h2 <;> simp [Msg.type, Msg.tags, Function.comp_def]

example : PyFrame cs!"*2*1*34##" [cs!"2", cs!"1", cs!"34"] ∧
    parseMessage cs!"*2*1*34##" = .ok (.normal .automation ⟨cs!"1"⟩ ⟨cs!"34"⟩) := by
  refine ⟨?_, by decide +kernel⟩
  obtain ⟨ts, h1, h2⟩ := (C07_classified cs!"*2*1*34##" _).1
    (show parseMessage cs!"*2*1*34##" = .ok (.normal .automation ⟨cs!"1"⟩ ⟨cs!"34"⟩) by decide +kernel)
  cases h2
  exact h1

/-! ## C86: the parsers of the classes

The full claim: `parse(tags)` of a class returns a message exactly for the tags of a frame of that class, and raises
`InvalidMessage` or `InvalidTag` otherwise. -/

namespace Spec

/-- A first tag that is read as WHO, with or without `#`. -/
def WhoTag (t : Str) (w : Who) : Prop := t = w.code ∨ t = '#' :: w.code

/-- A third tag that is read as DIMENSION: a leading `#` is dropped. -/
def DimTag (t d : Str) : Prop := t = '#' :: d ∨ t = d ∧ d.head? ≠ some '#'

end Spec

theorem removePrefix_hash_eq (s : Str) : removePrefix s cs!"#" = if s.head? = some '#' then s.tail else s := by
  rcases s with _ | ⟨c, s⟩
  · rfl
  · by_cases h : c = '#'
    · subst h; simp [removePrefix, startsWith]
    · simp [removePrefix, startsWith, h]

theorem whoTag_iff (t : Str) (w : Who) : Who.ofStr (removePrefix t cs!"#") = .ok w ↔ WhoTag t w := by
  rw [Who.ofStr_ok_iff, removePrefix_hash_eq, WhoTag]
  rcases t with _ | ⟨c, s⟩
  · simp
  · by_cases h : c = '#'
    · subst h
      have : '#' :: s ≠ w.code := fun e => Digits.not_hash w.code_digits (by rw [← e]; simp)
      simp [this]
    · simp [h]

theorem tag_iff (t : Str) (a : Tag) : Tag.ofStr t = .ok a ↔ TagText t ∧ a = ⟨t⟩ := by
  unfold Tag.ofStr
  split
  · rename_i h; rw [isValidTag_iff] at h
    constructor
    · intro e; cases e; exact ⟨h, rfl⟩
    · rintro ⟨_, rfl⟩; rfl
  · rename_i h; rw [isValidTag_iff] at h
    constructor
    · intro e; cases e
    · rintro ⟨h', _⟩; exact absurd h' h

theorem dimTag_iff (t : Str) (a : Tag) : Tag.ofStr (removePrefix t cs!"#") = .ok a ↔ TagText a.string ∧ DimTag t a.string := by
  rw [tag_iff, removePrefix_hash_eq, DimTag]
  rcases t with _ | ⟨c, s⟩
  · constructor
    · rintro ⟨h, rfl⟩; exact ⟨h, .inr ⟨rfl, by simp⟩⟩
    · rintro ⟨h, h' | ⟨h', _⟩⟩
      · cases h'
      · obtain ⟨a⟩ := a; simp only at h'; subst h'; exact ⟨h, rfl⟩
  · by_cases h : c = '#'
    · subst h
      obtain ⟨a⟩ := a
      simp only [List.head?_cons, if_true, List.tail_cons, Tag.mk.injEq, List.cons.injEq, true_and]
      constructor
      · rintro ⟨h, rfl⟩; exact ⟨h, .inl rfl⟩
      · rintro ⟨h, rfl | ⟨h', h''⟩⟩
        · exact ⟨h, rfl⟩
        · rw [← h'] at h''; simp at h''
    · obtain ⟨a⟩ := a
      simp only [List.head?_cons, Option.some.injEq, h, if_false, Tag.mk.injEq, List.cons.injEq, false_and, false_or]
      constructor
      · rintro ⟨h1, rfl⟩; exact ⟨h1, rfl, by simpa using h⟩
      · rintro ⟨h1, rfl, _⟩; exact ⟨h1, rfl⟩

theorem mapM_iff (vs : List Str) (as : List Tag) :
    vs.mapM Tag.ofStr = .ok as ↔ (∀ v ∈ vs, TagText v) ∧ as = vs.map Tag.mk := by
  constructor
  · intro h
    have hv : ∀ v ∈ vs, TagText v := by
      induction vs generalizing as with
      | nil => simp
      | cons v vs ih =>
        rw [List.mapM_cons] at h
        rcases h1 : Tag.ofStr v with e | a
        · rw [h1] at h; cases h
        rcases h2 : vs.mapM Tag.ofStr with e | as'
        · rw [h1, h2] at h; cases h
        intro x hx
        rcases List.mem_cons.1 hx with rfl | hx
        · exact ((tag_iff _ _).1 h1).1
        · exact ih as' h2 x hx
    rw [mapM_ofStr hv] at h
    cases h
    exact ⟨hv, rfl⟩
  · rintro ⟨h, rfl⟩; exact mapM_ofStr h

/-- C86 is false: the class parsers ignore extra tags, do not look for the `#` that tells their frames apart, and raise
`IndexError` when tags are missing. -/
theorem C86_class_parse_refuted :
    Msg.parseNormal [cs!"1", cs!"1", cs!"12", cs!"99"] = .ok (.normal .lighting ⟨cs!"1"⟩ ⟨cs!"12"⟩) ∧
    Msg.parseStatus [cs!"1", cs!"12"] = .ok (.status .lighting ⟨cs!"12"⟩) ∧
    Msg.parseDimWrite [cs!"1", cs!"12", cs!"1", cs!"5"] = .ok (.dimWrite .lighting ⟨cs!"12"⟩ ⟨cs!"1"⟩ [⟨cs!"5"⟩]) ∧
    Msg.parseNormal [cs!"1", cs!"1"] = .error .indexError := by
  refine ⟨?_, ?_, ?_, ?_⟩ <;> rfl

/-- C86, what holds for `NormalMessage.parse`: exactly what it accepts. -/
theorem C86_normal_partial (ts : List Str) (m : Msg) :
    Msg.parseNormal ts = .ok m ↔ ∃ w a b rest, ts = Who.code w :: a :: b :: rest ∧ TagText a ∧ TagText b ∧
      m = .normal w ⟨a⟩ ⟨b⟩ := by
  constructor
  · intro h
    rcases ts with _ | ⟨x, _ | ⟨a, _ | ⟨b, rest⟩⟩⟩
    · cases h
    · rcases h1 : Who.ofStr x with e | w <;> simp [Msg.parseNormal, index, h1, Bind.bind, Except.bind] at h
    · rcases h1 : Who.ofStr x with e | w <;> simp [Msg.parseNormal, index, h1, Bind.bind, Except.bind] at h
      rcases h2 : Tag.ofStr a with e | y <;> simp [h2] at h
    · rcases h1 : Who.ofStr x with e | w
      · simp [Msg.parseNormal, index, h1, Bind.bind, Except.bind] at h
      rcases h2 : Tag.ofStr a with e | y
      · simp [Msg.parseNormal, index, h1, h2, Bind.bind, Except.bind] at h
      rcases h3 : Tag.ofStr b with e | z
      · simp [Msg.parseNormal, index, h1, h2, h3, Bind.bind, Except.bind] at h
      simp [Msg.parseNormal, index, h1, h2, h3, Bind.bind, Except.bind, Pure.pure, Except.pure] at h
      rw [Who.ofStr_ok_iff] at h1
      rw [tag_iff] at h2 h3
      exact ⟨w, a, b, rest, by rw [h1], h2.1, h3.1, by rw [← h, h2.2, h3.2]⟩
  · rintro ⟨w, a, b, rest, rfl, ha, hb, rfl⟩
    simp [Msg.parseNormal, index, Who.ofStr_code, Tag.ofStr_ok ha, Tag.ofStr_ok hb, Bind.bind, Except.bind, Pure.pure,
      Except.pure]

/-- C86, what holds for `StatusRequest.parse`: exactly what it accepts. -/
theorem C86_status_partial (ts : List Str) (m : Msg) :
    Msg.parseStatus ts = .ok m ↔ ∃ t w a rest, ts = t :: a :: rest ∧ WhoTag t w ∧ TagText a ∧ m = .status w ⟨a⟩ := by
  constructor
  · intro h
    rcases ts with _ | ⟨x, _ | ⟨a, rest⟩⟩
    · cases h
    · rcases h1 : Who.ofStr (removePrefix x cs!"#") with e | w <;>
        simp [Msg.parseStatus, index, h1, Bind.bind, Except.bind] at h
    · rcases h1 : Who.ofStr (removePrefix x cs!"#") with e | w
      · simp [Msg.parseStatus, index, h1, Bind.bind, Except.bind] at h
      rcases h2 : Tag.ofStr a with e | y
      · simp [Msg.parseStatus, index, h1, h2, Bind.bind, Except.bind] at h
      simp [Msg.parseStatus, index, h1, h2, Bind.bind, Except.bind, Pure.pure, Except.pure] at h
      rw [whoTag_iff] at h1
      rw [tag_iff] at h2
      exact ⟨x, w, a, rest, rfl, h1, h2.1, by rw [← h, h2.2]⟩
  · rintro ⟨t, w, a, rest, rfl, ht, ha, rfl⟩
    simp [Msg.parseStatus, index, (whoTag_iff t w).2 ht, Tag.ofStr_ok ha, Bind.bind, Except.bind, Pure.pure, Except.pure]

/-- C86, what holds for `DimensionRequest.parse`: exactly what it accepts. -/
theorem C86_dimension_request_partial (ts : List Str) (m : Msg) :
    Msg.parseDimReq ts = .ok m ↔ ∃ t w a d rest, ts = t :: a :: d :: rest ∧ WhoTag t w ∧ TagText a ∧ TagText d ∧
      m = .dimReq w ⟨a⟩ ⟨d⟩ := by
  constructor
  · intro h
    rcases ts with _ | ⟨x, _ | ⟨a, _ | ⟨d, rest⟩⟩⟩
    · cases h
    · rcases h1 : Who.ofStr (removePrefix x cs!"#") with e | w <;>
        simp [Msg.parseDimReq, index, h1, Bind.bind, Except.bind] at h
    · rcases h1 : Who.ofStr (removePrefix x cs!"#") with e | w <;>
        simp [Msg.parseDimReq, index, h1, Bind.bind, Except.bind] at h
      rcases h2 : Tag.ofStr a with e | y <;> simp [h2] at h
    · rcases h1 : Who.ofStr (removePrefix x cs!"#") with e | w
      · simp [Msg.parseDimReq, index, h1, Bind.bind, Except.bind] at h
      rcases h2 : Tag.ofStr a with e | y
      · simp [Msg.parseDimReq, index, h1, h2, Bind.bind, Except.bind] at h
      rcases h3 : Tag.ofStr d with e | z
      · simp [Msg.parseDimReq, index, h1, h2, h3, Bind.bind, Except.bind] at h
      simp [Msg.parseDimReq, index, h1, h2, h3, Bind.bind, Except.bind, Pure.pure, Except.pure] at h
      rw [whoTag_iff] at h1
      rw [tag_iff] at h2 h3
      exact ⟨x, w, a, d, rest, rfl, h1, h2.1, h3.1, by rw [← h, h2.2, h3.2]⟩
  · rintro ⟨t, w, a, d, rest, rfl, ht, ha, hd, rfl⟩
    simp [Msg.parseDimReq, index, (whoTag_iff t w).2 ht, Tag.ofStr_ok ha, Tag.ofStr_ok hd, Bind.bind, Except.bind, Pure.pure,
      Except.pure]

theorem parseDimFields_iff (ts : List Str) (w : Who) (a d : Tag) (vs : List Tag) :
    Msg.parseDimFields ts = .ok (w, a, d, vs) ↔ ∃ t x y rest, ts = t :: x :: y :: rest ∧ WhoTag t w ∧ TagText x ∧ a = ⟨x⟩ ∧
      TagText d.string ∧ DimTag y d.string ∧ (∀ v ∈ rest, TagText v) ∧ vs = rest.map Tag.mk := by
  constructor
  · intro h
    unfold Msg.parseDimFields at h
    rcases h0 : (ts.drop 3).mapM Tag.ofStr with e | vs'
    · simp [h0, Bind.bind, Except.bind] at h
    rcases ts with _ | ⟨t, _ | ⟨x, _ | ⟨y, rest⟩⟩⟩
    · simp [h0, index, Bind.bind, Except.bind] at h
    · rcases h1 : Who.ofStr (removePrefix t cs!"#") with e | w <;>
        simp [h0, index, h1, Bind.bind, Except.bind] at h
    · rcases h1 : Who.ofStr (removePrefix t cs!"#") with e | w
      · simp [h0, index, h1, Bind.bind, Except.bind] at h
      rcases h2 : Tag.ofStr x with e | y <;> simp [h0, index, h1, h2, Bind.bind, Except.bind] at h
    · replace h0 : rest.mapM Tag.ofStr = .ok vs' := h0
      rcases h1 : Who.ofStr (removePrefix t cs!"#") with e | w'
      · simp [h0, index, h1, Bind.bind, Except.bind] at h
      rcases h2 : Tag.ofStr x with e | x'
      · simp [h0, index, h1, h2, Bind.bind, Except.bind] at h
      rcases h3 : Tag.ofStr (removePrefix y cs!"#") with e | d'
      · simp [h0, index, h1, h2, h3, Bind.bind, Except.bind] at h
      simp [h0, index, h1, h2, h3, Bind.bind, Except.bind, Pure.pure, Except.pure] at h
      obtain ⟨rfl, rfl, rfl, rfl⟩ := h
      rw [whoTag_iff] at h1
      rw [tag_iff] at h2
      rw [dimTag_iff] at h3
      rw [mapM_iff] at h0
      exact ⟨t, x, y, rest, rfl, h1, h2.1, h2.2, h3.1, h3.2, h0⟩
  · rintro ⟨t, x, y, rest, rfl, h1, h2, rfl, h3, h4, h5, rfl⟩
    have h0 : rest.mapM Tag.ofStr = .ok (rest.map Tag.mk) := mapM_ofStr h5
    unfold Msg.parseDimFields
    simp [h0, index, (whoTag_iff t w).2 h1, Tag.ofStr_ok h2, (dimTag_iff y d).2 ⟨h3, h4⟩, Bind.bind, Except.bind, Pure.pure,
      Except.pure]

/-- C86, what holds for `DimensionWriting.parse` and `DimensionResponse.parse`: exactly what they accept, which is the same. -/
theorem C86_dimension_values_partial (ts : List Str) (m : Msg) :
    (Msg.parseDimWrite ts = .ok m ↔ ∃ t w a y d rest, ts = t :: a :: y :: rest ∧ WhoTag t w ∧ TagText a ∧ TagText d ∧
      DimTag y d ∧ (∀ v ∈ rest, TagText v) ∧ m = .dimWrite w ⟨a⟩ ⟨d⟩ (rest.map Tag.mk)) ∧
    (Msg.parseDimResp ts = .ok m ↔ ∃ t w a y d rest, ts = t :: a :: y :: rest ∧ WhoTag t w ∧ TagText a ∧ TagText d ∧
      DimTag y d ∧ (∀ v ∈ rest, TagText v) ∧ m = .dimResp w ⟨a⟩ ⟨d⟩ (rest.map Tag.mk)) := by
  unfold Msg.parseDimWrite Msg.parseDimResp
  have key := parseDimFields_iff ts
  constructor
  all_goals
    constructor
    · intro h
      rcases hf : Msg.parseDimFields ts with e | ⟨w, a, d, vs⟩
      · rw [hf] at h; cases h
      · rw [hf] at h; cases h
        obtain ⟨t, x, y, rest, e, h1, h2, rfl, h3, h4, h5, rfl⟩ := (key w a d vs).1 hf
        exact ⟨t, w, x, y, d.string, rest, e, h1, h2, h3, h4, h5, rfl⟩
    · rintro ⟨t, w, a, y, d, rest, e, h1, h2, h3, h4, h5, rfl⟩
      rw [(key w ⟨a⟩ ⟨d⟩ (rest.map Tag.mk)).2 ⟨t, a, y, rest, e, h1, h2, rfl, h3, h4, h5, rfl⟩]
      rfl

/-- C86 holds for `GenericMessage.parse`: any list of legal tags, kept as it is; otherwise `InvalidTag` with the first tag
that is not legal. -/
theorem C86_generic (ts : List Str) :
    (∀ m, Msg.parseGeneric ts = .ok m ↔ (∀ t ∈ ts, TagText t) ∧ m = .generic ts) ∧
    ∀ e, Msg.parseGeneric ts = .error e ↔
      ∃ pre t post, ts = pre ++ t :: post ∧ (∀ x ∈ pre, TagText x) ∧ ¬ TagText t ∧ e = .invalidTag t := by
  have key : (Msg.checkTags ts = .ok () ∧ ∀ t ∈ ts, TagText t) ∨
      ∃ pre t post, ts = pre ++ t :: post ∧ (∀ x ∈ pre, TagText x) ∧ ¬ TagText t ∧
        Msg.checkTags ts = .error (.invalidTag t) := by
    induction ts with
    | nil => exact .inl ⟨rfl, by simp⟩
    | cons t ts ih =>
      by_cases ht : TagText t
      · have e : Msg.checkTags (t :: ts) = Msg.checkTags ts := by simp [Msg.checkTags, (isValidTag_iff t).2 ht]
        rw [e]
        rcases ih with ⟨h1, h2⟩ | ⟨pre, u, post, rfl, h1, h2, h3⟩
        · exact .inl ⟨h1, by simp only [List.mem_cons]; rintro x (rfl | hx); exacts [ht, h2 x hx]⟩
        · refine .inr ⟨t :: pre, u, post, rfl, ?_, h2, h3⟩
          simp only [List.mem_cons]; rintro x (rfl | hx); exacts [ht, h1 x hx]
      · refine .inr ⟨[], t, ts, rfl, by simp, ht, ?_⟩
        have : isValidTag t = false := by rw [← Bool.not_eq_true, isValidTag_iff]; exact ht
        simp [Msg.checkTags, this]
  have first : ∀ {pre pre' post post' : List Str} {t t' : Str}, pre ++ t :: post = pre' ++ t' :: post' →
      (∀ x ∈ pre, TagText x) → (∀ x ∈ pre', TagText x) → ¬ TagText t → ¬ TagText t' → t = t' := by
    intro pre
    induction pre with
    | nil =>
      intro pre' post post' t t' e _ h2 h3 _
      rcases pre' with _ | ⟨y, pre'⟩
      · simp at e; exact e.1
      · simp at e; exact absurd (h2 y (by simp)) (e.1 ▸ h3)
    | cons x pre ih =>
      intro pre' post post' t t' e h1 h2 h3 h4
      rcases pre' with _ | ⟨y, pre'⟩
      · simp at e; exact absurd (h1 x (by simp)) (e.1 ▸ h4)
      · simp at e
        exact ih e.2 (fun z hz => h1 z (by simp [hz])) (fun z hz => h2 z (by simp [hz])) h3 h4
  unfold Msg.parseGeneric
  rcases key with ⟨h1, h2⟩ | ⟨pre, t, post, he, h1, h2, h3⟩
  · rw [h1]
    refine ⟨fun m => ?_, fun e => ?_⟩
    · constructor
      · intro h; cases h; exact ⟨h2, rfl⟩
      · rintro ⟨_, rfl⟩; rfl
    · constructor
      · intro h; cases h
      · rintro ⟨pre, t, post, rfl, _, h, _⟩; exact absurd (h2 t (by simp)) h
  · rw [h3]
    refine ⟨fun m => ?_, fun e => ?_⟩
    · constructor
      · intro h; cases h
      · rintro ⟨h, _⟩; exact absurd (h t (by rw [he]; simp)) h2
    · constructor
      · intro h; cases h; exact ⟨pre, t, post, he, h1, h2, rfl⟩
      · rintro ⟨pre', t', post', he', h1', h2', rfl⟩
        rw [first (he.symm.trans he') h1 h1' h2 h2']
        rfl

example : Msg.parseGeneric [cs!"1", cs!"a", cs!"-"] = .error (.invalidTag cs!"a") := rfl
example : Msg.parseDimResp [cs!"#4", cs!"12", cs!"0", cs!"0215"] =
    .ok (.dimResp .thermoregulation ⟨cs!"12"⟩ ⟨cs!"0"⟩ [⟨cs!"0215"⟩]) := rfl
