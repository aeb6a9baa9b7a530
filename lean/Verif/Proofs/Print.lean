import Verif.Proofs.Classify

/-! # Printing messages -/

open Py Spec

/-- Values as printed: no value prints like one empty value. -/
def printValues (vs : List Tag) : List Str := if vs = [] then [[]] else vs.map (·.string)

/-- The tags of the printed frame. -/
def printTags : Msg → List Str
  | .ack => [cs!"#", cs!"1"]
  | .nack => [cs!"#", cs!"0"]
  | .normal w a b => [w.code, a.string, b.string]
  | .status w a => ['#' :: w.code, a.string]
  | .dimReq w a d => ['#' :: w.code, a.string, d.string]
  | .dimWrite w a d vs => ('#' :: w.code) :: a.string :: ('#' :: d.string) :: printValues vs
  | .dimResp w a d vs => ('#' :: w.code) :: a.string :: d.string :: printValues vs
  | .generic ts => if ts = [] then [[]] else ts

theorem printValues_ne (vs : List Tag) : printValues vs ≠ [] := by
  unfold printValues; split <;> simp_all

theorem printTags_ne (m : Msg) : printTags m ≠ [] := by
  cases m <;> simp [printTags]
  split <;> simp_all

theorem join_printValues (vs : List Tag) : '*' :: join cs!"*" (vs.map (·.string)) = body (printValues vs) := by
  unfold printValues
  split
  · subst_vars; rfl
  · rename_i h; rw [MsgRe.body_eq_join (by simpa using h)]

theorem str_eq_frame (m : Msg) : m.str = frame (printTags m) := by
  cases m with
  | ack => rfl
  | nack => rfl
  | normal w a b => simp [Msg.str, printTags, frame, body]
  | status w a => simp [Msg.str, printTags, frame, body]
  | dimReq w a d => simp [Msg.str, printTags, frame, body]
  | dimWrite w a d vs =>
    have := join_printValues vs
    simp [Msg.str, printTags, frame, body, ← this]
  | dimResp w a d vs =>
    have := join_printValues vs
    simp [Msg.str, printTags, frame, body, ← this]
  | generic ts =>
    simp only [Msg.str, printTags]
    split
    · subst_vars; rfl
    · rename_i h; rw [frame_eq h]; rfl

theorem Msg.tags_valid_iff (m : Msg) : (∀ t ∈ m.tags, TagText t) ↔ ∀ t ∈ printTags m, TagText t := by
  have hc := fun w : Who => TagText.of_digits w.code_digits
  have hv : ∀ vs : List Tag, (∀ t ∈ printValues vs, TagText t) ↔ ∀ v ∈ vs, TagText v.string := by
    intro vs
    unfold printValues
    split
    · subst_vars; simp [TagText.nil]
    · simp
  cases m with
  | ack => simp [Msg.tags, printTags]
  | nack => simp [Msg.tags, printTags]
  | normal w a b => simp [Msg.tags, printTags]
  | status w a => simp [Msg.tags, printTags, TagText.cons_hash]
  | dimReq w a d => simp [Msg.tags, printTags, TagText.cons_hash]
  | dimWrite w a d vs =>
    have := hv vs
    simp only [Msg.tags, printTags, List.mem_cons, forall_eq_or_imp, TagText.cons_hash, this]
    simp
  | dimResp w a d vs =>
    have := hv vs
    simp only [Msg.tags, printTags, List.mem_cons, forall_eq_or_imp, TagText.cons_hash, this]
    simp
  | generic ts =>
    simp only [Msg.tags, printTags]
    split
    · subst_vars; simp [TagText.nil]
    · rfl

/-! ## Terminators inside frames -/

theorem hasHH_append_star (u v : Str) : HasHH (u ++ '*' :: v) ↔ HasHH u ∨ HasHH v := by
  induction u with
  | nil =>
    rw [List.nil_append, hasHH_cons_iff]
    simp [not_hasHH_nil]
  | cons c u ih =>
    rw [List.cons_append, hasHH_cons_iff, hasHH_cons_iff, ih]
    cases u with
    | nil => simp [not_hasHH_nil]
    | cons d u => simp [or_assoc]

theorem hasHH_append_hash (u : Str) : HasHH (u ++ cs!"#") ↔ HasHH u ∨ u.getLast? = some '#' := by
  induction u with
  | nil => simp [hasHH_cons_iff, not_hasHH_nil]
  | cons c u ih =>
    rw [List.cons_append, hasHH_cons_iff, hasHH_cons_iff, ih]
    cases u with
    | nil => simp [not_hasHH_nil]
    | cons d u => simp [List.getLast?_cons_cons, or_assoc]

theorem hasHH_body_hash {ts : List Str} (h : ts ≠ []) :
    HasHH (body ts ++ cs!"#") ↔ (∃ t ∈ ts, HasHH t) ∨ ∃ t, ts.getLast? = some t ∧ t.getLast? = some '#' := by
  induction ts with
  | nil => exact absurd rfl h
  | cons t ts ih =>
    have e1 := hasHH_append_star [] (t ++ (body ts ++ cs!"#"))
    simp only [List.nil_append, not_hasHH_nil, false_or] at e1
    rw [body_cons, List.cons_append, List.cons_append, List.append_assoc, e1]
    cases ts with
    | nil => simp [body, hasHH_append_hash]
    | cons s ts =>
      have e2 := hasHH_append_star t (s ++ body ts ++ cs!"#")
      have e3 := hasHH_append_star [] (s ++ body ts ++ cs!"#")
      simp only [List.nil_append, not_hasHH_nil, false_or] at e3
      have e4 := ih (by simp)
      rw [body_cons, List.cons_append, List.cons_append] at e4
      rw [body_cons, List.cons_append, List.cons_append, e2, ← e3, e4]
      simp [List.getLast?_cons_cons, or_assoc]

/-- A frame has no terminator before its end exactly when no tag contains `##` and the last does not end in `#`. -/
theorem not_hasHH_body_hash {ts : List Str} (h : ts ≠ []) :
    ¬ HasHH (body ts ++ cs!"#") ↔ (∀ t ∈ ts, ¬ HasHH t) ∧ ∀ t, ts.getLast? = some t → t.getLast? ≠ some '#' := by
  rw [hasHH_body_hash h]; push Not; rfl

theorem oneHH_frame {ts : List Str} (h : ¬ HasHH (body ts ++ cs!"#")) : OneHH (frame ts) :=
  ⟨body ts, [], by simp [frame], h, not_hasHH_nil⟩

theorem body_valid {ts : List Str} (hv : ∀ t ∈ ts, TagText t) : ∀ c ∈ body ts, c ∈ cs!"0123456789*#" := by
  induction ts with
  | nil => intro c hc; cases hc
  | cons t ts ih =>
    intro c hc
    simp only [body, List.cons_append, List.mem_cons, List.mem_append] at hc
    rcases hc with rfl | hc | hc
    · simp
    · have := hv t (by simp) c hc
      simp only [TagChar, List.mem_cons, List.not_mem_nil, or_false] at this ⊢
      tauto
    · exact ih (fun t ht => hv t (by simp [ht])) c hc
