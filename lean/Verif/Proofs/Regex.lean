import Verif.Model.Messages
import Verif.Spec.Frames
import Verif.Proofs.Str
import Mathlib.Tactic.IntervalCases

/-! # Languages of the regular expressions of the library -/

open Py Spec

namespace Py.Re

theorem lang_cls (p : Char → Bool) (s : Str) : Lang (cls p) s ↔ ∃ c, p c = true ∧ s = [c] := by
  constructor
  · intro h; cases h with | cls h => exact ⟨_, h, rfl⟩
  · rintro ⟨c, h, rfl⟩; exact .cls h

theorem lang_chr (c : Char) (s : Str) : Lang (chr c) s ↔ s = [c] := by
  rw [chr, lang_cls]
  constructor
  · rintro ⟨d, h, rfl⟩; simp at h; rw [h]
  · rintro rfl; exact ⟨c, by simp, rfl⟩

theorem lang_seq (a b : Re) (s : Str) : Lang (seq a b) s ↔ ∃ u v, Lang a u ∧ Lang b v ∧ s = u ++ v := by
  constructor
  · intro h; cases h with | seq h1 h2 => exact ⟨_, _, h1, h2, rfl⟩
  · rintro ⟨u, v, h1, h2, rfl⟩; exact .seq h1 h2

theorem lang_chr_seq (c : Char) (b : Re) (s : Str) : Lang (seq (chr c) b) s ↔ ∃ v, Lang b v ∧ s = c :: v := by
  rw [lang_seq]
  constructor
  · rintro ⟨u, v, h1, h2, rfl⟩
    rw [lang_chr] at h1; subst h1
    exact ⟨v, h2, rfl⟩
  · rintro ⟨v, h, rfl⟩
    exact ⟨[c], v, (lang_chr c _).mpr rfl, h, rfl⟩

theorem lang_opt (a : Re) (s : Str) : Lang (opt a) s ↔ Lang a s ∨ s = [] := by
  constructor
  · intro h
    cases h with
    | altL h => exact .inl h
    | altR h => cases h; exact .inr rfl
  · rintro (h | rfl)
    · exact .altL h
    · exact .altR .eps

/-- A star matches concatenations. -/
theorem lang_star (a : Re) (s : Str) : Lang (star a) s ↔ ∃ ws : List Str, (∀ w ∈ ws, Lang a w) ∧ s = ws.flatten := by
  constructor
  · intro h
    generalize hr : star a = r at h
    induction h with
    | starNil => exact ⟨[], by simp, rfl⟩
    | starCons h1 h2 _ ih2 =>
      cases hr
      obtain ⟨ws, hw, rfl⟩ := ih2 rfl
      exact ⟨_ :: ws, by simpa using ⟨h1, hw⟩, rfl⟩
    | _ => cases hr
  · rintro ⟨ws, hw, rfl⟩
    induction ws with
    | nil => exact .starNil
    | cons w ws ih =>
      exact .starCons (hw w (by simp)) (ih (fun x hx => hw x (by simp [hx])))

theorem lang_star_cls (p : Char → Bool) (s : Str) : Lang (star (cls p)) s ↔ ∀ c ∈ s, p c = true := by
  rw [lang_star]
  constructor
  · rintro ⟨ws, hw, rfl⟩ c hc
    obtain ⟨w, hw1, hc⟩ := List.mem_flatten.mp hc
    obtain ⟨d, hd, rfl⟩ := (lang_cls p w).mp (hw w hw1)
    simp at hc; subst hc; exact hd
  · intro h
    refine ⟨s.map (fun c => [c]), ?_, ?_⟩
    · intro w hw
      obtain ⟨c, hc, rfl⟩ := List.mem_map.mp hw
      exact .cls (h c hc)
    · induction s with
      | nil => rfl
      | cons c s ih => simp; exact (ih (fun d hd => h d (by simp [hd])))

theorem lang_plus_cls (p : Char → Bool) (s : Str) : Lang (plus (cls p)) s ↔ s ≠ [] ∧ ∀ c ∈ s, p c = true := by
  rw [plus, lang_seq]
  constructor
  · rintro ⟨u, v, h1, h2, rfl⟩
    obtain ⟨c, hc, rfl⟩ := (lang_cls p u).mp h1
    rw [lang_star_cls] at h2
    refine ⟨by simp, ?_⟩
    intro d hd
    simp at hd
    rcases hd with rfl | hd
    · exact hc
    · exact h2 d hd
  · rintro ⟨hne, h⟩
    cases s with
    | nil => exact absurd rfl hne
    | cons c s =>
      exact ⟨[c], s, .cls (h c (by simp)), (lang_star_cls p s).mpr (fun d hd => h d (by simp [hd])), rfl⟩

/-- For strings not ending in a newline `^r$` is a full match. -/
theorem pyMatch_eq {r : Re} {s : Str} (h : s.getLast? ≠ some '\n') : pyMatch r s = accepts r s := by
  unfold pyMatch
  cases hl : s.getLast? with
  | none => simp
  | some c =>
    rw [hl] at h
    by_cases hc : c = '\n'
    · subst hc; exact absurd rfl h
    · split
      · rename_i heq; simp at heq; exact absurd heq hc
      · simp

end Py.Re

/-! ### characters -/

theorem char_of_toNat {c d : Char} (h : c.toNat = d.toNat) : c = d := Char.toNat_inj.mp h

theorem isDigit_iff (c : Char) : isDigit c = true ↔ c ∈ cs!"0123456789" := by
  constructor
  · intro h
    simp only [isDigit, Bool.and_eq_true, decide_eq_true_eq] at h
    have h1 : (48 : Nat) ≤ c.toNat := h.1
    have h2 : c.toNat ≤ 57 := h.2
    generalize hn : c.toNat = n at h1 h2
    have hc : c = Char.ofNat n := by rw [← hn, Char.ofNat_toNat]
    subst hc
    clear hn h
    interval_cases n <;> decide
  · intro h
    simp only [List.mem_cons, List.not_mem_nil, or_false] at h
    rcases h with rfl | rfl | rfl | rfl | rfl | rfl | rfl | rfl | rfl | rfl <;> decide

theorem tagChar_iff (c : Char) : TagChar c ↔ (isDigit c || c == '#') = true := by
  rw [Bool.or_eq_true, isDigit_iff, beq_iff_eq]
  simp only [TagChar, List.mem_cons, List.not_mem_nil, or_false]
  tauto

theorem validTagChar_iff (c : Char) : validTagChar c = true ↔ TagChar c := by
  simp [validTagChar, TagChar]

theorem isValidTag_iff (s : Str) : isValidTag s = true ↔ TagText s := by
  simp only [isValidTag, List.all_eq_true, validTagChar_iff]; rfl

theorem digits_iff (s : Str) : Digits s ↔ ∀ c ∈ s, isDigit c = true := by
  simp only [Digits, isDigit_iff]

theorem all_isDigit_iff (s : Str) : s.all isDigit = true ↔ Digits s := by
  rw [digits_iff, List.all_eq_true]

theorem TagText.of_digits {s : Str} (h : Digits s) : TagText s := by
  intro c hc
  rw [tagChar_iff, Bool.or_eq_true, isDigit_iff]
  exact .inl (h c hc)

theorem TagText.not_star {s : Str} (h : TagText s) : '*' ∉ s := fun hs => by
  have := h _ hs; revert this; simp [TagChar]

theorem Digits.not_hash {s : Str} (h : Digits s) : '#' ∉ s := fun hs => by
  have := h _ hs; revert this; simp

theorem TagText.nil : TagText [] := by intro c hc; simp at hc
theorem Digits.nil : Digits [] := by intro c hc; simp at hc

theorem TagText.append {s t : Str} (hs : TagText s) (ht : TagText t) : TagText (s ++ t) := by
  intro c hc
  rcases List.mem_append.mp hc with h | h
  · exact hs c h
  · exact ht c h

theorem TagText.append_iff {s t : Str} : TagText (s ++ t) ↔ TagText s ∧ TagText t :=
  ⟨fun h => ⟨fun c hc => h c (by simp [hc]), fun c hc => h c (by simp [hc])⟩, fun h => TagText.append h.1 h.2⟩

theorem TagText.cons_hash {s : Str} : TagText ('#' :: s) ↔ TagText s := by
  constructor
  · intro h c hc; exact h c (by simp [hc])
  · intro h c hc
    rcases List.mem_cons.mp hc with rfl | hc
    · simp [TagChar]
    · exact h c hc

theorem TagText.cons {c : Char} {s : Str} : TagText (c :: s) ↔ TagChar c ∧ TagText s := by
  constructor
  · intro h; exact ⟨h c (by simp), fun d hd => h d (by simp [hd])⟩
  · rintro ⟨h1, h2⟩ d hd
    rcases List.mem_cons.mp hd with rfl | hd
    · exact h1
    · exact h2 d hd

/-! ### the regular expressions -/

namespace MsgRe
open Re

theorem lang_digits (s : Str) : Lang digits s ↔ Digits s := by
  rw [digits, digit, lang_star_cls, digits_iff]

/-- `[0-9]*(?:#[0-9]*)*` matches exactly the tag texts. -/
theorem lang_tagRe (s : Str) : Lang tagRe s ↔ TagText s := by
  rw [tagRe, lang_seq]
  constructor
  · rintro ⟨u, v, h1, h2, rfl⟩
    rw [lang_digits] at h1
    rw [params, lang_star] at h2
    obtain ⟨ws, hw, rfl⟩ := h2
    refine TagText.append (TagText.of_digits h1) ?_
    intro c hc
    obtain ⟨w, hw1, hc⟩ := List.mem_flatten.mp hc
    obtain ⟨v, hv, rfl⟩ := (lang_chr_seq _ _ _).mp (hw w hw1)
    rw [lang_digits] at hv
    rcases List.mem_cons.mp hc with rfl | hc
    · simp [TagChar]
    · exact TagText.of_digits hv c hc
  · intro h
    induction s with
    | nil =>
      refine ⟨[], [], (lang_digits _).mpr Digits.nil, ?_, rfl⟩
      rw [params]; exact .starNil
    | cons c s ih =>
      obtain ⟨hc, hs⟩ := TagText.cons.mp h
      obtain ⟨u, v, h1, h2, rfl⟩ := ih hs
      rw [tagChar_iff, Bool.or_eq_true, beq_iff_eq] at hc
      rcases hc with hc | rfl
      · refine ⟨c :: u, v, ?_, h2, rfl⟩
        rw [lang_digits, digits_iff] at *
        intro d hd
        rcases List.mem_cons.mp hd with rfl | hd
        · exact hc
        · exact h1 d hd
      · refine ⟨[], '#' :: u ++ v, (lang_digits _).mpr Digits.nil, ?_, rfl⟩
        rw [params] at *
        exact .starCons ((lang_chr_seq _ _ _).mpr ⟨u, h1, rfl⟩) h2

theorem lang_who (s : Str) : Lang who s ↔ s ≠ [] ∧ TagText s := by
  rw [who, lang_plus_cls]
  simp only [TagText, tagChar_iff]

theorem lang_suffix (s : Str) : Lang suffix s ↔ s = ['#', '#'] := by
  rw [suffix, lang_chr_seq]
  simp [lang_chr]

theorem body_append (a b : List Str) : body (a ++ b) = body a ++ body b := by
  induction a with
  | nil => rfl
  | cons t a ih => simp [body, ih]

theorem lang_values (s : Str) : Lang values s ↔ ∃ vs : List Str, (∀ v ∈ vs, TagText v) ∧ s = body vs := by
  rw [values, lang_star]
  constructor
  · rintro ⟨ws, hw, rfl⟩
    induction ws with
    | nil => exact ⟨[], by simp, rfl⟩
    | cons w ws ih =>
      obtain ⟨vs, h1, h2⟩ := ih (fun x hx => hw x (by simp [hx]))
      obtain ⟨v, hv, rfl⟩ := (lang_chr_seq _ _ _).mp (hw w (by simp))
      rw [lang_tagRe] at hv
      refine ⟨v :: vs, ?_, ?_⟩
      · intro x hx
        rcases List.mem_cons.mp hx with rfl | hx
        · exact hv
        · exact h1 x hx
      · simp [body, h2]
  · rintro ⟨vs, h, rfl⟩
    refine ⟨vs.map ('*' :: ·), ?_, ?_⟩
    · intro w hw
      obtain ⟨v, hv, rfl⟩ := List.mem_map.mp hw
      exact (lang_chr_seq _ _ _).mpr ⟨v, (lang_tagRe v).mpr (h v hv), rfl⟩
    · induction vs with
      | nil => rfl
      | cons v vs ih => simp [body, ← ih (fun x hx => h x (by simp [hx]))]

theorem lang_who_seq (b : Re) (s : Str) : Lang (seq who b) s ↔
    ∃ u v, (u ≠ [] ∧ TagText u) ∧ Lang b v ∧ s = u ++ v := by
  simp only [lang_seq, lang_who]

theorem lang_tagRe_seq (b : Re) (s : Str) : Lang (seq tagRe b) s ↔ ∃ u v, TagText u ∧ Lang b v ∧ s = u ++ v := by
  simp only [lang_seq, lang_tagRe]

theorem lang_digits_seq (b : Re) (s : Str) : Lang (seq digits b) s ↔ ∃ u v, Digits u ∧ Lang b v ∧ s = u ++ v := by
  simp only [lang_seq, lang_digits]

theorem lang_values_seq (b : Re) (s : Str) : Lang (seq values b) s ↔
    ∃ u v, (∃ vs : List Str, (∀ v ∈ vs, TagText v) ∧ u = body vs) ∧ Lang b v ∧ s = u ++ v := by
  simp only [lang_seq, lang_values]

theorem lang_ack (s : Str) : Lang ack s ↔ s = frame [cs!"#", cs!"1"] := by
  simp [ack, lang_chr_seq, lang_suffix, frame, body]

theorem lang_nack (s : Str) : Lang nack s ↔ s = frame [cs!"#", cs!"0"] := by
  simp [nack, lang_chr_seq, lang_suffix, frame, body]

theorem lang_normal (s : Str) : Lang normal s ↔
    ∃ a b c, a ≠ [] ∧ TagText a ∧ TagText b ∧ TagText c ∧ s = frame [a, b, c] := by
  simp only [normal, lang_chr_seq, lang_suffix, lang_who_seq, lang_tagRe_seq]
  constructor
  · rintro ⟨_, ⟨a, _, ⟨ha, ha'⟩, ⟨_, ⟨b, _, hb, ⟨_, ⟨c, _, hc, rfl, rfl⟩, rfl⟩, rfl⟩, rfl⟩, rfl⟩, rfl⟩
    exact ⟨a, b, c, ha, ha', hb, hc, by simp [frame, body]⟩
  · rintro ⟨a, b, c, ha, ha', hb, hc, rfl⟩
    exact ⟨_, ⟨a, _, ⟨ha, ha'⟩, ⟨_, ⟨b, _, hb, ⟨_, ⟨c, _, hc, rfl, rfl⟩, rfl⟩, rfl⟩, rfl⟩, rfl⟩, by simp [frame, body]⟩

theorem lang_status (s : Str) : Lang status s ↔
    ∃ a b, a ≠ [] ∧ TagText a ∧ TagText b ∧ s = frame ['#' :: a, b] := by
  simp only [status, lang_chr_seq, lang_suffix, lang_who_seq, lang_tagRe_seq]
  constructor
  · rintro ⟨_, ⟨_, ⟨a, _, ⟨ha, ha'⟩, ⟨_, ⟨b, _, hb, rfl, rfl⟩, rfl⟩, rfl⟩, rfl⟩, rfl⟩
    exact ⟨a, b, ha, ha', hb, by simp [frame, body]⟩
  · rintro ⟨a, b, ha, ha', hb, rfl⟩
    exact ⟨_, ⟨_, ⟨a, _, ⟨ha, ha'⟩, ⟨_, ⟨b, _, hb, rfl, rfl⟩, rfl⟩, rfl⟩, rfl⟩, by simp [frame, body]⟩

theorem lang_dimReq (s : Str) : Lang dimReq s ↔
    ∃ a b d, a ≠ [] ∧ TagText a ∧ TagText b ∧ Digits d ∧ s = frame ['#' :: a, b, d] := by
  simp only [dimReq, lang_chr_seq, lang_suffix, lang_who_seq, lang_tagRe_seq, lang_digits_seq]
  constructor
  · rintro ⟨_, ⟨_, ⟨a, _, ⟨ha, ha'⟩, ⟨_, ⟨b, _, hb, ⟨_, ⟨c, _, hc, rfl, rfl⟩, rfl⟩, rfl⟩, rfl⟩, rfl⟩, rfl⟩, rfl⟩
    exact ⟨a, b, c, ha, ha', hb, hc, by simp [frame, body]⟩
  · rintro ⟨a, b, c, ha, ha', hb, hc, rfl⟩
    exact ⟨_, ⟨_, ⟨a, _, ⟨ha, ha'⟩, ⟨_, ⟨b, _, hb, ⟨_, ⟨c, _, hc, rfl, rfl⟩, rfl⟩, rfl⟩, rfl⟩, rfl⟩, rfl⟩,
      by simp [frame, body]⟩

theorem lang_dimWrite (s : Str) : Lang dimWrite s ↔
    ∃ a b d vs, a ≠ [] ∧ TagText a ∧ TagText b ∧ Digits d ∧ (∀ v ∈ vs, TagText v) ∧
      s = frame (('#' :: a) :: b :: ('#' :: d) :: vs) := by
  simp only [dimWrite, lang_chr_seq, lang_suffix, lang_who_seq, lang_tagRe_seq, lang_digits_seq, lang_values_seq]
  constructor
  · rintro ⟨_, ⟨_, ⟨a, _, ⟨ha, ha'⟩, ⟨_, ⟨b, _, hb, ⟨_, ⟨_, ⟨d, _, hd, ⟨_, _, ⟨vs, hv, rfl⟩, rfl, rfl⟩, rfl⟩,
      rfl⟩, rfl⟩, rfl⟩, rfl⟩, rfl⟩, rfl⟩, rfl⟩
    exact ⟨a, b, d, vs, ha, ha', hb, hd, hv, by simp [frame, body]⟩
  · rintro ⟨a, b, d, vs, ha, ha', hb, hd, hv, rfl⟩
    exact ⟨_, ⟨_, ⟨a, _, ⟨ha, ha'⟩, ⟨_, ⟨b, _, hb, ⟨_, ⟨_, ⟨d, _, hd, ⟨_, _, ⟨vs, hv, rfl⟩, rfl, rfl⟩, rfl⟩,
      rfl⟩, rfl⟩, rfl⟩, rfl⟩, rfl⟩, rfl⟩, by simp [frame, body]⟩

theorem lang_dimResp (s : Str) : Lang dimResp s ↔
    ∃ a b d vs, a ≠ [] ∧ TagText a ∧ TagText b ∧ TagText d ∧ (∀ v ∈ vs, TagText v) ∧
      s = frame (('#' :: a) :: b :: d :: vs) := by
  simp only [dimResp, lang_chr_seq, lang_suffix, lang_who_seq, lang_tagRe_seq, lang_values_seq]
  constructor
  · rintro ⟨_, ⟨_, ⟨a, _, ⟨ha, ha'⟩, ⟨_, ⟨b, _, hb, ⟨_, ⟨d, _, hd, ⟨_, _, ⟨vs, hv, rfl⟩, rfl, rfl⟩, rfl⟩,
      rfl⟩, rfl⟩, rfl⟩, rfl⟩, rfl⟩, rfl⟩
    exact ⟨a, b, d, vs, ha, ha', hb, hd, hv, by simp [frame, body]⟩
  · rintro ⟨a, b, d, vs, ha, ha', hb, hd, hv, rfl⟩
    exact ⟨_, ⟨_, ⟨a, _, ⟨ha, ha'⟩, ⟨_, ⟨b, _, hb, ⟨_, ⟨d, _, hd, ⟨_, _, ⟨vs, hv, rfl⟩, rfl, rfl⟩, rfl⟩,
      rfl⟩, rfl⟩, rfl⟩, rfl⟩, rfl⟩, by simp [frame, body]⟩

theorem body_eq_join {ts : List Str} (h : ts ≠ []) : body ts = '*' :: join ['*'] ts := by
  induction ts with
  | nil => exact absurd rfl h
  | cons t ts ih =>
    cases ts with
    | nil => simp [body, join]
    | cons u ts => rw [body, ih (by simp)]; simp [join]

/-- The generic pattern matches exactly the frames. -/
theorem lang_generic (s : Str) : Lang generic s ↔
    ∃ ts, ts ≠ [] ∧ (∀ t ∈ ts, TagText t) ∧ s = frame ts := by
  have aux : ∀ w : Str, Lang (plus (seq digits (seq params (opt (chr '*'))))) w ↔
      ∀ c ∈ w, TagChar c ∨ c = '*' := by
    intro w
    have piece : ∀ x : Str, Lang (seq digits (seq params (opt (chr '*')))) x ↔
        ∃ t, TagText t ∧ (x = t ∨ x = t ++ ['*']) := by
      intro x
      constructor
      · intro h
        rw [lang_seq] at h
        obtain ⟨u, v, h1, h2, rfl⟩ := h
        rw [lang_seq] at h2
        obtain ⟨p, o, h2, h3, rfl⟩ := h2
        have ht : TagText (u ++ p) := by
          rw [← lang_tagRe, tagRe]; exact .seq h1 h2
        rw [lang_opt, lang_chr] at h3
        rcases h3 with rfl | rfl
        · exact ⟨u ++ p, ht, .inr (by simp)⟩
        · exact ⟨u ++ p, ht, .inl (by simp)⟩
      · rintro ⟨t, ht, h⟩
        rw [← lang_tagRe, tagRe, lang_seq] at ht
        obtain ⟨u, p, h1, h2, rfl⟩ := ht
        rcases h with rfl | rfl
        · have h := Lang.seq h1 (Lang.seq h2 ((lang_opt (chr '*') []).mpr (.inr rfl)))
          simpa using h
        · have h := Lang.seq h1 (Lang.seq h2 ((lang_opt (chr '*') ['*']).mpr (.inl ((lang_chr _ _).mpr rfl))))
          simpa using h
    constructor
    · intro h c hc
      rw [plus, lang_seq] at h
      obtain ⟨u, v, h1, h2, rfl⟩ := h
      rw [lang_star] at h2
      obtain ⟨ws, hw, rfl⟩ := h2
      have all : ∀ x, Lang (seq digits (seq params (opt (chr '*')))) x → ∀ c ∈ x, TagChar c ∨ c = '*' := by
        intro x hx c hc
        obtain ⟨t, ht, h⟩ := (piece x).mp hx
        rcases h with rfl | rfl
        · exact .inl (ht c hc)
        · rcases List.mem_append.mp hc with hc | hc
          · exact .inl (ht c hc)
          · exact .inr (by simpa using hc)
      rcases List.mem_append.mp hc with hc | hc
      · exact all u h1 c hc
      · obtain ⟨x, hx, hc⟩ := List.mem_flatten.mp hc
        exact all x (hw x hx) c hc
    · intro h
      have hp : Lang (seq digits (seq params (opt (chr '*')))) [] := (piece []).mpr ⟨[], TagText.nil, .inl rfl⟩
      have hs : Lang (star (seq digits (seq params (opt (chr '*'))))) w := by
        induction w with
        | nil => exact .starNil
        | cons c w ih =>
          have hc := h c (by simp)
          have : Lang (seq digits (seq params (opt (chr '*')))) [c] := by
            rcases hc with hc | rfl
            · exact (piece [c]).mpr ⟨[c], TagText.cons.mpr ⟨hc, TagText.nil⟩, .inl rfl⟩
            · exact (piece ['*']).mpr ⟨[], TagText.nil, .inr rfl⟩
          exact .starCons (s := [c]) this (ih (fun d hd => h d (by simp [hd])))
      exact .seq (s := []) hp hs
  rw [generic, lang_chr_seq]
  simp only [lang_seq, lang_suffix, aux]
  constructor
  · rintro ⟨_, ⟨w, _, hw, rfl, rfl⟩, rfl⟩
    refine ⟨split1 '*' w, split1_ne_nil _ _, ?_, ?_⟩
    · intro t ht c hc
      have h1 := not_mem_of_mem_split1 ht
      have h2 := hw c (mem_of_mem_split1 ht c hc)
      rcases h2 with h2 | rfl
      · exact h2
      · exact absurd hc h1
    · rw [frame, body_eq_join (split1_ne_nil _ _), join_split1]; rfl
  · rintro ⟨ts, hne, ht, rfl⟩
    refine ⟨join ['*'] ts ++ ['#', '#'], ⟨join ['*'] ts, _, ?_, rfl, rfl⟩, ?_⟩
    · intro c hc
      rcases mem_join hc with h | ⟨p, hp, h⟩
      · exact .inr (by simpa using h)
      · exact .inl (ht p hp c h)
    · rw [frame, body_eq_join hne]; rfl

end MsgRe
