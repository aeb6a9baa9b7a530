import Verif.Spec.Commands
import Verif.Proofs.Items
import Verif.Proofs.Int
import Verif.Props.Items

/-!
# Helper lemmas for the item commands
-/

open Py Spec M Client Item

theorem sends_command {cfg : Config} {m : Msg} (hm : ∀ t ∈ m.tags, TagText t) : Sends cfg (command cfg m) m.str :=
  fun w => ⟨fun hw _ _ _ h => C35_command hw m hm h, C35_no_session cfg m w⟩

theorem sends_normal (cfg : Config) {i : Item} (hi : TagText i.wher.string) {what : Str} (hwhat : TagText what) :
    Sends cfg (sendNormal cfg i what) (frame [i.who.code, what, i.wher.string]) := by
  intro w
  refine ⟨fun hw r rest acts h => C35_normal cfg i hi what hwhat w hw r rest acts h, fun hw => ?_⟩
  unfold sendNormal normalMessage
  rw [ofStr_ok hwhat, ok_bind]
  change (lift (.ok (i.normalMessageTag ⟨what⟩)) >>= fun m => command cfg m) w = _
  rw [lift_bind_ok, C35_no_session cfg _ w hw]

theorem sends_normalTag (cfg : Config) {i : Item} (hi : TagText i.wher.string) {what : Tag} (hwhat : TagText what.string) :
    Sends cfg (sendNormalTag cfg i what) (frame [i.who.code, what.string, i.wher.string]) := by
  intro w
  exact ⟨fun hw r rest acts h => C35_normal_tag cfg i hi what hwhat w hw r rest acts h, fun hw => C35_no_session cfg _ w hw⟩

theorem sends_writingTag (cfg : Config) {i : Item} (hi : TagText i.wher.string) {dim : Tag} (hd : TagText dim.string)
    {vs : List Tag} (hne : vs ≠ []) (hv : ∀ v ∈ vs, TagText v.string) :
    Sends cfg (sendWritingTag cfg i dim vs)
      (frame (('#' :: i.who.code) :: i.wher.string :: ('#' :: dim.string) :: vs.map (·.string))) := by
  have := sends_command (cfg := cfg) (m := writingMessage i dim vs) (tags_writing hi hd hv)
  rwa [str_writing _ _ _ hne] at this

theorem sends_writing (cfg : Config) {i : Item} (hi : TagText i.wher.string) {dim : Str} (hd : TagText dim)
    {vs : List Tag} (hne : vs ≠ []) (hv : ∀ v ∈ vs, TagText v.string) :
    Sends cfg (sendWriting cfg i dim vs)
      (frame (('#' :: i.who.code) :: i.wher.string :: ('#' :: dim) :: vs.map (·.string))) := by
  have := sends_writingTag cfg hi (dim := ⟨dim⟩) hd hne hv
  intro w
  unfold sendWriting
  rw [ofStr_ok hd, lift_bind_ok]
  exact this w

theorem sends_lift {α} {cfg : Config} {x : Except Err α} {a : α} {k : α → M Unit} {t : Str} (hx : x = .ok a)
    (h : Sends cfg (k a) t) : Sends cfg (lift x >>= k) t := by
  subst hx
  intro w
  rw [lift_bind_ok]
  exact h w

theorem refuses_lift {α} {x : Except Err α} {e : Err} {k : α → M Unit} (hx : x = .error e) : Refuses (lift x >>= k) e := by
  subst hx
  intro w
  rfl

theorem refuses_later {α} {x : Except Err α} {a : α} {k : α → M Unit} {e : Err} (hx : x = .ok a)
    (h : Refuses (k a) e) : Refuses (lift x >>= k) e := by
  subst hx
  intro w
  rw [lift_bind_ok]
  exact h w

theorem refuses_raise (e : Err) : Refuses (M.raise e) e := fun _ => rfl

theorem tags_short (wo : Who) {what : Str} (h : TagText what) : ∀ t ∈ (Msg.generic [wo.code, what]).tags, TagText t := by
  simp [Msg.tags, code_tagText, h]

/-- No member of the enum has a parameter. -/
theorem withParameter_member (what : Str) (p : Int) :
    WhatLight.withParameter what p = .error .valueError := by
  unfold WhatLight.withParameter strInt
  split_ifs
  · have key : ∀ m ∈ WhatLight.all, '#' ∉ m := by decide
    have : ¬ WhatLight.all.contains (what ++ cs!"#" ++ intToStr p) = true := by
      intro hc
      rw [List.contains_iff_mem] at hc
      exact key _ hc (by simp)
    change WhatLight.ofStr _ = _
    unfold WhatLight.ofStr
    rw [if_neg this]
  · rfl

theorem ofInt_numeral {n : Nat} {s : Str} (h : Numeral s n) (hl : s.length ≤ 4300) : Tag.ofInt n = .ok ⟨s⟩ :=
  (C01_tag_int n ⟨s⟩).2 ⟨n, rfl, h, hl⟩

theorem ofInt_small {n : Nat} {s : Str} (h : Numeral s n) (hn : n < 100000) : Tag.ofInt n = .ok ⟨s⟩ := by
  refine ofInt_numeral h ?_
  rw [numeral_iff] at h
  subst h
  have := natToStr_length_le (n := n) (k := 5) (by omega)
  omega

theorem ofInt_any (n : Int) : (∃ t, Tag.ofInt n = .ok t) ∨
    ∃ e, (e = .valueError ∨ ∃ s, e = .invalidTag s) ∧ Tag.ofInt n = .error e := by
  unfold Tag.ofInt strInt
  split_ifs
  · change (∃ t, Tag.ofStr _ = .ok t) ∨ ∃ e, _ ∧ Tag.ofStr _ = .error e
    unfold Tag.ofStr
    split_ifs
    · exact .inl ⟨_, rfl⟩
    · exact .inr ⟨_, .inr ⟨_, rfl⟩, rfl⟩
  · exact .inr ⟨_, .inl rfl, rfl⟩

theorem ofInt_nonneg {n : Int} {t : Tag} (h : Tag.ofInt n = .ok t) : 0 ≤ n := by
  obtain ⟨k, rfl, _⟩ := (C01_tag_int n t).1 h
  omega

theorem strInt_numeral {n : Nat} {s : Str} (h : Numeral s n) (hl : s.length ≤ 4300) : strInt n = .ok s := by
  rw [numeral_iff] at h
  subst h
  have : (natToStr (Int.natAbs (n : Int))).length ≤ maxStrDigits := by simpa [maxStrDigits] using hl
  simp only [strInt, this, if_true]; rfl

theorem tag_param {n : Nat} {s : Str} (h : Numeral s n) (hl : s.length ≤ 4300) {what : Str} (hw : TagText what) :
    (Tag.mk what).withParameterInt n = .ok ⟨what ++ cs!"#" ++ s⟩ := by
  unfold Tag.withParameterInt Tag.withParameter
  rw [strInt_numeral h hl, ok_bind]
  exact ofStr_ok (TagText.append (TagText.append hw (by decide +kernel)) (TagText.of_digits h.2.1))

theorem energy_param {n : Nat} {s : Str} (h : Numeral s n) (hl : s.length ≤ 4300) {what : Str} (hw : TagText what) :
    WhatEnergy.withParameter what n = .ok ⟨what ++ cs!"#" ++ s⟩ := tag_param h hl hw

theorem energy_negative {n : Int} (h : n < 0) : ∃ e : Str → Err,
    (∀ what, e what = .valueError ∨ e what = .invalidTag (what ++ cs!"#" ++ intToStr n)) ∧
    ∀ what, WhatEnergy.withParameter what n = .error (e what) := by
  cases n with
  | ofNat k => exact absurd h (by simp)
  | negSucc k =>
    by_cases hl : (natToStr (Int.natAbs (Int.negSucc k))).length ≤ maxStrDigits
    · refine ⟨fun what => .invalidTag (what ++ cs!"#" ++ intToStr (Int.negSucc k)), fun _ => .inr rfl, fun what => ?_⟩
      unfold WhatEnergy.withParameter strInt
      rw [if_pos hl, ok_bind]
      unfold Tag.ofStr
      rw [if_neg]
      rw [isValidTag_iff]
      intro hv
      have := hv '-' (by simp [intToStr])
      revert this
      simp [TagChar]
    · refine ⟨fun what => .valueError, fun _ => .inl rfl, fun what => ?_⟩
      unfold WhatEnergy.withParameter strInt
      rw [if_neg hl]
      rfl

theorem energy_any (what : Str) (n : Int) : (∃ t, WhatEnergy.withParameter what n = .ok t) ∨
    ∃ e, (e = .valueError ∨ ∃ s, e = .invalidTag s) ∧ WhatEnergy.withParameter what n = .error e := by
  unfold WhatEnergy.withParameter strInt
  split_ifs
  · rw [ok_bind]
    unfold Tag.ofStr
    split_ifs
    · exact .inl ⟨_, rfl⟩
    · exact .inr ⟨_, .inr ⟨_, rfl⟩, rfl⟩
  · exact .inr ⟨_, .inl rfl, rfl⟩

theorem dimmer_none (cfg : Config) (i : Item) : Dimmer.turnOn cfg i none = sendNormal cfg i WhatLight.on ∧
    Dimmer.turnOff cfg i none = sendNormal cfg i WhatLight.off ∧
    Dimmer.upPercent cfg i none none = sendNormal cfg i WhatLight.up1Percent ∧
    Dimmer.downPercent cfg i none none = sendNormal cfg i WhatLight.down1Percent := ⟨rfl, rfl, rfl, rfl⟩

theorem hash_cancel {s t x y : Str} (hs : '#' ∉ s) (ht : '#' ∉ t) (h : s ++ '#' :: x = t ++ '#' :: y) : s = t := by
  induction s generalizing t with
  | nil =>
    cases t with
    | nil => rfl
    | cons c t => simp at h ht; exact absurd h.1 (by simpa using ht.1)
  | cons c s ih =>
    cases t with
    | nil => simp at h hs; exact absurd h.1.symm (by simpa using hs.1)
    | cons d t =>
      simp at h hs ht
      rw [h.1, ih (by simpa using hs.2) (by simpa using ht.2) h.2]
