import Verif.Spec.Written
import Verif.Props.Failure

/-!
# Passwords given as text (C105)
-/

open Py Spec OpenAuth

namespace Written

theorem isIntSpace_iff (c : Char) : isIntSpace c = true ↔ c ∈ ['\t', '\n', '\x0b', '\x0c', '\r', ' '] := by
  have e : ∀ d : Char, c = d ↔ c.toNat = d.toNat := fun d => ⟨fun h => h ▸ rfl, fun h => Char.toNat_inj.mp h⟩
  simp only [isIntSpace, List.mem_cons, List.not_mem_nil, or_false, e, Bool.or_eq_true, Bool.and_eq_true,
    decide_eq_true_eq, beq_iff_eq]
  have h1 : ('\t' : Char).toNat = 9 := rfl
  have h2 : ('\n' : Char).toNat = 10 := rfl
  have h3 : ('\x0b' : Char).toNat = 11 := rfl
  have h4 : ('\x0c' : Char).toNat = 12 := rfl
  have h5 : ('\r' : Char).toNat = 13 := rfl
  have h6 : (' ' : Char).toNat = 32 := rfl
  rw [h1, h2, h3, h4, h5, h6]
  omega

theorem spelled_cons {c : Char} {t ds : Str} (hc : isDigit c = true) (h : Spelled t ds) : Spelled (c :: t) (c :: ds) := by
  have hd : ∀ g, Digits g → Digits (c :: g) := fun g hg =>
    (digits_iff _).mpr fun x hx => by
      rcases List.mem_cons.mp hx with rfl | hx
      · exact hc
      · exact (digits_iff _).mp hg x hx
  cases h with
  | group _ hne hg => exact .group _ (by simp) (hd _ hg)
  | more g t' ds' hne hg ht => exact .more (c :: g) t' ds' (by simp) (hd _ hg) ht

theorem spelled_of_scan (s : Str) : ∀ ds,
    (scanDigits false s = some ds → Spelled s ds) ∧
    (scanDigits true s = some ds → ∀ c, isDigit c = true → Spelled (c :: s) (c :: ds)) := by
  have hone : ∀ c, isDigit c = true → Digits [c] := fun c hc => (digits_iff _).mpr fun x hx => by
    rw [List.mem_singleton.mp hx]; exact hc
  induction s with
  | nil =>
    intro ds
    refine ⟨fun h => by simp [scanDigits] at h, fun h c hc => ?_⟩
    simp only [scanDigits, Option.some.injEq] at h
    subst h
    exact .group _ (by simp) (hone c hc)
  | cons a s ih =>
    intro ds
    by_cases ha : isDigit a = true
    · constructor
      · intro h
        simp only [scanDigits, ha, if_true, Option.map_eq_some_iff] at h
        obtain ⟨ds', h, rfl⟩ := h
        exact (ih ds').2 h a ha
      · intro h c hc
        simp only [scanDigits, ha, if_true, Option.map_eq_some_iff] at h
        obtain ⟨ds', h, rfl⟩ := h
        exact spelled_cons hc ((ih ds').2 h a ha)
    · constructor
      · intro h; simp [scanDigits, ha] at h
      · intro h c hc
        by_cases hu : a = '_'
        · subst hu
          simp only [scanDigits, ha] at h
          simp only [Bool.false_eq_true, if_false, beq_self_eq_true, Bool.and_self, if_true] at h
          exact .more [c] s ds (by simp) (hone c hc) ((ih ds).1 h)
        · simp [scanDigits, ha, hu] at h

theorem scan_append {g r : Str} (hg : Digits g) : scanDigits true (g ++ r) = (scanDigits true r).map (g ++ ·) := by
  induction g with
  | nil => simp
  | cons c g ih =>
    have hc := (digits_iff _).mp hg c (by simp)
    simp only [List.cons_append, scanDigits, hc, if_true, ih (fun x hx => hg x (by simp [hx])), Option.map_map]
    rfl

theorem scan_of_spelled {s ds : Str} (h : Spelled s ds) : scanDigits false s = some ds := by
  induction h with
  | group g hne hg => exact scanDigits_false hg hne
  | more g t ds hne hg ht ih =>
    cases g with
    | nil => exact absurd rfl hne
    | cons c g =>
      have hc := (digits_iff _).mp hg c (by simp)
      have hu : isDigit '_' = false := by decide
      have hg' : Digits g := fun x hx => hg x (by simp [hx])
      simp only [List.cons_append, scanDigits, hc, if_true, scan_append hg', hu, ih]
      simp

theorem spelled_iff (s ds : Str) : Spelled s ds ↔ scanDigits false s = some ds :=
  ⟨scan_of_spelled, (spelled_of_scan s ds).1⟩

theorem spelled_digits {s ds : Str} (h : Spelled s ds) : Digits ds := by
  induction h with
  | group g _ hg => exact hg
  | more g t ds _ hg _ ih =>
    intro c hc
    rcases List.mem_append.mp hc with hc | hc
    · exact hg c hc
    · exact ih c hc

/-- The first and the last character of a spelled number are digits. -/
theorem spelled_ends {s ds : Str} (h : Spelled s ds) : ∃ a b, s.head? = some a ∧ s.getLast? = some b ∧
    isDigit a = true ∧ isDigit b = true := by
  induction h with
  | group g hne hg =>
    refine ⟨g.head hne, g.getLast hne, List.head?_eq_some_head hne, List.getLast?_eq_some_getLast hne, ?_, ?_⟩
    · exact (digits_iff _).mp hg _ (List.head_mem hne)
    · exact (digits_iff _).mp hg _ (List.getLast_mem hne)
  | more g t ds hne hg ht ih =>
    obtain ⟨_, b, _, hb, _, hdb⟩ := ih
    refine ⟨g.head hne, b, ?_, ?_, (digits_iff _).mp hg _ (List.head_mem hne), hdb⟩
    · rw [List.head?_append, List.head?_eq_some_head hne]; rfl
    · rw [List.getLast?_append, List.getLast?_cons, hb]; simp

/-- `s` without the white space around it. -/
def trim (s : Str) : Str := ((s.dropWhile isIntSpace).reverse.dropWhile isIntSpace).reverse

theorem dropWhile_head {t : Str} {a : Char} (h : t.head? = some a) (ha : isIntSpace a = false) :
    t.dropWhile isIntSpace = t := by
  cases t with
  | nil => cases h
  | cons c t => cases h; simp [ha]

theorem trim_append {pre mid post : Str} {a b : Char} (hp : Blank pre) (hq : Blank post) (ha : mid.head? = some a)
    (hb : mid.getLast? = some b) (hsa : isIntSpace a = false) (hsb : isIntSpace b = false) :
    trim (pre ++ mid ++ post) = mid := by
  unfold trim
  rw [List.append_assoc, dropWhile_append_of_all (fun c hc => (isIntSpace_iff c).mpr (hp c hc)),
    dropWhile_head (t := mid ++ post) (a := a) (by rw [List.head?_append, ha]; rfl) hsa, List.reverse_append,
    dropWhile_append_of_all (fun c hc => (isIntSpace_iff c).mpr (hq c (List.mem_reverse.mp hc))),
    dropWhile_head (t := mid.reverse) (a := b) (by rw [List.head?_reverse, hb]) hsb, List.reverse_reverse]

theorem trim_parts (s : Str) : ∃ pre post, s = pre ++ trim s ++ post ∧ Blank pre ∧ Blank post := by
  have hall : ∀ (t : Str), Blank (t.takeWhile isIntSpace) := fun t c hc =>
    (isIntSpace_iff c).mp (by
      have := List.all_takeWhile (p := isIntSpace) (l := t)
      exact List.all_eq_true.mp this c hc)
  refine ⟨s.takeWhile isIntSpace, ((s.dropWhile isIntSpace).reverse.takeWhile isIntSpace).reverse, ?_, hall s,
    fun c hc => hall _ c (List.mem_reverse.mp hc)⟩
  unfold trim
  rw [List.append_assoc, ← List.reverse_append, List.takeWhile_append_dropWhile, List.reverse_reverse,
    List.takeWhile_append_dropWhile]

theorem digit_not_space {c : Char} (h : isDigit c = true) : isIntSpace c = false := by
  rw [← Bool.not_eq_true, isIntSpace_iff]
  intro h'
  simp only [List.mem_cons, List.not_mem_nil, or_false] at h'
  rcases h' with rfl | rfl | rfl | rfl | rfl | rfl <;> revert h <;> decide

theorem pyNat_spelled {s ds : Str} (h : Spelled s ds) (hl : ds.length ≤ 4300) : pyNat s = .ok (value ds) := by
  unfold pyNat
  rw [scan_of_spelled h]
  change (if ds.length ≤ maxStrDigits then _ else _) = _
  rw [if_pos (show ds.length ≤ maxStrDigits from hl), value_eq_strVal (spelled_digits h)]

theorem pyNat_ok {s : Str} {n : Nat} (h : pyNat s = .ok n) : ∃ ds, Spelled s ds ∧ ds.length ≤ 4300 ∧ n = value ds := by
  unfold pyNat at h
  split at h
  · next ds hs =>
    split at h
    · next hl =>
      cases h
      exact ⟨ds, (spelled_iff _ _).mpr hs, hl, (value_eq_strVal (spelled_digits ((spelled_iff _ _).mpr hs))).symm⟩
    · cases h
  · cases h

theorem map_ok {f : Nat → Int} {x : Except Err Nat} {i : Int} (h : x.map f = .ok i) : ∃ n, x = .ok n ∧ i = f n := by
  cases x with
  | error e => cases h
  | ok n => cases h; exact ⟨n, rfl, rfl⟩

theorem pyInt_eq (s : Str) : pyInt s =
    (match trim s with
      | '-' :: r => (pyNat r).map (fun n : Nat => -(n : Int))
      | '+' :: r => (pyNat r).map (fun n : Nat => (n : Int))
      | r => (pyNat r).map (fun n : Nat => (n : Int))) := by
  unfold pyInt
  change (match trim s with | '-' :: r => _ | '+' :: r => _ | r => _) = _
  generalize trim s = t
  split <;> cases pyNat _ <;> rfl

theorem pyInt_iff (s : Str) (i : Int) : pyInt s = .ok i ↔ Writes s i := by
  constructor
  · intro h
    obtain ⟨pre, post, e, hp, hq⟩ := trim_parts s
    rw [pyInt_eq] at h
    generalize trim s = t at *
    split at h
    · next r =>
      obtain ⟨n, hn, rfl⟩ := map_ok h
      obtain ⟨ds, h1, h2, rfl⟩ := pyNat_ok hn
      exact ⟨pre, ['-'], r, post, ds, e, hp, hq, h1, h2, .inr ⟨rfl, rfl⟩⟩
    · next r =>
      obtain ⟨n, hn, rfl⟩ := map_ok h
      obtain ⟨ds, h1, h2, rfl⟩ := pyNat_ok hn
      exact ⟨pre, ['+'], r, post, ds, e, hp, hq, h1, h2, .inl ⟨.inr rfl, rfl⟩⟩
    · obtain ⟨n, hn, rfl⟩ := map_ok h
      obtain ⟨ds, h1, h2, rfl⟩ := pyNat_ok hn
      exact ⟨pre, [], t, post, ds, e, hp, hq, h1, h2, .inl ⟨.inl rfl, rfl⟩⟩
  · rintro ⟨pre, sign, body, post, ds, rfl, hp, hq, hb, hl, hi⟩
    obtain ⟨a, b, ha, hb', hda, hdb⟩ := spelled_ends hb
    have hlast : (sign ++ body).getLast? = some b := by rw [List.getLast?_append, hb']; rfl
    rw [pyInt_eq]
    rcases hi with ⟨rfl | rfl, rfl⟩ | ⟨rfl, rfl⟩
    · rw [trim_append hp hq (a := a) (by simpa using ha) hlast (digit_not_space hda) (digit_not_space hdb)]
      cases body with
      | nil => cases ha
      | cons c body =>
        cases ha
        simp only [List.nil_append]
        split
        · next r e => cases e; exact absurd hda (by decide)
        · next r e => cases e; exact absurd hda (by decide)
        · rw [pyNat_spelled hb hl]; rfl
    · rw [trim_append hp hq (a := '+') rfl hlast (by decide) (digit_not_space hdb)]
      change (pyNat body).map _ = _
      rw [pyNat_spelled hb hl]; rfl
    · rw [trim_append hp hq (a := '-') rfl hlast (by decide) (digit_not_space hdb)]
      change (pyNat body).map _ = _
      rw [pyNat_spelled hb hl]; rfl

end Written

open Written Client

/-- C105: a text that writes an integer is the same password as the integer. -/
theorem C105_means (password : Str) (i : Int) (h : Writes password i) (nonce : Str) :
    ownCalcPassStr password nonce = ownCalcPass i nonce := by
  unfold ownCalcPassStr
  rw [(pyInt_iff _ _).mpr h]
  rfl

/-- C105: every other text raises `ValueError`, whatever the nonce. -/
theorem C105_other (password : Str) (h : ∀ i, ¬ Writes password i) (nonce : Str) :
    ownCalcPassStr password nonce = .error .valueError := by
  unfold ownCalcPassStr
  cases hp : pyInt password with
  | ok i => exact absurd ((pyInt_iff _ _).mp hp) (h i)
  | error e => rw [pyInt_error hp]; rfl

/-- C105: a text writes at most one integer. -/
theorem C105_unique (password : Str) (i j : Int) (hi : Writes password i) (hj : Writes password j) : i = j := by
  have h1 := (pyInt_iff _ _).mpr hi
  rw [(pyInt_iff _ _).mpr hj] at h1
  cases h1; rfl

/-- The decimal numeral of an integer writes it. -/
theorem C105_numeral (i : Int) (digits : Str) (hn : Numeral digits i.natAbs) (hl : digits.length ≤ 4300) :
    Writes (if i < 0 then '-' :: digits else digits) i := by
  obtain ⟨hne, hd, hv, -⟩ := hn
  split
  · next hi =>
    exact ⟨[], ['-'], digits, [], digits, by simp, by simp [Blank], by simp [Blank], .group _ hne hd, hl, .inr ⟨rfl, by omega⟩⟩
  · next hi =>
    exact ⟨[], [], digits, [], digits, by simp, by simp [Blank], by simp [Blank], .group _ hne hd, hl, .inl ⟨.inl rfl, by omega⟩⟩

theorem Written.ack_parsed : Parsed .ack := ⟨cs!"*#*1##", by decide +kernel⟩

/-- C105: when the gateway asks for an OPEN password, a session fails with `ValueError` exactly when the text given as password
writes no integer. -/
theorem C105_start (cfg : Config) (w : World) (c : Msg) (nonce : Str) (rest : List InEv) (net : List (Option (List InEv)))
    (hn : w.network = some (.msg .ack :: .msg c :: rest) :: net) (hc : c.tags = [nonce])
    (hw : ∀ m, InEv.msg m ∈ .msg c :: rest → Parsed m) :
    (start cfg w).1 = .error .valueError ↔ ∀ i, ¬ Writes cfg.password i := by
  constructor
  · intro h i hi
    have hall : ∀ inbox net, w.network = some inbox :: net → ∀ m, .msg m ∈ inbox → Parsed m := by
      intro inbox net' e m hm
      rw [hn] at e
      cases e
      rcases List.mem_cons.mp hm with e | hm
      · cases e; exact ack_parsed
      · exact hw m hm
    rcases C87_failures_partial cfg w _ hall h with e | e | ⟨-, said, rest', net', acts, e, hcf, -⟩
    · cases e
    · cases e
    · rw [hn] at e
      cases hcf with
      | password c' nonce' _ hp => rw [(pyInt_iff _ _).mpr hi] at hp; cases hp
      | confirmation c' k r name more alg ra tag hc' _ _ _ _ _ => cases e; rw [hc] at hc'; cases hc'
  · intro h
    refine (C87_value_error cfg w [.ack, c] rest net _ hn (.password c nonce hc ?_) ?_).1
    · cases hp : pyInt cfg.password with
      | ok i => exact absurd ((pyInt_iff _ _).mp hp) (h i)
      | error e => rw [pyInt_error hp]
    · intro m hm
      rcases List.mem_cons.mp hm with rfl | hm
      · exact ack_parsed
      · rw [List.mem_singleton.mp hm]; exact hw c (by simp)

/-- The hypotheses of `C105_start`: the challenge `*#603356072##` is what the parser gives and has one tag. -/
example : (Msg.generic [cs!"#603356072"]).tags = [cs!"#603356072"] ∧ Parsed (.generic [cs!"#603356072"]) :=
  ⟨rfl, cs!"*#603356072##", by decide +kernel⟩

example : Writes cs!" -12_345\n" (-12345) :=
  ⟨cs!" ", cs!"-", cs!"12_345", cs!"\n", cs!"12345", rfl, by simp [Blank], by simp [Blank],
    .more cs!"12" cs!"345" cs!"345" (by simp) (by decide) (.group _ (by simp) (by decide)), by decide, .inr ⟨rfl, by decide⟩⟩
/-- Trailing and doubled underscores, and signs with a space after them, write nothing. -/
example : ∀ p ∈ [cs!"12_", cs!"1__2", cs!"- 5", cs!"", cs!"0x10", cs!"12.0"], ∀ i, ¬ Writes p i := by
  intro p hp i h
  have h := (pyInt_iff _ _).mpr h
  simp only [List.mem_cons, List.not_mem_nil, or_false] at hp
  have h' : (pyInt p).isOk = true := by rw [h]; rfl
  rcases hp with rfl | rfl | rfl | rfl | rfl | rfl <;> exact absurd h' (by decide +kernel)
