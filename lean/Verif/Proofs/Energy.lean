import Verif.Model.Energy
import Verif.Spec.Energy
import Verif.Proofs.Queries
import Mathlib.Data.List.Forall2

/-!
# Lemmas about energy items
-/

open Py Spec M Client Item

namespace Energy

/-! ## Rounding -/

theorem round_small {n : Nat} (h : n < 2 ^ 53) : roundDouble n = n := by unfold roundDouble; rw [if_pos h]

theorem isDouble_small {n : Nat} (h : n < 2 ^ 53) : IsDouble n := ⟨n, 0, h, by simp⟩

/-- Between two neighbours with 53 significant bits there is no other double. -/
theorem isDouble_gap {q s y : Nat} (hq : 2 ^ 52 ≤ q) (hy : IsDouble y) :
    y ≤ q * 2 ^ s ∨ (q + 1) * 2 ^ s ≤ y := by
  obtain ⟨m, e, hm, rfl⟩ := hy
  by_cases he : s ≤ e
  · obtain ⟨d, rfl⟩ := Nat.exists_eq_add_of_le he
    rw [pow_add, ← mul_assoc, mul_right_comm]
    by_cases h : m * 2 ^ d ≤ q
    · exact .inl (Nat.mul_le_mul_right _ h)
    · exact .inr (Nat.mul_le_mul_right _ (by omega))
  · left
    have h1 : e + 1 ≤ s := by omega
    have h2 : (2 : Nat) ^ (e + 1) ≤ 2 ^ s := Nat.pow_le_pow_right (by norm_num) h1
    have h3 : m * 2 ^ e ≤ 2 ^ 53 * 2 ^ e := Nat.mul_le_mul_right _ (by omega)
    have h4 : (2 : Nat) ^ 53 * 2 ^ e = 2 ^ 52 * 2 ^ (e + 1) := by ring
    calc m * 2 ^ e ≤ 2 ^ 52 * 2 ^ (e + 1) := by omega
      _ ≤ q * 2 ^ s := Nat.mul_le_mul hq h2

theorem isDouble_next {q s : Nat} (h1 : 2 ^ 52 ≤ q) (h2 : q < 2 ^ 53) : IsDouble ((q + 1) * 2 ^ s) := by
  by_cases h : q + 1 < 2 ^ 53
  · exact ⟨q + 1, s, h, rfl⟩
  · refine ⟨2 ^ 52, s + 1, by norm_num, ?_⟩
    have : q + 1 = 2 ^ 53 := by omega
    rw [this]; ring

theorem round_nearest (n : Nat) : Nearest n (roundDouble n) := by
  by_cases hn : n < 2 ^ 53
  · rw [round_small hn]
    refine ⟨isDouble_small hn, fun y _ => by simp [dist], ?_⟩
    rintro ⟨y, _, hne, hd⟩
    simp only [dist, Nat.sub_self, Nat.add_zero] at hd
    omega
  · have hn0 : n ≠ 0 := by intro h; simp [h] at hn
    have hlog : 53 ≤ Nat.log2 n := (Nat.le_log2 hn0).2 (by omega)
    set s := Nat.log2 n - 52 with hs
    have hs1 : 1 ≤ s := by omega
    have hlo : 2 ^ (52 + s) ≤ n := by
      have := Nat.log2_self_le hn0
      rwa [show Nat.log2 n = 52 + s by omega] at this
    have hhi : n < 2 ^ (53 + s) := by
      have := Nat.lt_log2_self (n := n)
      rwa [show Nat.log2 n + 1 = 53 + s by omega] at this
    have hp : 0 < 2 ^ s := Nat.two_pow_pos s
    set q := n / 2 ^ s with hq
    set r := n % 2 ^ s with hr
    have hnq : n = q * 2 ^ s + r := by rw [hq, hr, mul_comm]; exact (Nat.div_add_mod n (2 ^ s)).symm
    have hrl : r < 2 ^ s := Nat.mod_lt _ hp
    have hq1 : 2 ^ 52 ≤ q := by
      rw [hq, Nat.le_div_iff_mul_le hp, ← pow_add]; exact hlo
    have hq2 : q < 2 ^ 53 := by
      rw [hq, Nat.div_lt_iff_lt_mul hp, ← pow_add]; exact hhi
    have hval : roundDouble n = (if 2 * r < 2 ^ s then q else if 2 * r > 2 ^ s then q + 1
        else if q % 2 = 0 then q else q + 1) * 2 ^ s := by
      unfold roundDouble
      rw [if_neg hn]
    have hgap := fun y hy => isDouble_gap (y := y) (s := s) hq1 hy
    have hdq : IsDouble (q * 2 ^ s) := ⟨q, s, hq2, rfl⟩
    have hdn : IsDouble ((q + 1) * 2 ^ s) := isDouble_next hq1 hq2
    have hx : (q + 1) * 2 ^ s = q * 2 ^ s + 2 ^ s := by ring
    have hev : q % 2 ≠ 0 → ∃ m e, 2 ^ 52 ≤ m ∧ m < 2 ^ 53 ∧ q * 2 ^ s + 2 ^ s = m * 2 ^ e ∧ 2 ∣ m := by
      intro ho
      by_cases h : q + 1 < 2 ^ 53
      · exact ⟨q + 1, s, by omega, h, hx.symm, by omega⟩
      · refine ⟨2 ^ 52, s + 1, le_refl _, by norm_num, ?_, by norm_num⟩
        have : q = 2 ^ 53 - 1 := by omega
        rw [← hx, this]; ring
    have hev' : q % 2 = 0 → ∃ m e, 2 ^ 52 ≤ m ∧ m < 2 ^ 53 ∧ q * 2 ^ s = m * 2 ^ e ∧ 2 ∣ m :=
      fun h => ⟨q, s, hq1, hq2, rfl, Nat.dvd_of_mod_eq_zero h⟩
    rw [hval]
    generalize 2 ^ s = P at *
    generalize hA : q * P = A at *
    rw [hx] at hgap hdn
    split_ifs with h1 h2 h3
    · rw [hA]
      refine ⟨hdq, fun y hy => ?_, ?_⟩
      · have := hgap y hy; unfold dist; omega
      · rintro ⟨y, hy, hne, hd⟩
        have := hgap y hy
        unfold dist at hd; omega
    · rw [hx]
      refine ⟨hdn, fun y hy => ?_, ?_⟩
      · have := hgap y hy; unfold dist; omega
      · rintro ⟨y, hy, hne, hd⟩
        have := hgap y hy
        unfold dist at hd; omega
    · rw [hA]
      refine ⟨hdq, fun y hy => ?_, fun _ => ?_⟩
      · have := hgap y hy; unfold dist; omega
      · exact hev' h3
    · rw [hx]
      refine ⟨hdn, fun y hy => ?_, fun _ => ?_⟩
      · have := hgap y hy; unfold dist; omega
      · exact hev h3

/-! ## Types of items -/

theorem isNumeric_iff (s : Str) : isNumeric s = true ↔ s ≠ [] ∧ Digits s := by
  unfold isNumeric
  rw [Bool.and_eq_true, all_isDigit_iff]
  simp

theorem getType_none {t : Tag} (h1 : ∀ n, t.string ≠ '1' :: n ∨ n = [] ∨ ¬ Digits n)
    (h5 : ∀ n, t.string ≠ '5' :: n ∨ n = [] ∨ ¬ Digits n) (h7 : ∀ n, t.string ≠ '7' :: n) :
    EnergyManagement.getType t = .error (.invalidTag t.string) := by
  unfold EnergyManagement.getType
  rcases hs : t.string with _ | ⟨c, s⟩
  · rfl
  · have e : ∀ d : Char, startsWith (c :: s) [d] = decide (c = d) := by
      intro d; simp [startsWith]; rfl
    rw [e, e, e]
    have k1 : ¬ (decide (c = '1') && isNumeric ((c :: s).drop 1)) = true := by
      rw [Bool.and_eq_true, isNumeric_iff]
      rintro ⟨hc, h⟩
      simp only [decide_eq_true_eq] at hc
      subst hc
      rcases h1 s with h' | h' | h' <;> simp_all
    have k5 : ¬ (decide (c = '5') && isNumeric ((c :: s).drop 1)) = true := by
      rw [Bool.and_eq_true, isNumeric_iff]
      rintro ⟨hc, h⟩
      simp only [decide_eq_true_eq] at hc
      subst hc
      rcases h5 s with h' | h' | h' <;> simp_all
    have k7 : ¬ decide (c = '7') = true := by
      intro hc
      simp only [decide_eq_true_eq] at hc
      subst hc
      exact h7 s hs
    rw [if_neg k1, if_neg k5, if_neg k7]

theorem getType_seven {t : Tag} {n : Str} (hs : t.string = '7' :: n) :
    EnergyManagement.getType t = (do
      let p ← index t.parameters 0
      if p = cs!"0" then
        let v ← t.tag
        if isNumeric (v.drop 1) then return .actuator
        else .error (.invalidTag t.string)
      else .error (.invalidTag t.string)) := by
  unfold EnergyManagement.getType
  rw [if_neg (by rw [hs]; simp [startsWith]), if_neg (by rw [hs]; simp [startsWith]),
    if_pos (by rw [hs]; simp [startsWith])]

/-! ## Getters -/

theorem asks_of {α : Type} (cfg : Config) (i : Item) (hi : TagText i.wher.string) (dim : Except Err Tag) (d : Tag)
    (hd : dim = .ok d) (ht : TagText d.string) (decode : List Tag → Except Err α) :
    Asks cfg (EnergyManagement.response cfg i dim none >>= fun m => lift (decode m.values))
      (frame ['#' :: i.who.code, i.wher.string, d.string]) decode := by
  subst hd
  have hl : ∀ (x : Except Err α) (w : World), lift x w = (x, w) := by intro x w; cases x <;> rfl
  intro w
  refine ⟨fun hr => ?_, fun hr rs tail r rest acts hrs hin he => ?_⟩
  · have : singleDimReq cfg i d w = (.error .invalidSession, w) := by
      unfold singleDimReq dimStream stream
      rw [send_denied (Queries.not_ready hr)]
    exact bind_error ((lift_bind_ok ..).trans this)
  · have := C37_single cfg i hi d ht w hr rs hrs tail hin r rest acts he
    rcases r with e | ⟨⟩
    · exact bind_error ((lift_bind_ok ..).trans this)
    · rcases rs with _ | ⟨m, rs⟩
      · exact bind_error ((lift_bind_ok ..).trans this)
      · exact (bind_ok ((lift_bind_ok ..).trans this)).trans (hl _ _)

theorem given {α : Type} (cfg : Config) (i : Item) (dim : Except Err Tag) (m : Msg) (decode : List Tag → Except Err α)
    (w : World) : (EnergyManagement.response cfg i dim (some m) >>= fun m => lift (decode m.values)) w = (decode m.values, w) := by
  have hl : ∀ (x : Except Err α) (w : World), lift x w = (x, w) := by intro x w; cases x <;> rfl
  exact hl _ _

theorem pyFloat_eq (s : Str) : pyFloat s = if s ≠ [] ∧ Digits s then .ok (.ofNat (value s)) else .error .valueError := by
  unfold pyFloat
  by_cases h : Digits s
  · simp only [all_isDigit_iff, h, value_eq_strVal h]
  · rw [if_neg (by rw [all_isDigit_iff]; tauto), if_neg (by tauto)]

theorem newNaive_ok {d : Date} (hd : d.Valid) {h m : Nat} (hh : h ≤ 23) (hm : m ≤ 59) :
    DateTime.newNaive d.year d.month d.day h m = .ok ⟨d, ⟨h, m, 0, 0, none⟩⟩ := by
  have h' := hd
  obtain ⟨h1, h2, h3, h4, h5, h6⟩ := h'
  have hl : daysInMonth d.year d.month ≤ 31 := by
    rw [daysInMonth_eq h3 h4]; unfold monthLength; split_ifs <;> omega
  unfold DateTime.newNaive
  rw [cInt_ok (by omega), cInt_ok (by omega), cInt_ok (by omega), cInt_ok (by omega), cInt_ok (by omega)]
  simp only [ok_bind]
  rw [dateNew_ok hd, ok_bind, if_pos ⟨by omega, by omega, by simp [Time.Valid]; omega⟩]
  rfl

/-! ## Stop&Go -/

theorem bitSet_nat (n k : Nat) : StopGo.bitSet n k = n.testBit k := by
  unfold StopGo.bitSet
  rw [Nat.testBit_eq_decide_div_mod_eq]
  congr 1
  rw [eq_iff_iff]
  norm_cast

theorem update_bit (d n : Nat) (h : 250 ≤ d ∧ d ≤ 263) : ∃ u, StopGo.update (natToStr d) n = some u ∧
    ∀ s k, k < 13 → StopGoStatus.bit (u s) k =
      if d = 250 then some (n.testBit k) else if d = 251 + k then some (decide (n ≠ 0)) else StopGoStatus.bit s k := by
  obtain ⟨h1, h2⟩ := h
  interval_cases d
  all_goals
    refine ⟨_, rfl, ?_⟩
    intro s k hk
    interval_cases k
    all_goals simp [StopGoStatus.bit, bitSet_nat]

theorem update_none {dim : Str} (n : Int) (h : ∀ d, 250 ≤ d → d ≤ 263 → dim ≠ natToStr d) : StopGo.update dim n = none := by
  have e : ∀ d, 250 ≤ d → d ≤ 263 → ∀ t, natToStr d = t → dim ≠ t := fun d h1 h2 t ht => ht ▸ h d h1 h2
  unfold StopGo.update
  rw [if_neg (e 250 (by omega) (by omega) _ (by decide +kernel)), if_neg (e 251 (by omega) (by omega) _ (by decide +kernel)),
    if_neg (e 252 (by omega) (by omega) _ (by decide +kernel)), if_neg (e 253 (by omega) (by omega) _ (by decide +kernel)),
    if_neg (e 254 (by omega) (by omega) _ (by decide +kernel)), if_neg (e 255 (by omega) (by omega) _ (by decide +kernel)),
    if_neg (e 256 (by omega) (by omega) _ (by decide +kernel)), if_neg (e 257 (by omega) (by omega) _ (by decide +kernel)),
    if_neg (e 258 (by omega) (by omega) _ (by decide +kernel)), if_neg (e 259 (by omega) (by omega) _ (by decide +kernel)),
    if_neg (e 260 (by omega) (by omega) _ (by decide +kernel)), if_neg (e 261 (by omega) (by omega) _ (by decide +kernel)),
    if_neg (e 262 (by omega) (by omega) _ (by decide +kernel)), if_neg (e 263 (by omega) (by omega) _ (by decide +kernel))]

theorem latest_nil (k : Nat) : latest k [] = none := rfl

theorem latest_one (k : Nat) (p : Nat × Nat) : latest k [p] =
    if p.1 = 250 then some (p.2.testBit k) else if p.1 = 251 + k then some (decide (p.2 ≠ 0)) else none := by
  unfold latest
  simp only [List.reverse_singleton, List.find?_cons, List.find?_nil]
  by_cases h1 : p.1 = 250
  · simp [h1]
  · by_cases h2 : p.1 = 251 + k
    · simp [h2]
    · simp [h1, h2]

theorem latest_cons (k : Nat) (p : Nat × Nat) (ps : List (Nat × Nat)) :
    latest k (p :: ps) = (latest k ps).or (latest k [p]) := by
  unfold latest
  rw [List.reverse_cons, List.find?_append]
  generalize ps.reverse.find? _ = o
  rcases o with _ | q
  · rfl
  · change (if q.1 = 250 then _ else _) = Option.or (if q.1 = 250 then _ else _) _
    split_ifs <;> rfl

theorem body_reply {m : Msg} {p : Nat × Nat} (h : StopGoReply m p) (hp : 250 ≤ p.1 ∧ p.1 ≤ 263) :
    ∃ u, StopGo.statusBody m = .ok [u] ∧
      ∀ s k, k < 13 → StopGoStatus.bit (u s) k = (latest k [p]).or (StopGoStatus.bit s k) := by
  obtain ⟨wo, we, dim, v, vs, rfl, hn, hv⟩ := h
  obtain ⟨u, hu, hb⟩ := update_bit p.1 p.2 hp
  have hd : dim = natToStr p.1 := (numeral_iff dim p.1).1 hn
  refine ⟨u, ?_, fun s k hk => ?_⟩
  · unfold StopGo.statusBody
    change (pyInt v >>= fun val => _) = _
    have ht : TagText v := by
      unfold decimal at hv
      split_ifs at hv with hc
      exact TagText.of_digits hc.2.1
    rw [pyInt_decimal ht, hv, ok_bind, hd]
    dsimp only
    rw [hu]
    rfl
  · rw [hb s k hk]
    rw [latest_one]
    split_ifs <;> rfl

theorem bodies {rs : List Msg} {ps : List (Nat × Nat)} (h : List.Forall₂ StopGoReply rs ps)
    (hp : ∀ p ∈ ps, 250 ≤ p.1 ∧ p.1 ≤ 263) :
    ∃ us, List.Forall₂ (fun m ys => StopGo.statusBody m = .ok ys) rs us ∧
      ∀ s k, k < 13 → StopGoStatus.bit (us.flatten.foldl (fun s u => u s) s) k = (latest k ps).or (StopGoStatus.bit s k) := by
  induction h with
  | nil => exact ⟨[], .nil, fun s k _ => by simp [latest]⟩
  | @cons m p rs ps h1 _ ih =>
    obtain ⟨us, h2, h3⟩ := ih fun q hq => hp q (by simp [hq])
    obtain ⟨u, h4, h5⟩ := body_reply h1 (hp p (by simp))
    refine ⟨[u] :: us, .cons h4 h2, fun s k hk => ?_⟩
    rw [List.flatten_cons, List.foldl_append, List.foldl_cons, List.foldl_nil, h3 _ k hk, h5 s k hk, latest_cons k p ps]
    cases latest k ps <;> rfl

theorem replies_dim {rs : List Msg} {ps : List (Nat × Nat)} (h : List.Forall₂ StopGoReply rs ps) : ∀ m ∈ rs, DimReply m := by
  induction h with
  | nil => simp
  | cons h _ ih =>
    intro m hm
    rcases List.mem_cons.1 hm with rfl | hm
    · obtain ⟨wo, we, dim, v, vs, rfl, _⟩ := h
      exact ⟨_, _, _, _, rfl⟩
    · exact ih m hm

theorem getType_documented {s : Str} {t : TypeEnergy} (h : EnergyAddress s t) : EnergyManagement.getType ⟨s⟩ = .ok t := by
  have seven : ∀ n rest ps, n ≠ [] → Digits n → split1 '#' rest = cs!"0" :: ps →
      EnergyManagement.getType ⟨'7' :: n ++ '#' :: rest⟩ = .ok .actuator := by
    intro n rest ps hne hd hr
    have hn : '#' ∉ '7' :: n := by
      simp only [List.mem_cons, not_or]
      exact ⟨by decide, Digits.not_hash hd⟩
    have hsplit : split1 '#' ('7' :: n ++ '#' :: rest) = ('7' :: n) :: cs!"0" :: ps := by
      rw [split1_append_sep hn, hr]
    have e := getType_seven (t := ⟨'7' :: n ++ '#' :: rest⟩) (n := n ++ '#' :: rest) rfl
    rw [e]
    have hp : (Tag.mk ('7' :: n ++ '#' :: rest)).parameters = cs!"0" :: ps := by
      unfold Tag.parameters; rw [hsplit]; rfl
    have hv : (Tag.mk ('7' :: n ++ '#' :: rest)).tag = .ok ('7' :: n) := by
      unfold Tag.tag; rw [hsplit]; rfl
    rw [hp, hv]
    have : isNumeric n = true := by
      rw [isNumeric_iff]; exact ⟨hne, hd⟩
    simp [index, this]
  cases h with
  | stopGo n hne hd =>
    unfold EnergyManagement.getType
    have : isNumeric (List.drop 1 ('1' :: n)) = true := by rw [isNumeric_iff]; exact ⟨hne, hd⟩
    rw [if_pos (by simpa [startsWith] using this)]
    rfl
  | powerMeter n hne hd =>
    unfold EnergyManagement.getType
    have : isNumeric (List.drop 1 ('5' :: n)) = true := by rw [isNumeric_iff]; exact ⟨hne, hd⟩
    rw [if_neg (by simp [startsWith]), if_pos (by simpa [startsWith] using this)]
    rfl
  | actuator n hne hd => exact seven n cs!"0" [] hne hd rfl
  | actuatorMore n more hne hd =>
    rw [show '7' :: n ++ cs!"#0#" ++ more = '7' :: n ++ '#' :: (cs!"0" ++ '#' :: more) by simp]
    refine seven n _ _ hne hd (split1_append_sep (by decide))

theorem newTag_documented {s : Str} {t : TypeEnergy} (h : EnergyAddress s t) :
    EnergyManagement.newTag ⟨s⟩ = .ok ⟨.energyManagement, ⟨s⟩⟩ := by
  unfold EnergyManagement.newTag
  rw [getType_documented h]
  rfl

theorem newTag_other {s : Str} (h : ∀ t, ¬ EnergyAddress s t) :
    EnergyManagement.newTag ⟨s⟩ = .error (if s.head? = some '7' ∧ '#' ∉ s then .indexError else .invalidTag s) := by
  unfold EnergyManagement.newTag
  by_cases h7 : ∃ n, s = '7' :: n
  · obtain ⟨n, rfl⟩ := h7
    obtain ⟨v, h1, h2, h3, h4⟩ := C02_tag_decomposition ⟨'7' :: n⟩
    rw [getType_seven (n := n) rfl]
    rcases hp : (Tag.mk ('7' :: n)).parameters with _ | ⟨p, ps⟩
    · have hno : '#' ∉ '7' :: n := by
        rw [hp] at h2
        have : '7' :: n = v := by simpa [paramText] using h2
        rw [this]; exact h3
      rw [if_pos ⟨rfl, hno⟩]
      rfl
    · have hyes : '#' ∈ '7' :: n := by
        rw [hp] at h2
        have : '7' :: n = v ++ paramText (p :: ps) := h2
        rw [this]; simp [paramText]
      rw [if_neg (by tauto)]
      change (if p = cs!"0" then _ else _ : Except Err TypeEnergy) >>= _ = _
      by_cases hp0 : p = cs!"0"
      · rw [if_pos hp0, h1, ok_bind]
        have hnum : isNumeric (v.drop 1) = false := by
          rw [← Bool.not_eq_true, isNumeric_iff]
          rintro ⟨hne, hd⟩
          subst hp0
          rw [hp] at h2
          have h2 : '7' :: n = v ++ paramText (cs!"0" :: ps) := h2
          rcases v with _ | ⟨c, v⟩
          · exact hne rfl
          · simp only [List.cons_append, List.cons.injEq] at h2
            obtain ⟨rfl, h2⟩ := h2
            rename_i hn
            rw [hn] at h
            rcases ps with _ | ⟨q, ps⟩
            · exact h _ (by simpa [paramText] using EnergyAddress.actuator v hne hd)
            · exact h _ (by simpa [paramText] using EnergyAddress.actuatorMore v (q ++ paramText ps) hne hd)
        rw [hnum]
        rfl
      · rw [if_neg hp0]
        rfl
  · have hn := fun n => fun e => h7 ⟨n, e⟩
    rw [getType_none (t := ⟨s⟩) ?_ ?_ hn]
    · rw [if_neg]
      · rfl
      · rintro ⟨h', _⟩
        rcases s with _ | ⟨c, s⟩
        · simp at h'
        · simp at h'; exact hn s (by rw [h'])
    · intro n
      by_contra hc
      push Not at hc
      exact h _ (by have := EnergyAddress.stopGo n hc.2.1 hc.2.2; rw [← hc.1] at this; exact this)
    · intro n
      by_contra hc
      push Not at hc
      exact h _ (by have := EnergyAddress.powerMeter n hc.2.1 hc.2.2; rw [← hc.1] at this; exact this)

end Energy
