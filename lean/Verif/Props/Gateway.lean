import Verif.Proofs.Gateway

/-!
# Properties of the gateway item (C54–C61, C71)
-/

open Py Spec M Client Item Gateway

/-! ## C54: dates -/

/-- C54: `set_date` writes one frame with the day of the week, day and month in two digits and the year; read back by
`get_date`, from any message with these values, the date is the same. -/
theorem C54_date_roundtrip (cfg : Config) (d : Date) (hd : d.Valid) :
    ∃ w dd mm yy : Str, (∃ k, k < 7 ∧ TwoDigits w k) ∧ TwoDigits dd d.day ∧ TwoDigits mm d.month ∧ Numeral yy d.year ∧
      Sends cfg (setDate cfg d) (frame [cs!"#13", [], cs!"#1", w, dd, mm, yy]) ∧
      ∀ (m : Msg) (wd : World), m.values = [⟨w⟩, ⟨dd⟩, ⟨mm⟩, ⟨yy⟩] → getDate cfg (some m) wd = (.ok d, wd) := by
  have h' := hd
  obtain ⟨h1, h2, h3, h4, h5, h6⟩ := h'
  have hl : daysInMonth d.year d.month ≤ 31 := by
    rw [daysInMonth_eq h3 h4]; unfold monthLength; split_ifs <;> omega
  have hdd := pad_two (n := d.day) (by omega)
  have hmm := pad_two (n := d.month) (by omega)
  have hyy := year_numeral h2
  have hw : ∃ k, k < 7 ∧ TwoDigits (if d.weekday = 6 then cs!"00" else pad 2 (d.weekday + 1)) k := by
    have : d.weekday < 7 := by unfold Date.weekday; omega
    split_ifs with h6
    · exact ⟨0, by omega, by decide +kernel⟩
    · exact ⟨d.weekday + 1, by omega, pad_two (by omega)⟩
  refine ⟨_, _, _, _, hw, hdd, hmm, hyy.1, ?_, ?_⟩
  · obtain ⟨k, _, hk⟩ := hw
    have he : encodeDate d = .ok [⟨if d.weekday = 6 then cs!"00" else pad 2 (d.weekday + 1)⟩, ⟨pad 2 d.day⟩, ⟨pad 2 d.month⟩,
        ⟨natToStr d.year⟩] := by
      unfold encodeDate
      rw [ofStr_two hdd, ofStr_two hmm, ofStr_ok (TagText.of_digits hyy.1.2.1), ofStr_two hk]
      rfl
    refine sends_lift he (sends_writing cfg (i := item) (by decide +kernel) (dim := cs!"1") (by decide +kernel) (by simp) ?_)
    simp [TagText.of_digits hk.2.1, TagText.of_digits hdd.2.1, TagText.of_digits hmm.2.1, TagText.of_digits hyy.1.2.1]
  · intro m wd hm
    have : decodeDate m.values = .ok d := by
      rw [hm]
      unfold decodeDate
      simp only
      rw [pyInt_two hdd, pyInt_two hmm, pyInt_numeral hyy.1 hyy.2]
      exact dateNew_ok hd
    change (lift (decodeDate m.values) : M Date) wd = _
    rw [this]
    rfl

/-- C54: how `get_date` reads, from a given message or by asking the gateway. -/
theorem C54_get_date (cfg : Config) : Reads cfg (getDate cfg) cs!"*#13**1##" decodeDate :=
  reads_of cfg _ cs!"1" _ (by decide +kernel) fun _ => rfl

/-- C54: over any number of texts, `get_date` succeeds exactly on four values of which the last three are a date. -/
theorem C54_get_date_exact (cfg : Config) (m : Msg) (w : World) (d : Date) (hv : ∀ v ∈ m.values, TagText v.string) :
    (getDate cfg (some m) w).1 = .ok d ↔
      d.Valid ∧ ∃ wd dd mm yy : Str, m.values = [⟨wd⟩, ⟨dd⟩, ⟨mm⟩, ⟨yy⟩] ∧ decimal dd = some d.day ∧
        decimal mm = some d.month ∧ decimal yy = some d.year := by
  rw [(C54_get_date cfg).1]
  have dateNew_inv : ∀ {a b c : Nat} {x : Date}, Date.new a b c = .ok x → x.Valid ∧ x = ⟨a, b, c⟩ := by
    intro a b c x h
    unfold Date.new at h
    unfold cInt at h
    split_ifs at h <;> simp only [ok_bind, error_bind, Int.toNat_natCast] at h <;> try cases h
    split_ifs at h with hc
    cases h
    exact ⟨hc.2.2.2, rfl⟩
  constructor
  · intro h
    simp only at h
    generalize m.values = vs at h hv
    unfold decodeDate at h
    split at h
    · rename_i wd dd mm yy
      simp only [List.mem_cons, List.not_mem_nil, or_false, forall_eq_or_imp, forall_eq] at hv
      rw [pyInt_decimal hv.2.1, pyInt_decimal hv.2.2.1, pyInt_decimal hv.2.2.2] at h
      rcases h1 : decimal dd.string with _ | a <;> rw [h1] at h <;> try cases h
      rcases h2 : decimal mm.string with _ | b <;> rw [h2] at h <;> try cases h
      rcases h3 : decimal yy.string with _ | c <;> rw [h3] at h <;> try cases h
      simp only [ok_bind] at h
      obtain ⟨hvd, rfl⟩ := dateNew_inv h
      exact ⟨hvd, wd.string, dd.string, mm.string, yy.string, rfl, h1, h2, h3⟩
    · cases h
  · rintro ⟨hd, wd, dd, mm, yy, h, h1, h2, h3⟩
    rw [h] at hv ⊢
    simp only [List.mem_cons, List.not_mem_nil, or_false, forall_eq_or_imp, forall_eq] at hv
    unfold decodeDate
    simp only
    rw [pyInt_decimal hv.2.1, pyInt_decimal hv.2.2.1, pyInt_decimal hv.2.2.2, h1, h2, h3]
    exact dateNew_ok hd

/-- The hypotheses are met: a leap day. -/
example : (⟨2024, 2, 29⟩ : Date).Valid ∧ ¬ (⟨1900, 2, 29⟩ : Date).Valid := by decide +kernel

/-! ## C55: the day of the week -/

/-- C55: every date has exactly one day of the week. -/
theorem C55_one_day (d : Date) (hd : IsDate d) : ∃! k, DayOfWeek d k :=
  ⟨sunday0 d, dayOfWeek_all hd, fun _ h => dayOfWeek_eq h⟩

/-- C55: the first field of the frame of `set_date` is the day of the week of the date, in two digits, Sunday is 00. -/
theorem C55_weekday (cfg : Config) (d : Date) (hd : d.Valid) (k : Nat) (hk : DayOfWeek d k) :
    ∃ w dd mm yy : Str, TwoDigits w k ∧ TwoDigits dd d.day ∧ TwoDigits mm d.month ∧ Numeral yy d.year ∧
      Sends cfg (setDate cfg d) (frame [cs!"#13", [], cs!"#1", w, dd, mm, yy]) := by
  have h' := hd
  obtain ⟨h1, h2, h3, h4, h5, h6⟩ := h'
  have hl : daysInMonth d.year d.month ≤ 31 := by
    rw [daysInMonth_eq h3 h4]; unfold monthLength; split_ifs <;> omega
  have hdd := pad_two (n := d.day) (by omega)
  have hmm := pad_two (n := d.month) (by omega)
  have hyy := year_numeral h2
  have hw : TwoDigits (if d.weekday = 6 then cs!"00" else pad 2 (d.weekday + 1)) k := by
    have h7 : d.weekday < 7 := by unfold Date.weekday; omega
    rw [dayOfWeek_eq hk]
    unfold sunday0
    split_ifs with h6
    · rw [h6]; decide +kernel
    · rw [Nat.mod_eq_of_lt (by omega)]
      exact pad_two (by omega)
  refine ⟨_, _, _, _, hw, hdd, hmm, hyy.1, ?_⟩
  have he : encodeDate d = .ok [⟨if d.weekday = 6 then cs!"00" else pad 2 (d.weekday + 1)⟩, ⟨pad 2 d.day⟩, ⟨pad 2 d.month⟩,
      ⟨natToStr d.year⟩] := by
    unfold encodeDate
    rw [ofStr_two hdd, ofStr_two hmm, ofStr_ok (TagText.of_digits hyy.1.2.1), ofStr_two hw]
    rfl
  refine sends_lift he (sends_writing cfg (i := item) (by decide +kernel) (dim := cs!"1") (by decide +kernel) (by simp) ?_)
  simp [TagText.of_digits hw.2.1, TagText.of_digits hdd.2.1, TagText.of_digits hmm.2.1, TagText.of_digits hyy.1.2.1]

/-- The day after Saturday, 1 January 2000, is a Sunday. -/
example : DayOfWeek ⟨2000, 1, 2⟩ 0 :=
  .forward (d := ⟨2000, 1, 1⟩) ⟨by decide, by decide, by decide, by decide, by decide⟩ .anchor

/-! ## C56: times -/

/-- C56: how `get_time` reads. -/
theorem C56_get_time (cfg : Config) : Reads cfg (getTime cfg) cs!"*#13**0##" decodeTime :=
  reads_of cfg _ cs!"0" _ (by decide +kernel) fun _ => rfl

/-- C56, reading: the documented reply (sign digit, two digits of hours) is decoded to the time with its UTC offset. -/
theorem C56_documented_reply (cfg : Config) (m : Msg) (w : World) (h mi s k : Nat) (th tm ts tk : Str) (negative : Bool)
    (hh : h ≤ 23) (hm : mi ≤ 59) (hs : s ≤ 59) (hk : k ≤ 23) (h1 : TwoDigits th h) (h2 : TwoDigits tm mi)
    (h3 : TwoDigits ts s) (h4 : TwoDigits tk k)
    (hv : m.values = [⟨th⟩, ⟨tm⟩, ⟨ts⟩, ⟨(if negative then '1' else '0') :: tk⟩]) :
    getTime cfg (some m) w =
      (.ok ⟨h, mi, s, 0, some (.fixed ((if negative then -1 else 1) * (k * 3600 * 1000000)))⟩, w) := by
  rw [(C56_get_time cfg).1, hv]
  unfold decodeTime
  simp only
  rw [pyInt_two h1, pyInt_two h2, pyInt_two h3, parseTz_documented h4 hk]
  simp only [ok_bind]
  rw [timeNew_ok _ hh hm hs]
  cases negative <;> simp [hourUs] <;> ring

/-- C56: without a known UTC offset `set_time` raises `ValueError` and sends nothing. -/
theorem C56_naive (cfg : Config) (t : Time) (h : t.tz = none ∨ t.tz = some .unknown) :
    Refuses (setTime cfg t) .valueError := by
  refine refuses_lift ?_
  unfold encodeTime
  rcases h with h | h <;> rw [h] <;> rfl

/-- C56 as far as it holds: `set_time` writes one frame with hour, minute and second in two digits; the fourth field has
four digits.  Read back by `get_time`, the time is the same exactly if it has no microseconds and the offset is 0 or -2
hours.  Missing: all other offsets. -/
theorem C56_roundtrip_partial (cfg : Config) (t : Time) (ht : t.Valid) (off : Int) (htz : t.tz = some (.fixed off)) :
    ∃ th tm ts tz : Str, TwoDigits th t.hour ∧ TwoDigits tm t.minute ∧ TwoDigits ts t.second ∧ tz.length = 4 ∧
      Sends cfg (setTime cfg t) (frame [cs!"#13", [], cs!"#0", th, tm, ts, tz]) ∧
      ∀ (m : Msg) (w : World), m.values = [⟨th⟩, ⟨tm⟩, ⟨ts⟩, ⟨tz⟩] → -24 * 3600 * 1000000 < off → off < 24 * 3600 * 1000000 →
        (getTime cfg (some m) w = (.ok t, w) ↔ t.microsecond = 0 ∧ (off = 0 ∨ off = -2 * 3600 * 1000000)) := by
  obtain ⟨hours, hlt, heq, henc⟩ := tzToOwn_run off
  obtain ⟨v1, v2, v3, v4⟩ := ht
  have h1 := pad_two (n := t.hour) (by omega)
  have h2 := pad_two (n := t.minute) (by omega)
  have h3 := pad_two (n := t.second) (by omega)
  have h4 := pad_three hlt
  refine ⟨_, _, _, (if 0 ≤ off then '0' else '1') :: pad 3 hours, h1, h2, h3, ?_, ?_, ?_⟩
  · rw [List.length_cons, h4.2.1]
  · have he : encodeTime t = .ok [⟨pad 2 t.hour⟩, ⟨pad 2 t.minute⟩, ⟨pad 2 t.second⟩,
        ⟨(if 0 ≤ off then '0' else '1') :: pad 3 hours⟩] := by
      unfold encodeTime
      rw [htz, henc, ofStr_two h1, ofStr_two h2, ofStr_two h3]
      rfl
    refine sends_lift he (sends_writing cfg (i := item) (by decide +kernel) (dim := cs!"0") (by decide +kernel) (by simp) ?_)
    have : TagText ((if 0 ≤ off then '0' else '1') :: pad 3 hours) := by
      split_ifs
      · exact TagText.append (s := [_]) (by decide +kernel) h4.1
      · exact TagText.append (s := [_]) (by decide +kernel) h4.1
    simp [TagText.of_digits h1.2.1, TagText.of_digits h2.2.1, TagText.of_digits h3.2.1, this]
  · intro m w hv hlo hhi
    rw [(C56_get_time cfg).1, hv]
    have hd : decodeTime [⟨pad 2 t.hour⟩, ⟨pad 2 t.minute⟩, ⟨pad 2 t.second⟩,
        ⟨(if 0 ≤ off then '0' else '1') :: pad 3 hours⟩] =
        .ok ⟨t.hour, t.minute, t.second, 0, some (.fixed (if 0 ≤ off then ((hours / 10 : Nat) : Int) * hourUs
          else -(((hours / 10 : Nat) : Int) * hourUs)))⟩ := by
      unfold decodeTime
      simp only
      rw [pyInt_two h1, pyInt_two h2, pyInt_two h3, parseTz_written hlt]
      simp only [ok_bind]
      rw [timeNew_ok _ v1 v2 v3]
      split_ifs <;> first | rfl | simp_all
    rw [hd]
    obtain ⟨a, b, c, us, tz⟩ := t
    simp only at htz
    subst htz
    simp only [Prod.mk.injEq, and_true, Except.ok.injEq, Time.mk.injEq, true_and, Option.some.injEq, TzInfo.fixed.injEq]
    have hq : hours / 10 = 0 ∨ hours / 10 = 1 ∨ hours / 10 = 2 := by omega
    unfold hourUs at *
    rcases hq with hq | hq | hq <;> rw [hq] <;> split_ifs <;> omega

/-- C56 fails: in the fourth field there are four digits where the documents have three, and a clock at UTC+1 is read back
as UTC. -/
theorem C56_roundtrip_refuted (cfg : Config) :
    ¬ ∀ (t : Time) (k : Int), t.Valid → t.microsecond = 0 → -24 < k → k < 24 → t.tz = some (.fixed (k * 3600 * 1000000)) →
      ∃ vs : List Tag, encodeTime t = .ok vs ∧ ∀ (m : Msg) (w : World), m.values = vs → getTime cfg (some m) w = (.ok t, w) := by
  intro h
  obtain ⟨vs, h1, h2⟩ := h ⟨14, 30, 25, 0, some (.fixed 3600000000)⟩ 1 (by decide) rfl (by decide) (by decide) rfl
  have := h2 (.dimResp .gateway ⟨[]⟩ ⟨cs!"0"⟩ vs) ⟨[], true, [], []⟩ rfl
  rw [(C56_get_time cfg).1] at this
  have e : encodeTime ⟨14, 30, 25, 0, some (.fixed 3600000000)⟩ = .ok [⟨cs!"14"⟩, ⟨cs!"30"⟩, ⟨cs!"25"⟩, ⟨cs!"0001"⟩] := by
    decide +kernel
  rw [e] at h1
  cases h1
  revert this
  decide +kernel

/-- C56 fails: the time zone field never has the documented three digits. -/
theorem C56_three_digits_refuted (off : Int) : ∃ tz, tzToOwn (some (.fixed off)) = .ok tz ∧ tz.string.length = 4 := by
  obtain ⟨hours, hlt, -, henc⟩ := tzToOwn_run off
  exact ⟨_, henc, by simp [(pad_three hlt).2.1]⟩

/-- The documented example `14:30:25 GMT+1`. -/
example (cfg : Config) (w : World) :
    getTime cfg (some (.dimResp .gateway ⟨[]⟩ ⟨cs!"0"⟩ [⟨cs!"14"⟩, ⟨cs!"30"⟩, ⟨cs!"25"⟩, ⟨cs!"001"⟩])) w =
      (.ok ⟨14, 30, 25, 0, some (.fixed 3600000000)⟩, w) := by
  have := C56_documented_reply cfg (.dimResp .gateway ⟨[]⟩ ⟨cs!"0"⟩ [⟨cs!"14"⟩, ⟨cs!"30"⟩, ⟨cs!"25"⟩, ⟨cs!"001"⟩]) w 14 30 25 1
    cs!"14" cs!"30" cs!"25" cs!"01" false (by decide) (by decide) (by decide) (by decide) (by decide +kernel)
    (by decide +kernel) (by decide +kernel) (by decide +kernel) rfl
  simpa using this

/-! ## C57: date and time -/

/-- C57: how `get_datetime` reads. -/
theorem C57_get_datetime (cfg : Config) : Reads cfg (getDateTime cfg) cs!"*#13**22##" decodeDateTime :=
  reads_of cfg _ cs!"22" _ (by decide +kernel) fun _ => rfl

/-- C57 as far as it holds: the documented reply of eight fields is decoded.  Missing: what `set_datetime` writes. -/
theorem C57_documented_reply_partial (cfg : Config) (m : Msg) (w : World) (d : Date) (hd : d.Valid) (h mi s k : Nat)
    (th tm ts tk tw td tmo ty : Str) (negative : Bool) (hh : h ≤ 23) (hm : mi ≤ 59) (hs : s ≤ 59) (hk : k ≤ 23)
    (h1 : TwoDigits th h) (h2 : TwoDigits tm mi) (h3 : TwoDigits ts s) (h4 : TwoDigits tk k) (h5 : TwoDigits td d.day)
    (h6 : TwoDigits tmo d.month) (h7 : Numeral ty d.year)
    (hv : m.values = [⟨th⟩, ⟨tm⟩, ⟨ts⟩, ⟨(if negative then '1' else '0') :: tk⟩, ⟨tw⟩, ⟨td⟩, ⟨tmo⟩, ⟨ty⟩]) :
    getDateTime cfg (some m) w =
      (.ok ⟨d, ⟨h, mi, s, 0, some (.fixed ((if negative then -1 else 1) * (k * 3600 * 1000000)))⟩⟩, w) := by
  rw [(C57_get_datetime cfg).1, hv]
  have hy : ty.length ≤ 4300 := by
    rw [numeral_iff] at h7
    rw [h7]
    exact (year_numeral hd.2.1).2
  unfold decodeDateTime valueAt
  simp only [List.getElem?_cons_zero, List.getElem?_cons_succ, ok_bind]
  rw [pyInt_two h1, pyInt_two h2, pyInt_two h3, pyInt_two h5, pyInt_two h6, pyInt_numeral h7 hy, parseTz_documented h4 hk]
  simp only [ok_bind]
  rw [dateTimeNew_ok hd _ hh hm hs]
  cases negative <;> simp [hourUs] <;> ring

/-- C57 fails for every date and time: `set_datetime` writes seven fields, and reading these back raises `IndexError`. -/
theorem C57_roundtrip_refuted (cfg : Config) (t : DateTime) (hd : t.date.Valid) (ht : t.time.Valid) (off : Int)
    (htz : t.time.tz = some (.fixed off)) :
    ∃ a b c z d mo y : Str, Sends cfg (setDateTime cfg t) (frame [cs!"#13", [], cs!"#22", a, b, c, z, d, mo, y]) ∧
      ∀ (m : Msg) (w : World), m.values = [⟨a⟩, ⟨b⟩, ⟨c⟩, ⟨z⟩, ⟨d⟩, ⟨mo⟩, ⟨y⟩] →
        getDateTime cfg (some m) w = (.error .indexError, w) := by
  obtain ⟨hours, hlt, heq, henc⟩ := tzToOwn_run off
  obtain ⟨v1, v2, v3, v4⟩ := ht
  have hd' := hd
  obtain ⟨d1, d2, d3, d4, d5, d6⟩ := hd'
  have hl : daysInMonth t.date.year t.date.month ≤ 31 := by
    rw [daysInMonth_eq d3 d4]; unfold monthLength; split_ifs <;> omega
  have h1 := pad_two (n := t.time.hour) (by omega)
  have h2 := pad_two (n := t.time.minute) (by omega)
  have h3 := pad_two (n := t.time.second) (by omega)
  have h4 := pad_three hlt
  have h5 := pad_two (n := t.date.day) (by omega)
  have h6 := pad_two (n := t.date.month) (by omega)
  have h7 := year_numeral d2
  have hz : TagText ((if 0 ≤ off then '0' else '1') :: pad 3 hours) := by
    split_ifs
    · exact TagText.append (s := [_]) (by decide +kernel) h4.1
    · exact TagText.append (s := [_]) (by decide +kernel) h4.1
  refine ⟨pad 2 t.time.hour, pad 2 t.time.minute, pad 2 t.time.second, (if 0 ≤ off then '0' else '1') :: pad 3 hours,
    pad 2 t.date.day, pad 2 t.date.month, natToStr t.date.year, ?_, ?_⟩
  · have he : encodeDateTime t = .ok [⟨pad 2 t.time.hour⟩, ⟨pad 2 t.time.minute⟩, ⟨pad 2 t.time.second⟩,
        ⟨(if 0 ≤ off then '0' else '1') :: pad 3 hours⟩, ⟨pad 2 t.date.day⟩, ⟨pad 2 t.date.month⟩,
        ⟨natToStr t.date.year⟩] := by
      unfold encodeDateTime
      rw [htz, henc, ofStr_two h1, ofStr_two h2, ofStr_two h3, ofStr_two h5, ofStr_two h6,
        ofStr_ok (TagText.of_digits h7.1.2.1)]
      rfl
    refine sends_lift he (sends_writing cfg (i := item) (by decide +kernel) (dim := cs!"22") (by decide +kernel) (by simp) ?_)
    simp [TagText.of_digits h1.2.1, TagText.of_digits h2.2.1, TagText.of_digits h3.2.1, hz, TagText.of_digits h5.2.1,
      TagText.of_digits h6.2.1, TagText.of_digits h7.1.2.1]
  · intro m w hv
    rw [(C57_get_datetime cfg).1, hv]
    unfold decodeDateTime valueAt
    simp only [List.getElem?_cons_zero, List.getElem?_cons_succ, ok_bind]
    rw [pyInt_two h1, pyInt_two h2, pyInt_two h3, pyInt_two h6, pyInt_numeral h7.1 h7.2]
    rfl

/-- C57: without a known UTC offset `set_datetime` raises `ValueError` and sends nothing. -/
theorem C57_naive (cfg : Config) (t : DateTime) (h : t.time.tz = none ∨ t.time.tz = some .unknown) :
    Refuses (setDateTime cfg t) .valueError := by
  refine refuses_lift ?_
  unfold encodeDateTime
  rcases h with h | h <;> rw [h] <;> rfl

/-! ## C58: addresses -/

/-- C58: how `get_ip` and `get_netmask` read. -/
theorem C58_getters (cfg : Config) :
    Reads cfg (getIp cfg) cs!"*#13**10##" (fun vs => dotted vs >>= ipv4) ∧
    Reads cfg (getNetmask cfg) cs!"*#13**11##" dotted :=
  ⟨reads_of cfg _ cs!"10" _ (by decide +kernel) fun _ => rfl, reads_of cfg _ cs!"11" _ (by decide +kernel) fun _ => rfl⟩

/-- C58: `get_ip` succeeds exactly on four numbers of at most 255, and gives the address with these octets. -/
theorem C58_ip_exact (cfg : Config) (m : Msg) (w : World) (ip : Nat) (hv : ∀ v ∈ m.values, TagText v.string) :
    (getIp cfg (some m) w).1 = .ok ip ↔
      ∃ (a b c d : Str) (na nb nc nd : Nat), m.values = [⟨a⟩, ⟨b⟩, ⟨c⟩, ⟨d⟩] ∧ decimal a = some na ∧ decimal b = some nb ∧
        decimal c = some nc ∧ decimal d = some nd ∧ na ≤ 255 ∧ nb ≤ 255 ∧ nc ≤ 255 ∧ nd ≤ 255 ∧
        ip = ((na * 256 + nb) * 256 + nc) * 256 + nd := by
  rw [(C58_getters cfg).1.1]
  simp only
  generalize m.values = vs at hv
  constructor
  · intro h
    by_cases hbad : vs.length ≠ 4 ∨ ∃ v ∈ vs, decimal v.string = none
    · rw [dotted_error hv hbad] at h; cases h
    · push Not at hbad
      obtain ⟨hl, hall⟩ := hbad
      obtain ⟨a, b, c, d, rfl⟩ : ∃ a b c d, vs = [a, b, c, d] := by
        rcases vs with _ | ⟨a, _ | ⟨b, _ | ⟨c, _ | ⟨d, _ | ⟨e, vs⟩⟩⟩⟩⟩ <;> simp at hl
        exact ⟨a, b, c, d, rfl⟩
      simp only [List.mem_cons, List.not_mem_nil, or_false, forall_eq_or_imp, forall_eq] at hv hall
      obtain ⟨na, ha⟩ := Option.ne_none_iff_exists'.1 hall.1
      obtain ⟨nb, hb⟩ := Option.ne_none_iff_exists'.1 hall.2.1
      obtain ⟨nc, hc⟩ := Option.ne_none_iff_exists'.1 hall.2.2.1
      obtain ⟨nd, hd⟩ := Option.ne_none_iff_exists'.1 hall.2.2.2
      rw [dotted_ok hv ha hb hc hd, ok_bind, ipv4_dotted] at h
      split_ifs at h with hle
      cases h
      exact ⟨a.string, b.string, c.string, d.string, na, nb, nc, nd, rfl, ha, hb, hc, hd, hle.1, hle.2.1, hle.2.2.1,
        hle.2.2.2, rfl⟩
  · rintro ⟨a, b, c, d, na, nb, nc, nd, rfl, ha, hb, hc, hd, h1, h2, h3, h4, rfl⟩
    simp only [List.mem_cons, List.not_mem_nil, or_false, forall_eq_or_imp, forall_eq] at hv
    rw [dotted_ok hv ha hb hc hd, ok_bind, ipv4_dotted, if_pos ⟨h1, h2, h3, h4⟩]

/-- C58: everything else raises `ValueError`. -/
theorem C58_ip_error (cfg : Config) (m : Msg) (w : World) (hv : ∀ v ∈ m.values, TagText v.string) (e : Err) :
    (getIp cfg (some m) w).1 = .error e → e = .valueError := by
  rw [(C58_getters cfg).1.1]
  simp only
  generalize m.values = vs at hv
  intro h
  by_cases hbad : vs.length ≠ 4 ∨ ∃ v ∈ vs, decimal v.string = none
  · rw [dotted_error hv hbad] at h; cases h; rfl
  · push Not at hbad
    obtain ⟨hl, hall⟩ := hbad
    obtain ⟨a, b, c, d, rfl⟩ : ∃ a b c d, vs = [a, b, c, d] := by
        rcases vs with _ | ⟨a, _ | ⟨b, _ | ⟨c, _ | ⟨d, _ | ⟨e, vs⟩⟩⟩⟩⟩ <;> simp at hl
        exact ⟨a, b, c, d, rfl⟩
    simp only [List.mem_cons, List.not_mem_nil, or_false, forall_eq_or_imp, forall_eq] at hv hall
    obtain ⟨na, ha⟩ := Option.ne_none_iff_exists'.1 hall.1
    obtain ⟨nb, hb⟩ := Option.ne_none_iff_exists'.1 hall.2.1
    obtain ⟨nc, hc⟩ := Option.ne_none_iff_exists'.1 hall.2.2.1
    obtain ⟨nd, hd⟩ := Option.ne_none_iff_exists'.1 hall.2.2.2
    rw [dotted_ok hv ha hb hc hd, ok_bind, ipv4_dotted] at h
    split_ifs at h
    cases h
    rfl

/-- C58: `get_netmask` prints the four numbers with dots between them, without leading zeros. -/
theorem C58_netmask (cfg : Config) (m : Msg) (w : World) (a b c d : Str) (na nb nc nd : Nat) (ta tb tc td : Str)
    (hv : m.values = [⟨a⟩, ⟨b⟩, ⟨c⟩, ⟨d⟩]) (ht : TagText a ∧ TagText b ∧ TagText c ∧ TagText d)
    (ha : decimal a = some na) (hb : decimal b = some nb) (hc : decimal c = some nc) (hd : decimal d = some nd)
    (h1 : Numeral ta na) (h2 : Numeral tb nb) (h3 : Numeral tc nc) (h4 : Numeral td nd) :
    getNetmask cfg (some m) w = (.ok (ta ++ cs!"." ++ tb ++ cs!"." ++ tc ++ cs!"." ++ td), w) := by
  rw [(C58_getters cfg).2.1, hv, dotted_ok ht ha hb hc hd, (numeral_iff _ _).1 h1, (numeral_iff _ _).1 h2,
    (numeral_iff _ _).1 h3, (numeral_iff _ _).1 h4]

/-- C58: `get_netmask` raises `ValueError` on anything but four numbers. -/
theorem C58_netmask_error (cfg : Config) (m : Msg) (w : World) (hv : ∀ v ∈ m.values, TagText v.string)
    (h : m.values.length ≠ 4 ∨ ∃ v ∈ m.values, decimal v.string = none) :
    getNetmask cfg (some m) w = (.error .valueError, w) := by
  rw [(C58_getters cfg).2.1, dotted_error hv h]

/-! ## C59: the MAC address -/

/-- C59 as far as it holds: the six transmitted texts, with colons between them. -/
theorem C59_mac_partial (cfg : Config) :
    Reads cfg (getMacaddress cfg) cs!"*#13**12##" decodeMac ∧
    ∀ a b c d e f : Tag, decodeMac [a, b, c, d, e, f] =
      .ok (a.string ++ ':' :: b.string ++ ':' :: c.string ++ ':' :: d.string ++ ':' :: e.string ++ ':' :: f.string) :=
  ⟨reads_of cfg _ cs!"12" _ (by decide +kernel) fun _ => rfl, fun a b c d e f => by simp [decodeMac, join]⟩

/-- C59 fails for every address: the numbers stay decimal. -/
theorem C59_mac_refuted (cfg : Config) (w : World) (m : Msg) (ns : List Nat) (hlen : ns.length = 6) (hn : ∀ n ∈ ns, n ≤ 255)
    (hv : m.values = ns.map fun n => ⟨natToStr n⟩) :
    ∃ s, getMacaddress cfg (some m) w = (.ok s, w) ∧ s ≠ join cs!":" (ns.map hexPair) := by
  have hne : ∀ n < 256, natToStr n ≠ hexPair n ∧ ':' ∉ natToStr n ∧ ':' ∉ hexPair n := by decide +kernel
  rcases ns with _ | ⟨a, _ | ⟨b, _ | ⟨c, _ | ⟨d, _ | ⟨e, _ | ⟨f, _ | ⟨g, ns⟩⟩⟩⟩⟩⟩⟩ <;> simp at hlen
  refine ⟨join cs!":" ([a, b, c, d, e, f].map natToStr), ?_, ?_⟩
  · rw [(C59_mac_partial cfg).1.1, hv]; rfl
  · intro h
    have h' := congrArg (split1 ':') h
    rw [split1_join (by simp) (fun p hp => ?_), split1_join (by simp) (fun p hp => ?_)] at h'
    · simp only [List.map_cons, List.cons.injEq] at h'
      exact (hne a (by have := hn a (by simp); omega)).1 h'.1
    · obtain ⟨n, hmem, rfl⟩ := List.mem_map.1 hp
      exact (hne n (by have := hn n hmem; omega)).2.2
    · obtain ⟨n, hmem, rfl⟩ := List.mem_map.1 hp
      exact (hne n (by have := hn n hmem; omega)).2.1

/-! ## C60: the model -/

/-- The codes the documents list (`docs/original/who13.md:130-134`). -/
def Spec.documentedModels : List (Str × GatewayModel) :=
  [(cs!"6", .f452), (cs!"7", .f452v), (cs!"11", .mhServer2), (cs!"13", .h4684)]

/-- C60: `get_model` reads the first value, and never fails if there is one. -/
theorem C60_get_model (cfg : Config) :
    Reads cfg (getModel cfg) cs!"*#13**15##" (fun vs => (valueAt vs 0).map GatewayModel.ofStr) ∧
    ∀ (m : Msg) (w : World) (v : Tag) (vs : List Tag), m.values = v :: vs →
      getModel cfg (some m) w = (.ok (GatewayModel.ofStr v.string), w) := by
  have h := reads_of cfg (getModel cfg) cs!"15" (fun vs => (valueAt vs 0).map GatewayModel.ofStr) (by decide +kernel) fun _ => rfl
  refine ⟨h, fun m w v vs hv => ?_⟩
  rw [h.1, hv]
  rfl

/-- C60 as far as it holds: the codes of the enumeration give their model, every other text gives `GENERIC`.  Missing: the
documented code 13. -/
theorem C60_model_partial (s : Str) :
    (∀ m : GatewayModel, s = m.code → GatewayModel.ofStr s = m) ∧
    ((∀ m : GatewayModel, s ≠ m.code) → GatewayModel.ofStr s = .generic) ∧
    ∀ p ∈ documentedModels, p.1 ≠ cs!"13" → GatewayModel.ofStr p.1 = p.2 := by
  refine ⟨fun m h => ?_, fun h => ?_, by decide⟩
  · subst h; cases m <;> decide
  · unfold GatewayModel.ofStr
    rw [List.find?_eq_none.2]
    · rfl
    · intro m _
      simpa using fun e => h m e.symm

/-- C60 fails: the documents list code 13 for the H4684, and it is reported as `GENERIC`. -/
theorem C60_h4684_refuted : (cs!"13", GatewayModel.h4684) ∈ documentedModels ∧ GatewayModel.ofStr cs!"13" = .generic := by
  decide

/-! ## C61: uptime and versions -/

/-- C61: how the getters read. -/
theorem C61_getters (cfg : Config) :
    Reads cfg (getUptime cfg) cs!"*#13**19##" decodeUptime ∧
    Reads cfg (getFirmware cfg) cs!"*#13**16##" decodeVersion ∧
    Reads cfg (getKernelVersion cfg) cs!"*#13**23##" decodeVersion ∧
    Reads cfg (getDistributionVersion cfg) cs!"*#13**24##" decodeVersion :=
  ⟨reads_of cfg _ cs!"19" _ (by decide +kernel) fun _ => rfl, reads_of cfg _ cs!"16" _ (by decide +kernel) fun _ => rfl,
   reads_of cfg _ cs!"23" _ (by decide +kernel) fun _ => rfl, reads_of cfg _ cs!"24" _ (by decide +kernel) fun _ => rfl⟩

/-- C61: the first three values with dots between them. -/
theorem C61_version (a b c : Tag) (vs : List Tag) :
    decodeVersion (a :: b :: c :: vs) = .ok (a.string ++ cs!"." ++ b.string ++ cs!"." ++ c.string) := rfl

/-- C61: fewer than three values raise `IndexError`. -/
theorem C61_version_short (vs : List Tag) (h : vs.length < 3) : decodeVersion vs = .error .indexError := by
  rcases vs with _ | ⟨a, _ | ⟨b, _ | ⟨c, vs⟩⟩⟩ 
  · rfl
  · rfl
  · rfl
  · simp only [List.length_cons] at h
    omega

/-- C61: four numbers give the total number of seconds; above 999999999 days Python's `timedelta` overflows. -/
theorem C61_uptime (d h m s : Tag) (vs : List Tag) (nd nh nm ns : Nat)
    (ht : TagText d.string ∧ TagText h.string ∧ TagText m.string ∧ TagText s.string)
    (h1 : decimal d.string = some nd) (h2 : decimal h.string = some nh) (h3 : decimal m.string = some nm)
    (h4 : decimal s.string = some ns) :
    decodeUptime (d :: h :: m :: s :: vs) =
      if nd * 86400 + nh * 3600 + nm * 60 + ns < 1000000000 * 86400 then
        .ok ((nd * 86400 + nh * 3600 + nm * 60 + ns : Nat) : Int)
      else .error .overflowError := by
  rw [decodeUptime_flat]
  have p : ∀ {v : Tag} {n : Nat}, TagText v.string → decimal v.string = some n →
      (Except.ok v.string >>= pyInt : Except Err Int) = .ok (n : Int) := by
    intro v n hv hn
    rw [ok_bind, pyInt_decimal hv, hn]
  rw [show valueAt (d :: h :: m :: s :: vs) 0 = .ok d.string from rfl, show valueAt (d :: h :: m :: s :: vs) 1 = .ok h.string from rfl,
    show valueAt (d :: h :: m :: s :: vs) 2 = .ok m.string from rfl, show valueAt (d :: h :: m :: s :: vs) 3 = .ok s.string from rfl,
    p ht.1 h1, p ht.2.1 h2, p ht.2.2.1 h3, p ht.2.2.2 h4, ok_bind, ok_bind, ok_bind, ok_bind]
  exact timedeltaNew_nat nd nh nm ns _ (by simp only [Nat.cast_add, Nat.cast_mul, Nat.cast_ofNat])

/-- C61: of the first four values, the first that is missing raises `IndexError`, the first that is not a number raises
`ValueError`, whichever comes first. -/
theorem C61_uptime_errors (vs : List Tag) (hv : ∀ v ∈ vs, TagText v.string) (k : Nat) (hk : k < 4)
    (hpre : ∀ j < k, ∃ v, vs[j]? = some v ∧ decimal v.string ≠ none) :
    (vs[k]? = none → decodeUptime vs = .error .indexError) ∧
    (∀ v, vs[k]? = some v → decimal v.string = none → decodeUptime vs = .error .valueError) := by
  have part : ∀ {j : Nat}, (∃ v, vs[j]? = some v ∧ decimal v.string ≠ none) →
      ∃ n : Nat, ((valueAt vs j) >>= pyInt) = .ok (n : Int) := by
    rintro j ⟨v, hj, hd⟩
    obtain ⟨n, hn⟩ := Option.ne_none_iff_exists'.1 hd
    refine ⟨n, ?_⟩
    unfold valueAt
    rw [hj]
    change pyInt v.string = _
    rw [pyInt_decimal (hv v (List.mem_of_getElem? hj)), hn]
  have none' : ∀ {j : Nat}, vs[j]? = none → ((valueAt vs j) >>= pyInt) = .error .indexError := by
    intro j hj; unfold valueAt; rw [hj]; rfl
  have bad : ∀ {j : Nat} {v : Tag}, vs[j]? = some v → decimal v.string = none →
      ((valueAt vs j) >>= pyInt) = .error .valueError := by
    intro j v hj hd
    unfold valueAt
    rw [hj]
    change pyInt v.string = _
    rw [pyInt_decimal (hv v (List.mem_of_getElem? hj)), hd]
  have main : ∀ e, ((valueAt vs k) >>= pyInt) = .error e → decodeUptime vs = .error e := by
    intro e he
    rw [decodeUptime_flat]
    interval_cases k
    · rw [he]; rfl
    · obtain ⟨n0, h0⟩ := part (hpre 0 (by omega))
      rw [h0, he]; rfl
    · obtain ⟨n0, h0⟩ := part (hpre 0 (by omega))
      obtain ⟨n1, h1⟩ := part (hpre 1 (by omega))
      rw [h0, h1, he]; rfl
    · obtain ⟨n0, h0⟩ := part (hpre 0 (by omega))
      obtain ⟨n1, h1⟩ := part (hpre 1 (by omega))
      obtain ⟨n2, h2⟩ := part (hpre 2 (by omega))
      rw [h0, h1, h2, he]; rfl
  exact ⟨fun h => main _ (none' h), fun v h hd => main _ (bad h hd)⟩

/-- The hypotheses are met. -/
example : decodeUptime [⟨cs!"03"⟩, ⟨cs!"04"⟩, ⟨cs!"05"⟩, ⟨cs!"06"⟩] = .ok 273906 := by
  rw [C61_uptime ⟨cs!"03"⟩ ⟨cs!"04"⟩ ⟨cs!"05"⟩ ⟨cs!"06"⟩ [] 3 4 5 6 (by decide +kernel) (by decide +kernel)
    (by decide +kernel) (by decide +kernel) (by decide +kernel)]
  rfl

/-! ## C71: the network -/

/-- C71: both parts are asked for, one after the other; an error of either is passed on. -/
theorem C71_requests (cfg : Config) (w : World) :
    getNetinfo cfg w =
      match getIp cfg none w with
      | (.error e, w1) => (.error e, w1)
      | (.ok ip, w1) =>
        match getNetmask cfg none w1 with
        | (.error e, w2) => (.error e, w2)
        | (.ok mask, w2) => (ipv4Network ip mask, w2) := by
  have hl : ∀ (x : Except Err (Nat × Nat)) (w : World), lift x w = (x, w) := by intro x w; cases x <;> rfl
  change M.bind (getIp cfg none) _ w = _
  unfold M.bind
  rcases getIp cfg none w with ⟨e | ip, w1⟩
  · rfl
  · change M.bind (getNetmask cfg none) _ w1 = _
    unfold M.bind
    simp only
    rcases getNetmask cfg none w1 with ⟨e | mask, w2⟩
    · rfl
    · exact hl _ _

/-- C71: for the octets of a net mask with `p` ones (or of its complement, the host mask) the network has the prefix length
`p`, and its address is the address of the gateway with the last `32 - p` bits cleared; any other mask raises
`ValueError`. -/
theorem C71_netinfo (ip a b c d : Nat) (mask : Str) (hip : ip < 2 ^ 32) (ta tb tc td : Str) (h1 : Numeral ta a)
    (h2 : Numeral tb b) (h3 : Numeral tc c) (h4 : Numeral td d)
    (hm : mask = ta ++ cs!"." ++ tb ++ cs!"." ++ tc ++ cs!"." ++ td)
    (hle : a ≤ 255 ∧ b ≤ 255 ∧ c ≤ 255 ∧ d ≤ 255) :
    (∀ p ≤ 32, ((a * 256 + b) * 256 + c) * 256 + d = 2 ^ 32 - 2 ^ (32 - p) →
      ipv4Network ip mask = .ok (ip - ip % 2 ^ (32 - p), p)) ∧
    (∀ p, 0 < p → p < 32 → ((a * 256 + b) * 256 + c) * 256 + d = 2 ^ (32 - p) - 1 →
      ipv4Network ip mask = .ok (ip - ip % 2 ^ (32 - p), p)) ∧
    ((∀ p ≤ 32, ((a * 256 + b) * 256 + c) * 256 + d ≠ 2 ^ 32 - 2 ^ (32 - p) ∧
        ((a * 256 + b) * 256 + c) * 256 + d ≠ 2 ^ (32 - p) - 1) →
      ipv4Network ip mask = .error .valueError) := by
  have hi : ipv4 mask = .ok (((a * 256 + b) * 256 + c) * 256 + d) := by
    rw [hm, (numeral_iff _ _).1 h1, (numeral_iff _ _).1 h2, (numeral_iff _ _).1 h3, (numeral_iff _ _).1 h4, ipv4_dotted,
      if_pos hle]
  obtain ⟨k1, k2, k3⟩ := makeNetmask_of hi (by omega)
  unfold ipv4Network
  refine ⟨fun p hp h => ?_, fun p h0 hp h => ?_, fun h => ?_⟩
  · rw [k1 p hp h, ok_bind, land_netmask (by omega) hip]; rfl
  · rw [k2 p h0 hp h, ok_bind, land_netmask (by omega) hip]; rfl
  · rw [k3 h]; rfl

/-- 192.168.1.35 with 255.255.255.0 lies in 192.168.1.0/24. -/
example : ipv4Network 3232235811 cs!"255.255.255.0" = .ok (3232235776, 24) := by decide +kernel

/-- C71: an octet above 255 in the mask raises `ValueError`. -/
theorem C71_octets (ip a b c d : Nat) (mask : Str) (ta tb tc td : Str) (h1 : Numeral ta a) (h2 : Numeral tb b)
    (h3 : Numeral tc c) (h4 : Numeral td d) (hm : mask = ta ++ cs!"." ++ tb ++ cs!"." ++ tc ++ cs!"." ++ td)
    (hle : ¬ (a ≤ 255 ∧ b ≤ 255 ∧ c ≤ 255 ∧ d ≤ 255)) : ipv4Network ip mask = .error .valueError := by
  have hi : ipv4 mask = .error .valueError := by
    rw [hm, (numeral_iff _ _).1 h1, (numeral_iff _ _).1 h2, (numeral_iff _ _).1 h3, (numeral_iff _ _).1 h4, ipv4_dotted,
      if_neg hle]
  unfold ipv4Network makeNetmask
  rw [hi]
  rfl

/-- C71 from end to end: the gateway answers the question for its address with the octets `x y z t` (further responses are
read and ignored), and the question for the mask with the numbers `a b c d`.  Then `get_netinfo` writes the two questions and
nothing else, reads the two answers and nothing else, and gives the network; or raises `ValueError` when there is none. -/
theorem C71_get_netinfo (cfg : Config) (w : World) (hr : Ready cfg w) (m1 m2 : Msg) (rs1 rs2 : List Msg) (rest : List InEv)
    (k1 : ∀ m ∈ m1 :: rs1, ∃ wo we d vs, m = .dimResp wo we d vs) (k2 : ∀ m ∈ m2 :: rs2, ∃ wo we d vs, m = .dimResp wo we d vs)
    (hin : w.inbox = (m1 :: rs1).map .msg ++ .msg .ack :: ((m2 :: rs2).map .msg ++ .msg .ack :: rest))
    (tx ty tz tt ta tb tc td : Str) (x y z t a b c d : Nat)
    (v1 : m1.values = [⟨tx⟩, ⟨ty⟩, ⟨tz⟩, ⟨tt⟩]) (v2 : m2.values = [⟨ta⟩, ⟨tb⟩, ⟨tc⟩, ⟨td⟩])
    (ht : ∀ s ∈ [tx, ty, tz, tt, ta, tb, tc, td], TagText s)
    (hx : decimal tx = some x) (hy : decimal ty = some y) (hz : decimal tz = some z) (htt : decimal tt = some t)
    (ha : decimal ta = some a) (hb : decimal tb = some b) (hc : decimal tc = some c) (hd : decimal td = some d)
    (hle : x ≤ 255 ∧ y ≤ 255 ∧ z ≤ 255 ∧ t ≤ 255) (ip mask : Nat) (hip : ip = ((x * 256 + y) * 256 + z) * 256 + t)
    (hmask : mask = ((a * 256 + b) * 256 + c) * 256 + d) :
    (getNetinfo cfg w).2 = w.after rest (.sent cs!"*#13**10##" :: ((m1 :: rs1).map .got ++ .got .ack ::
      .sent cs!"*#13**11##" :: ((m2 :: rs2).map .got ++ [.got .ack]))) ∧
    (a ≤ 255 ∧ b ≤ 255 ∧ c ≤ 255 ∧ d ≤ 255 →
      (∀ p ≤ 32, mask = 2 ^ 32 - 2 ^ (32 - p) → (getNetinfo cfg w).1 = .ok (ip - ip % 2 ^ (32 - p), p)) ∧
      (∀ p, 0 < p → p < 32 → mask = 2 ^ (32 - p) - 1 → (getNetinfo cfg w).1 = .ok (ip - ip % 2 ^ (32 - p), p)) ∧
      ((∀ p ≤ 32, mask ≠ 2 ^ 32 - 2 ^ (32 - p) ∧ mask ≠ 2 ^ (32 - p) - 1) → (getNetinfo cfg w).1 = .error .valueError)) ∧
    (¬ (a ≤ 255 ∧ b ≤ 255 ∧ c ≤ 255 ∧ d ≤ 255) → (getNetinfo cfg w).1 = .error .valueError) := by
  simp only [List.mem_cons, List.not_mem_nil, or_false, forall_eq_or_imp, forall_eq] at ht
  obtain ⟨t1, t2, t3, t4, t5, t6, t7, t8⟩ := ht
  obtain ⟨na, hna⟩ := (⟨_, numeral_natToStr a⟩ : ∃ s, Numeral s a)
  obtain ⟨nb, hnb⟩ := (⟨_, numeral_natToStr b⟩ : ∃ s, Numeral s b)
  obtain ⟨nc, hnc⟩ := (⟨_, numeral_natToStr c⟩ : ∃ s, Numeral s c)
  obtain ⟨nd, hnd⟩ := (⟨_, numeral_natToStr d⟩ : ∃ s, Numeral s d)
  set tail2 : List InEv := (m2 :: rs2).map .msg ++ .msg .ack :: rest with htail
  have e1 := ((C58_getters cfg).1.2 w).2 hr (m1 :: rs1) (.msg .ack :: tail2) _ _ _ k1 hin (.acknowledged tail2)
  have d1 : (dotted m1.values >>= ipv4) = .ok ip := by
    have := (C58_ip_exact cfg m1 w ip (by
      rw [v1]; simpa using ⟨t1, t2, t3, t4⟩)).2 ⟨tx, ty, tz, tt, x, y, z, t, v1, hx, hy, hz, htt, hle.1, hle.2.1, hle.2.2.1, hle.2.2.2, hip⟩
    rwa [(C58_getters cfg).1.1] at this
  simp only [d1] at e1
  set w1 := w.after tail2 (.sent cs!"*#13**10##" :: ((m1 :: rs1).map .got ++ [.got .ack])) with hw1
  have e2 := ((C58_getters cfg).2.2 w1).2 hr (m2 :: rs2) (.msg .ack :: rest) _ _ _ k2 rfl (.acknowledged rest)
  have d2 : dotted m2.values = .ok (na ++ cs!"." ++ nb ++ cs!"." ++ nc ++ cs!"." ++ nd) := by
    have := C58_netmask cfg m2 w ta tb tc td a b c d na nb nc nd v2 ⟨t5, t6, t7, t8⟩ ha hb hc hd hna hnb hnc hnd
    rw [(C58_getters cfg).2.1] at this
    exact congrArg Prod.fst this
  simp only [d2] at e2
  have e := C71_requests cfg w
  rw [e1] at e
  simp only at e
  rw [e2] at e
  simp only at e
  have hip32 : ip < 2 ^ 32 := by omega
  refine ⟨?_, fun hle' => ?_, fun hle' => ?_⟩
  · rw [e, hw1]; simp [World.after]
  · rw [e]
    subst hmask
    exact C71_netinfo ip a b c d _ hip32 na nb nc nd hna hnb hnc hnd rfl hle'
  · rw [e]
    exact C71_octets ip a b c d _ na nb nc nd hna hnb hnc hnd rfl hle'

/-- The hypotheses are met: 192.168.1.35 and 255.255.255.0. -/
example :
    let m1 := Msg.dimResp .gateway ⟨[]⟩ ⟨cs!"10"⟩ [⟨cs!"192"⟩, ⟨cs!"168"⟩, ⟨cs!"1"⟩, ⟨cs!"35"⟩]
    let m2 := Msg.dimResp .gateway ⟨[]⟩ ⟨cs!"11"⟩ [⟨cs!"255"⟩, ⟨cs!"255"⟩, ⟨cs!"255"⟩, ⟨cs!"0"⟩]
    let cfg : Config := ⟨cs!"12345", .command, ⟨id, id, fun _ _ m => m, fun _ => none⟩, []⟩
    getNetinfo cfg ⟨[], true, [.msg m1, .msg .ack, .msg m2, .msg .ack], []⟩ =
      (.ok (3232235776, 24), ⟨[], true, [], [.sent cs!"*#13**10##", .got m1, .got .ack, .sent cs!"*#13**11##", .got m2, .got .ack]⟩) := by
  decide +kernel
