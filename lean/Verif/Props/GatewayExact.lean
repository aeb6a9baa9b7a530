import Verif.Props.Gateway

/-! # C56, C57: exactly which replies are times -/

open Py Spec Gateway

namespace Spec

/-- A text read as a time zone: nothing at all for UTC, or a sign (`0` for east, anything else for west) and the number of
hours in the two characters behind it. -/
def ZoneText (z : Str) (off : Int) : Prop :=
  (z = [] ∧ off = 0) ∨ ∃ sign rest k, z = sign :: rest ∧ decimal (rest.take 2) = some k ∧ k ≤ 23 ∧
    off = (if sign = '0' then 1 else -1) * (k * 3600 * 1000000)

end Spec

namespace GatewayExact

theorem tz_exact {t : Tag} (ht : TagText t.string) (tz : TzInfo) :
    parseTz t = .ok tz ↔ ∃ off, tz = .fixed off ∧ ZoneText t.string off := by
  unfold parseTz
  rcases hs : t.string with _ | ⟨sign, rest⟩
  · constructor
    · intro h
      cases h
      exact ⟨0, rfl, .inl ⟨rfl, rfl⟩⟩
    · rintro ⟨off, rfl, ⟨-, rfl⟩ | ⟨_, _, _, h, _⟩⟩
      · rfl
      · cases h
  · rw [hs] at ht
    have hr : TagText (rest.take 2) := fun c hc => ht c (by simp [List.mem_of_mem_take hc])
    dsimp only
    rw [pyInt_decimal hr]
    constructor
    · intro h
      rcases hk : decimal (rest.take 2) with _ | k <;> rw [hk] at h
      · cases h
      · simp only [ok_bind] at h
        unfold TzInfo.new at h
        split_ifs at h with h1 h2 h2
        · cases h
          refine ⟨_, rfl, .inr ⟨sign, rest, k, rfl, hk, ?_, ?_⟩⟩
          · simp only [hourUs] at h2; omega
          · rw [if_pos h1]; simp only [hourUs]; omega
        · cases h
          refine ⟨_, rfl, .inr ⟨sign, rest, k, rfl, hk, ?_, ?_⟩⟩
          · simp only [hourUs] at h2; omega
          · rw [if_neg h1]; simp only [hourUs]; omega
    · rintro ⟨off, rfl, ⟨h, _⟩ | ⟨sign', rest', k, h, hk, hl, rfl⟩⟩
      · cases h
      · cases h
        rw [hk]
        simp only [ok_bind]
        unfold TzInfo.new
        split_ifs with h1 h2 h2
        · congr 2; simp only [hourUs]; omega
        · exfalso; simp only [hourUs] at h2; omega
        · congr 2; simp only [hourUs]; omega
        · exfalso; simp only [hourUs] at h2; omega

theorem timeNew_inv {a b c : Nat} {tz : TzInfo} {x : Time} (h : Time.new a b c tz = .ok x) :
    x.Valid ∧ x = ⟨a, b, c, 0, some tz⟩ := by
  unfold Time.new at h
  unfold cInt at h
  split_ifs at h <;> simp only [ok_bind, error_bind, Int.toNat_natCast] at h <;> try cases h
  split_ifs at h with hc
  cases h
  exact ⟨hc.2.2.2, rfl⟩

theorem dateNew_inv {a b c : Nat} {x : Date} (h : Date.new a b c = .ok x) : x.Valid ∧ x = ⟨a, b, c⟩ := by
  unfold Date.new at h
  unfold cInt at h
  split_ifs at h <;> simp only [ok_bind, error_bind, Int.toNat_natCast] at h <;> try cases h
  split_ifs at h with hc
  cases h
  exact ⟨hc.2.2.2, rfl⟩

theorem dateTimeNew_inv {y mo d a b c : Nat} {tz : TzInfo} {x : DateTime} (h : DateTime.new y mo d a b c tz = .ok x) :
    x.date.Valid ∧ x.time.Valid ∧ x = ⟨⟨y, mo, d⟩, ⟨a, b, c, 0, some tz⟩⟩ := by
  unfold DateTime.new at h
  have hc : ∀ n : Nat, cInt (n : Int) = .ok (n : Int) ∨ ∃ e, cInt (n : Int) = .error e := by
    intro n; unfold cInt; split_ifs <;> simp
  rcases hc y with h1 | ⟨e, h1⟩ <;> rw [h1] at h <;> try cases h
  rcases hc mo with h1 | ⟨e, h1⟩ <;> simp only [ok_bind] at h <;> rw [h1] at h <;> try cases h
  rcases hc d with h1 | ⟨e, h1⟩ <;> simp only [ok_bind] at h <;> rw [h1] at h <;> try cases h
  rcases hc a with h1 | ⟨e, h1⟩ <;> simp only [ok_bind] at h <;> rw [h1] at h <;> try cases h
  rcases hc b with h1 | ⟨e, h1⟩ <;> simp only [ok_bind] at h <;> rw [h1] at h <;> try cases h
  rcases hc c with h1 | ⟨e, h1⟩ <;> simp only [ok_bind] at h <;> rw [h1] at h <;> try cases h
  simp only [ok_bind] at h
  rcases hd : Date.new y mo d with e | date <;> rw [hd] at h <;> try cases h
  rcases ht : Time.new a b c tz with e | time <;> simp only [ok_bind] at h <;> rw [ht] at h <;> try cases h
  obtain ⟨hd, rfl⟩ := dateNew_inv hd
  obtain ⟨ht, rfl⟩ := timeNew_inv ht
  exact ⟨hd, ht, rfl⟩

end GatewayExact

open GatewayExact

/-- C56: over any number of texts, `get_time` succeeds exactly on four values of which the first three are a time of day and
the last is a time zone of whole hours. -/
theorem C56_get_time_exact (cfg : Config) (m : Msg) (w : World) (t : Time) (hv : ∀ v ∈ m.values, TagText v.string) :
    (getTime cfg (some m) w).1 = .ok t ↔
      t.hour ≤ 23 ∧ t.minute ≤ 59 ∧ t.second ≤ 59 ∧ t.microsecond = 0 ∧ ∃ (th tm ts tz : Str) (off : Int),
        m.values = [⟨th⟩, ⟨tm⟩, ⟨ts⟩, ⟨tz⟩] ∧ decimal th = some t.hour ∧ decimal tm = some t.minute ∧
        decimal ts = some t.second ∧ t.tz = some (.fixed off) ∧ ZoneText tz off := by
  rw [(C56_get_time cfg).1]
  dsimp only
  generalize m.values = vs at hv
  constructor
  · intro h
    unfold decodeTime at h
    split at h
    · rename_i a b c z
      simp only [List.mem_cons, List.not_mem_nil, or_false, forall_eq_or_imp, forall_eq] at hv
      rw [pyInt_decimal hv.1, pyInt_decimal hv.2.1, pyInt_decimal hv.2.2.1] at h
      rcases h1 : decimal a.string with _ | na <;> rw [h1] at h <;> try cases h
      rcases h2 : decimal b.string with _ | nb <;> rw [h2] at h <;> try cases h
      rcases h3 : decimal c.string with _ | nc <;> rw [h3] at h <;> try cases h
      rcases h4 : parseTz z with e | tz <;> rw [h4] at h <;> try cases h
      simp only [ok_bind] at h
      obtain ⟨⟨v1, v2, v3, -⟩, rfl⟩ := timeNew_inv h
      obtain ⟨off, rfl, hz⟩ := (tz_exact hv.2.2.2 tz).1 h4
      exact ⟨v1, v2, v3, rfl, a.string, b.string, c.string, z.string, off, rfl, h1, h2, h3, rfl, hz⟩
    · cases h
  · rintro ⟨v1, v2, v3, v4, th, tm, ts, tz, off, rfl, h1, h2, h3, h4, h5⟩
    simp only [List.mem_cons, List.not_mem_nil, or_false, forall_eq_or_imp, forall_eq] at hv
    unfold decodeTime
    simp only
    rw [pyInt_decimal hv.1, pyInt_decimal hv.2.1, pyInt_decimal hv.2.2.1, h1, h2, h3,
      (tz_exact hv.2.2.2 (.fixed off)).2 ⟨off, rfl, h5⟩]
    simp only [ok_bind]
    rw [timeNew_ok _ v1 v2 v3, ← v4, ← h4]

/-- The hypotheses are met: `14:30:25`, two hours west of Greenwich, and without a time zone. -/
example : ZoneText cs!"102" (-7200000000) ∧ ZoneText [] 0 ∧ decimal cs!"14" = some 14 :=
  ⟨.inr ⟨'1', cs!"02", 2, rfl, by decide, by decide, by decide⟩, .inl ⟨rfl, rfl⟩, by decide⟩

/-- C57: over any number of texts, `get_datetime` succeeds exactly on at least eight values: a time of day, a time zone of whole
hours, anything, and a date.  Values behind the eighth are not read. -/
theorem C57_get_datetime_exact (cfg : Config) (m : Msg) (w : World) (t : DateTime) (hv : ∀ v ∈ m.values, TagText v.string) :
    (getDateTime cfg (some m) w).1 = .ok t ↔
      IsDate t.date ∧ t.date.year ≤ 9999 ∧ t.time.hour ≤ 23 ∧ t.time.minute ≤ 59 ∧ t.time.second ≤ 59 ∧ t.time.microsecond = 0 ∧
      ∃ (th tm ts tz wd dd mo yy : Str) (more : List Tag) (off : Int),
        m.values = [⟨th⟩, ⟨tm⟩, ⟨ts⟩, ⟨tz⟩, ⟨wd⟩, ⟨dd⟩, ⟨mo⟩, ⟨yy⟩] ++ more ∧ decimal th = some t.time.hour ∧
        decimal tm = some t.time.minute ∧ decimal ts = some t.time.second ∧ t.time.tz = some (.fixed off) ∧ ZoneText tz off ∧
        decimal dd = some t.date.day ∧ decimal mo = some t.date.month ∧ decimal yy = some t.date.year := by
  rw [(C57_get_datetime cfg).1, ← and_assoc, ← valid_iff]
  dsimp only
  generalize m.values = vs at hv
  constructor
  · intro h
    obtain ⟨a, b, c, z, wd, dd, mo, yy, more, rfl⟩ : ∃ a b c z wd dd mo yy more, vs = [a, b, c, z, wd, dd, mo, yy] ++ more := by
      rcases hl : vs[7]? with _ | y
      · exfalso
        unfold decodeDateTime at h
        have e : valueAt vs 7 = .error .indexError := by unfold valueAt; rw [hl]
        rw [e] at h
        revert h
        simp only [error_bind]
        rcases valueAt vs 0 with _ | v0 <;> simp only [error_bind, ok_bind] <;> try (intro h; cases h)
        rcases pyInt v0 with _ | n0 <;> simp only [error_bind, ok_bind] <;> try (intro h; cases h)
        rcases valueAt vs 1 with _ | v1 <;> simp only [error_bind, ok_bind] <;> try (intro h; cases h)
        rcases pyInt v1 with _ | n1 <;> simp only [error_bind, ok_bind] <;> try (intro h; cases h)
        rcases valueAt vs 2 with _ | v2 <;> simp only [error_bind, ok_bind] <;> try (intro h; cases h)
        rcases pyInt v2 with _ | n2 <;> simp only [error_bind, ok_bind] <;> try (intro h; cases h)
        rcases valueAt vs 3 with _ | v3 <;> simp only [error_bind, ok_bind] <;> try (intro h; cases h)
        rcases valueAt vs 5 with _ | v5 <;> simp only [error_bind, ok_bind] <;> try (intro h; cases h)
        rcases pyInt v5 with _ | n5 <;> simp only [error_bind, ok_bind] <;> try (intro h; cases h)
        rcases valueAt vs 6 with _ | v6 <;> simp only [error_bind, ok_bind] <;> try (intro h; cases h)
        rcases pyInt v6 with _ | n6 <;> simp only [error_bind, ok_bind] <;> try (intro h; cases h)
      · rcases vs with _ | ⟨a, _ | ⟨b, _ | ⟨c, _ | ⟨z, _ | ⟨wd, _ | ⟨dd, _ | ⟨mo, _ | ⟨yy, more⟩⟩⟩⟩⟩⟩⟩⟩ <;> try (simp at hl)
        exact ⟨a, b, c, z, wd, dd, mo, yy, more, rfl⟩
    unfold decodeDateTime at h
    simp only [valueAt, List.cons_append, List.nil_append, List.getElem?_cons_zero, List.getElem?_cons_succ, ok_bind] at h
    simp only [List.cons_append, List.nil_append, List.mem_cons, forall_eq_or_imp] at hv
    obtain ⟨p1, p2, p3, p4, p5, p6, p7, p8, -⟩ := hv
    rw [pyInt_decimal p1, pyInt_decimal p2, pyInt_decimal p3, pyInt_decimal p6, pyInt_decimal p7, pyInt_decimal p8] at h
    rcases h1 : decimal a.string with _ | na <;> rw [h1] at h <;> try cases h
    rcases h2 : decimal b.string with _ | nb <;> rw [h2] at h <;> try cases h
    rcases h3 : decimal c.string with _ | nc <;> rw [h3] at h <;> try cases h
    rcases h5 : decimal dd.string with _ | nd <;> rw [h5] at h <;> try cases h
    rcases h6 : decimal mo.string with _ | nm <;> rw [h6] at h <;> try cases h
    rcases h7 : decimal yy.string with _ | ny <;> rw [h7] at h <;> try cases h
    rcases h4 : parseTz z with e | tz <;> rw [h4] at h <;> try cases h
    simp only [ok_bind] at h
    obtain ⟨vd, ⟨v1, v2, v3, -⟩, rfl⟩ := dateTimeNew_inv h
    obtain ⟨off, rfl, hz⟩ := (tz_exact p4 tz).1 h4
    exact ⟨vd, v1, v2, v3, rfl, a.string, b.string, c.string, z.string, wd.string, dd.string, mo.string, yy.string, more, off,
      rfl, h1, h2, h3, rfl, hz, h5, h6, h7⟩
  · rintro ⟨vd, v1, v2, v3, v4, th, tm, ts, tz, wd, dd, mo, yy, more, off, rfl, h1, h2, h3, h4, h5, h6, h7, h8⟩
    simp only [List.cons_append, List.nil_append, List.mem_cons, forall_eq_or_imp] at hv
    obtain ⟨p1, p2, p3, p4, p5, p6, p7, p8, -⟩ := hv
    unfold decodeDateTime
    simp only [valueAt, List.cons_append, List.nil_append, List.getElem?_cons_zero, List.getElem?_cons_succ, ok_bind]
    rw [pyInt_decimal p1, pyInt_decimal p2, pyInt_decimal p3, pyInt_decimal p6, pyInt_decimal p7, pyInt_decimal p8, h1, h2, h3, h6,
      h7, h8, (tz_exact p4 (.fixed off)).2 ⟨off, rfl, h5⟩]
    simp only [ok_bind]
    rw [dateTimeNew_ok vd _ v1 v2 v3, ← v4, ← h4]

/-- C57: so no reply with fewer than eight values is ever a date and time. -/
example (cfg : Config) (m : Msg) (w : World) (t : DateTime) (hv : ∀ v ∈ m.values, TagText v.string) (hl : m.values.length < 8) :
    (getDateTime cfg (some m) w).1 ≠ .ok t := by
  intro h
  obtain ⟨-, -, -, -, -, -, _, _, _, _, _, _, _, _, more, _, e, -⟩ := (C57_get_datetime_exact cfg m w t hv).1 h
  rw [e] at hl
  simp at hl
  omega
