import Verif.Props.GatewayExact
import Verif.Props.Events

/-! # C52: what gateway events say, without the getters -/

open Py Spec Events Gateway GatewayExact

namespace Spec

/-- What the values of a gateway event for the date, the time, both, the IP address or the uptime say. -/
inductive GatewayTells : Str → List Str → Arg → Prop
  | time (t : Time) (th tm ts tz : Str) (off : Int) (h1 : t.hour ≤ 23) (h2 : t.minute ≤ 59) (h3 : t.second ≤ 59)
      (h4 : t.microsecond = 0) (d1 : decimal th = some t.hour) (d2 : decimal tm = some t.minute)
      (d3 : decimal ts = some t.second) (hz : t.tz = some (.fixed off)) (z : ZoneText tz off) :
      GatewayTells cs!"0" [th, tm, ts, tz] (.time t)
  | date (d : Date) (wd dd mo yy : Str) (h1 : IsDate d) (h2 : d.year ≤ 9999) (d1 : decimal dd = some d.day)
      (d2 : decimal mo = some d.month) (d3 : decimal yy = some d.year) : GatewayTells cs!"1" [wd, dd, mo, yy] (.date d)
  | ip (a b c d : Str) (na nb nc nd : Nat) (d1 : decimal a = some na) (d2 : decimal b = some nb) (d3 : decimal c = some nc)
      (d4 : decimal d = some nd) (h1 : na ≤ 255) (h2 : nb ≤ 255) (h3 : nc ≤ 255) (h4 : nd ≤ 255) :
      GatewayTells cs!"10" [a, b, c, d] (.ip (((na * 256 + nb) * 256 + nc) * 256 + nd))
  | uptime (d h m s : Str) (more : List Str) (nd nh nm ns : Nat) (d1 : decimal d = some nd) (d2 : decimal h = some nh)
      (d3 : decimal m = some nm) (d4 : decimal s = some ns)
      (hl : nd * 86400 + nh * 3600 + nm * 60 + ns < 1000000000 * 86400) :
      GatewayTells cs!"19" (d :: h :: m :: s :: more) (.timedelta ((nd * 86400 + nh * 3600 + nm * 60 + ns : Nat) : Int))
  | datetime (t : DateTime) (th tm ts tz wd dd mo yy : Str) (more : List Str) (off : Int) (h0 : IsDate t.date)
      (h0' : t.date.year ≤ 9999) (h1 : t.time.hour ≤ 23) (h2 : t.time.minute ≤ 59) (h3 : t.time.second ≤ 59)
      (h4 : t.time.microsecond = 0) (d1 : decimal th = some t.time.hour) (d2 : decimal tm = some t.time.minute)
      (d3 : decimal ts = some t.time.second) (hz : t.time.tz = some (.fixed off)) (z : ZoneText tz off)
      (d4 : decimal dd = some t.date.day) (d5 : decimal mo = some t.date.month) (d6 : decimal yy = some t.date.year) :
      GatewayTells cs!"22" ([th, tm, ts, tz, wd, dd, mo, yy] ++ more) (.datetime t)

end Spec

/-- C52 as far as it holds: an event whose values say a date, a time, both, an IP address or an uptime calls the callbacks for
it with this value. -/
theorem C52_documented_partial (wher : Tag) (dim : Str) (vs : List Str) (a : Arg) (h : GatewayTells dim vs a)
    (hv : ∀ v ∈ vs, TagText v) : Delivers (.dimResp .gateway wher ⟨dim⟩ (vs.map Tag.mk)) (.gateway dim) [a] := by
  have ok : ∀ {α : Type} {r : Except Err α × World} {x : α} {w : World}, r.1 = .ok x → r.2 = w → r = (.ok x, w) := by
    rintro α ⟨_, _⟩ x w rfl rfl; rfl
  have cfg : Config := ⟨[], .event, ⟨fun _ => [], fun _ => [], fun _ _ _ => [], fun _ => none⟩, []⟩
  have w : World := ⟨[], false, [], []⟩
  have ht : ∀ v ∈ vs.map Tag.mk, TagText v.string := by simpa using hv
  obtain ⟨v1, v2, v3, v4, v5⟩ := C52_value_partial cfg w wher (vs.map Tag.mk)
  cases h with
  | time t th tm ts tz off h1 h2 h3 h4 d1 d2 d3 hz z =>
    refine v1 t ?_
    have := (C56_get_time_exact cfg (.dimResp .gateway wher ⟨cs!"0"⟩ ([th, tm, ts, tz].map Tag.mk)) w t ht).2
      ⟨h1, h2, h3, h4, th, tm, ts, tz, off, rfl, d1, d2, d3, hz, z⟩
    exact ok this rfl
  | date d wd dd mo yy h1 h2 d1 d2 d3 =>
    refine v2 d ?_
    have := (C54_get_date_exact cfg (.dimResp .gateway wher ⟨cs!"1"⟩ ([wd, dd, mo, yy].map Tag.mk)) w d ht).2
      ⟨(valid_iff d).2 ⟨h1, h2⟩, wd, dd, mo, yy, rfl, d1, d2, d3⟩
    exact ok this rfl
  | ip a b c d na nb nc nd d1 d2 d3 d4 h1 h2 h3 h4 =>
    refine v4 _ ?_
    have := (C58_ip_exact cfg (.dimResp .gateway wher ⟨cs!"10"⟩ ([a, b, c, d].map Tag.mk)) w _ ht).2
      ⟨a, b, c, d, na, nb, nc, nd, rfl, d1, d2, d3, d4, h1, h2, h3, h4, rfl⟩
    exact ok this rfl
  | uptime d h m s more nd nh nm ns d1 d2 d3 d4 hl =>
    refine v5 _ ?_
    have := C61_uptime ⟨d⟩ ⟨h⟩ ⟨m⟩ ⟨s⟩ (more.map Tag.mk) nd nh nm ns
      ⟨hv d (by simp), hv h (by simp), hv m (by simp), hv s (by simp)⟩ d1 d2 d3 d4
    rw [if_pos hl] at this
    exact ok this rfl
  | datetime t th tm ts tz wd dd mo yy more off h0 h0' h1 h2 h3 h4 d1 d2 d3 hz z d4 d5 d6 =>
    refine v3 t ?_
    have := (C57_get_datetime_exact cfg (.dimResp .gateway wher ⟨cs!"22"⟩ (([th, tm, ts, tz, wd, dd, mo, yy] ++ more).map Tag.mk)) w t ht).2
      ⟨h0, h0', h1, h2, h3, h4, th, tm, ts, tz, wd, dd, mo, yy, more.map Tag.mk, off, by simp [Msg.values], d1, d2, d3, hz, z, d4,
        d5, d6⟩
    exact ok this rfl

/-- C52: and an event for one of these whose values say nothing calls nobody. -/
theorem C52_nonsense (wher : Tag) (dim : Str) (hd : dim ∈ [cs!"0", cs!"1", cs!"10", cs!"19", cs!"22"]) (vs : List Str)
    (hv : ∀ v ∈ vs, TagText v) (h : ∀ a, ¬ GatewayTells dim vs a) :
    Ignored (.dimResp .gateway wher ⟨dim⟩ (vs.map Tag.mk)) := by
  have cfg : Config := ⟨[], .event, ⟨fun _ => [], fun _ => [], fun _ _ _ => [], fun _ => none⟩, []⟩
  have w : World := ⟨[], false, [], []⟩
  have ht : ∀ v ∈ vs.map Tag.mk, TagText v.string := by simpa using hv
  refine ignored_of ?_ (fun _ _ h1 _ => by cases h1; exact placed_other (by decide))
  have none_of : ∀ {α : Type} (f : α → List Arg) (r : Except Err α), (∀ x, r ≠ .ok x) → valueArgs f r = none := by
    intro α f r hr
    rcases r with e | x
    · rfl
    · exact absurd rfl (hr x)
  have strs : ∀ {l : List Str} {k : List Tag}, l.map Tag.mk = k → l = k.map (·.string) := by
    rintro l k rfl
    rw [List.map_map]
    exact (List.map_id l).symm
  simp only [List.mem_cons, List.not_mem_nil, or_false] at hd
  rcases hd with rfl | rfl | rfl | rfl | rfl
  · change (valueArgs (fun t => [Arg.time t]) (Gateway.decodeTime (vs.map Tag.mk))).map _ = _
    rw [none_of]; · rfl
    intro t ht'
    obtain ⟨h1, h2, h3, h4, th, tm, ts, tz, off, e, d1, d2, d3, hz, z⟩ :=
      (C56_get_time_exact cfg (.dimResp .gateway wher ⟨cs!"0"⟩ (vs.map Tag.mk)) w t ht).1 ht'
    cases strs e
    exact h _ (.time t th tm ts tz off h1 h2 h3 h4 d1 d2 d3 hz z)
  · change (valueArgs (fun t => [Arg.date t]) (Gateway.decodeDate (vs.map Tag.mk))).map _ = _
    rw [none_of]; · rfl
    intro d ht'
    obtain ⟨h1, wd, dd, mo, yy, e, d1, d2, d3⟩ :=
      (C54_get_date_exact cfg (.dimResp .gateway wher ⟨cs!"1"⟩ (vs.map Tag.mk)) w d ht).1 ht'
    cases strs e
    obtain ⟨h1, h2⟩ := (valid_iff d).1 h1
    exact h _ (.date d wd dd mo yy h1 h2 d1 d2 d3)
  · change (valueArgs (fun t => [Arg.ip t]) (Gateway.dotted (vs.map Tag.mk) >>= ipv4)).map _ = _
    rw [none_of]; · rfl
    intro x ht'
    obtain ⟨a, b, c, d, na, nb, nc, nd, e, d1, d2, d3, d4, h1, h2, h3, h4, rfl⟩ :=
      (C58_ip_exact cfg (.dimResp .gateway wher ⟨cs!"10"⟩ (vs.map Tag.mk)) w x ht).1 ht'
    cases strs e
    exact h _ (.ip a b c d na nb nc nd d1 d2 d3 d4 h1 h2 h3 h4)
  · change (valueArgs (fun t => [Arg.timedelta t]) (Gateway.decodeUptime (vs.map Tag.mk))).map _ = _
    rw [none_of]; · rfl
    intro x ht'
    have all : ∀ k ≤ 4, ∀ j < k, ∃ v, (vs.map Tag.mk)[j]? = some v ∧ decimal v.string ≠ none := by
      intro k
      induction k with
      | zero => intro _ j hj; omega
      | succ k ih =>
        intro hk j hj
        rcases Nat.lt_succ_iff_lt_or_eq.1 hj with hj | rfl
        · exact ih (by omega) j hj
        · have := C61_uptime_errors (vs.map Tag.mk) ht j (by omega) (ih (by omega))
          rw [ht'] at this
          rcases hn : (vs.map Tag.mk)[j]? with _ | v
          · cases this.1 hn
          · exact ⟨v, rfl, fun hd => by cases this.2 v hn hd⟩
    obtain ⟨a, ha, na⟩ := all 4 le_rfl 0 (by omega)
    obtain ⟨b, hb, nb⟩ := all 4 le_rfl 1 (by omega)
    obtain ⟨c, hc, nc⟩ := all 4 le_rfl 2 (by omega)
    obtain ⟨d, hd, nd⟩ := all 4 le_rfl 3 (by omega)
    rcases vs with _ | ⟨x0, _ | ⟨x1, _ | ⟨x2, _ | ⟨x3, more⟩⟩⟩⟩
    · cases ha
    · cases hb
    · cases hc
    · cases hd
    · cases ha; cases hb; cases hc; cases hd
      obtain ⟨n0, e0⟩ := Option.ne_none_iff_exists'.1 na
      obtain ⟨n1, e1⟩ := Option.ne_none_iff_exists'.1 nb
      obtain ⟨n2, e2⟩ := Option.ne_none_iff_exists'.1 nc
      obtain ⟨n3, e3⟩ := Option.ne_none_iff_exists'.1 nd
      have := C61_uptime ⟨x0⟩ ⟨x1⟩ ⟨x2⟩ ⟨x3⟩ (more.map Tag.mk) n0 n1 n2 n3
        ⟨hv x0 (by simp), hv x1 (by simp), hv x2 (by simp), hv x3 (by simp)⟩ e0 e1 e2 e3
      rw [List.map_cons, List.map_cons, List.map_cons, List.map_cons, this] at ht'
      split_ifs at ht' with hl
      exact h _ (.uptime x0 x1 x2 x3 more n0 n1 n2 n3 e0 e1 e2 e3 hl)
  · change (valueArgs (fun t => [Arg.datetime t]) (Gateway.decodeDateTime (vs.map Tag.mk))).map _ = _
    rw [none_of]; · rfl
    intro t ht'
    obtain ⟨h0, h0', h1, h2, h3, h4, th, tm, ts, tz, wd, dd, mo, yy, more, off, e, d1, d2, d3, hz, z, d4, d5, d6⟩ :=
      (C57_get_datetime_exact cfg (.dimResp .gateway wher ⟨cs!"22"⟩ (vs.map Tag.mk)) w t ht).1 ht'
    have e := strs e
    rw [List.map_append] at e
    cases e
    exact h _ (.datetime t th tm ts tz wd dd mo yy _ off h0 h0' h1 h2 h3 h4 d1 d2 d3 hz z d4 d5 d6)

/-- Events of both kinds: the date 29 February 2024, and a date that does not exist. -/
example : GatewayTells cs!"1" [cs!"04", cs!"29", cs!"02", cs!"2024"] (.date ⟨2024, 2, 29⟩) ∧
    ∀ a, ¬ GatewayTells cs!"1" [cs!"04", cs!"29", cs!"02", cs!"2023"] a := by
  refine ⟨.date _ _ _ _ _ (by unfold IsDate; decide +kernel) (by decide) (by decide +kernel) (by decide +kernel) (by decide +kernel), ?_⟩
  intro a h
  cases h with
  | date d wd dd mo yy h1 h2 d1 d2 d3 =>
    have e1 : some d.day = some 29 := d1.symm.trans (by decide +kernel)
    have e2 : some d.month = some 2 := d2.symm.trans (by decide +kernel)
    have e3 : some d.year = some 2023 := d3.symm.trans (by decide +kernel)
    obtain ⟨-, -, -, -, h⟩ := h1
    rw [Option.some.inj e1, Option.some.inj e2, Option.some.inj e3] at h
    exact absurd h (by decide +kernel)
