import Verif.Props.Protocol

/-!
# Which cuts of the byte stream do no harm (C17)
-/

open Py Spec Protocol

namespace Spec

/-- The stream of frames with these tags. -/
def stream (tss : List (List Str)) : Str := (tss.map frame).flatten

/-- A place where a stream of frames may be cut: between two frames, or just before the `##` of a frame. -/
def CleanCut (tss : List (List Str)) (pre : Str) : Prop :=
  ∃ done, done <+: tss ∧ (pre = stream done ∨ pre ++ cs!"##" = stream done)

end Spec

namespace Segments

/-- What a packet with this text yields. -/
def pp (text : Str) : Except Err (List Msg) := parsePieces (split2 '#' '#' text)

/-- The stream with these bodies of frames. -/
def st (bs : List Str) : Str := (bs.map (· ++ cs!"##")).flatten

theorem st_cons (b : Str) (bs : List Str) : st (b :: bs) = b ++ '#' :: '#' :: st bs := by simp [st]

/-- `CleanCut`, for bodies. -/
def Cl (bs : List Str) (pre : Str) : Prop := ∃ done, done <+: bs ∧ (pre = st done ∨ pre ++ cs!"##" = st done)

theorem pp_nil : pp [] = .ok [] := rfl

theorem pp_one {p : Str} (hne : p ≠ []) (h : ¬ HasHH p) : pp p = (parseMessage (p ++ cs!"##")).map fun m => [m] := by
  unfold pp
  rw [split2_of_not_hasHH h, parsePieces, if_neg hne]
  cases parseMessage (p ++ cs!"##") <;> rfl

theorem pp_sep {c r : Str} (h : ¬ HasHH (c ++ cs!"#")) : pp (c ++ '#' :: '#' :: r) =
    if c = [] then pp r else (do let m ← parseMessage (c ++ cs!"##"); let ms ← pp r; return m :: ms) := by
  have := split2_append_sep (b := c) (rest := r) h
  rw [List.append_assoc] at this
  unfold pp
  rw [show c ++ '#' :: '#' :: r = c ++ (cs!"##" ++ r) from rfl, this, parsePieces]

theorem not_hasHH_left {c : Str} (h : ¬ HasHH (c ++ cs!"#")) : ¬ HasHH c := by
  rintro ⟨u, v, e⟩
  exact h ⟨u, v ++ cs!"#", by rw [e]; simp⟩

theorem not_hasHH_suffix {a b : Str} (h : ¬ HasHH (a ++ b)) : ¬ HasHH b := by
  rintro ⟨u, v, e⟩
  exact h ⟨a ++ u, v, by rw [e]; simp⟩

theorem not_hasHH_prefix {a b : Str} (h : ¬ HasHH (a ++ b)) : ¬ HasHH a := by
  rintro ⟨u, v, e⟩
  exact h ⟨u, v ++ b, by rw [e]; simp⟩

theorem parse_hash {q : Str} {m : Msg} (h : parseMessage ('#' :: q) = .ok m) : False := by
  obtain ⟨ts, ⟨hne, -, ⟨u, v, hu, -, e⟩, -⟩, -⟩ := (parseMessage_ok_iff _ _).mp h
  cases u with
  | nil =>
    cases ts with
    | nil => exact hne rfl
    | cons t ts => simp [frame, body] at e
  | cons a u =>
    simp only [List.cons_append] at e
    cases e
    have : isSpace '#' = true := hu '#' (by simp)
    rw [isSpace_hash] at this
    cases this

theorem split2_ne_nil (s : Str) : split2 '#' '#' s ≠ [] := by
  fun_induction split2 '#' '#' s with
  | case1 => simp
  | case2 => simp
  | case3 => simp
  | case4 c d s _ ih =>
    cases h : split2 '#' '#' (d :: s) with
    | nil => exact absurd h ih
    | cons a l => simp [consHead]

/-- A packet that begins with a single `#` is not accepted. -/
theorem pp_hash {r : Str} {ms : List Msg} (hr : r.head? ≠ some '#') (h : pp ('#' :: r) = .ok ms) : False := by
  have key : ∃ q ps, split2 '#' '#' ('#' :: r) = ('#' :: q) :: ps := by
    cases r with
    | nil => exact ⟨[], [], rfl⟩
    | cons d s =>
      have hd : d ≠ '#' := by rintro rfl; exact hr rfl
      rw [split2, if_neg (by simp [hd])]
      cases hs : split2 '#' '#' (d :: s) with
      | nil => exact absurd hs (split2_ne_nil _)
      | cons a l => exact ⟨a, l, rfl⟩
  obtain ⟨q, ps, e⟩ := key
  unfold pp at h
  rw [e, parsePieces, if_neg (by simp)] at h
  cases hm : parseMessage ('#' :: q ++ cs!"##") with
  | error e => rw [hm] at h; cases h
  | ok m => exact parse_hash hm

/-- Packets cannot go on with the second `#` of a terminator. -/
theorem acc_hash {texts : List Str} {mss : List (List Msg)} (ha : List.Forall₂ (fun p ms => pp p = .ok ms) texts mss)
    {s : Str} (hs : s.head? ≠ some '#') (e : texts.flatten = '#' :: s) : False := by
  induction ha with
  | nil => cases e
  | @cons p ms ps mss h _ ih =>
    cases p with
    | nil => exact ih e
    | cons a p =>
      simp only [List.flatten_cons, List.cons_append, List.cons.injEq] at e
      obtain ⟨rfl, e⟩ := e
      refine pp_hash (r := p) ?_ h
      cases p with
      | nil => simp
      | cons b p => rw [← e] at hs; simpa using hs

/-- A body of a frame: it begins with `*` and ends before the first `##`. -/
def Body (b : Str) : Prop := b.head? = some '*' ∧ ¬ HasHH (b ++ cs!"#")

theorem Body.ne {b : Str} (h : Body b) : b ≠ [] := by rintro rfl; cases h.1

theorem st_head {bs : List Str} (h : ∀ b ∈ bs, Body b) : (st bs).head? ≠ some '#' := by
  cases bs with
  | nil => simp [st]
  | cons b bs =>
    have hb := (h b (by simp)).1
    rw [st_cons, List.head?_append, hb]
    simp

/-- Where a packet ends: inside the body, in the middle of the terminator, or later. -/
theorem packet_end {p r c s : Str} (e : p ++ r = c ++ '#' :: '#' :: s) :
    (∃ x, c = p ++ x ∧ r = x ++ '#' :: '#' :: s) ∨ (p = c ++ ['#'] ∧ r = '#' :: s) ∨
      ∃ p', p = c ++ '#' :: '#' :: p' ∧ s = p' ++ r := by
  rcases List.append_eq_append_iff.mp e with ⟨x, h1, h2⟩ | ⟨y, h1, h2⟩
  · exact .inl ⟨x, h1, h2⟩
  · cases y with
    | nil => exact .inl ⟨[], by simpa using h1.symm, by simpa using h2.symm⟩
    | cons a y =>
      simp only [List.cons_append, List.cons.injEq] at h2
      obtain ⟨rfl, h2⟩ := h2
      cases y with
      | nil => exact .inr (.inl ⟨h1, by simpa using h2.symm⟩)
      | cons a y =>
        simp only [List.cons_append, List.cons.injEq] at h2
        obtain ⟨rfl, h2⟩ := h2
        exact .inr (.inr ⟨y, h1, h2⟩)

theorem cl_nil (bs : List Str) : Cl bs [] := ⟨[], List.nil_prefix, .inl rfl⟩

theorem cl_step {c : Str} {bs : List Str} {pre : Str} (h : Cl bs pre) : Cl (c :: bs) (c ++ '#' :: '#' :: pre) := by
  obtain ⟨done, hd, h⟩ := h
  refine ⟨c :: done, List.cons_prefix_cons.mpr ⟨rfl, hd⟩, ?_⟩
  rcases h with rfl | h
  · left; rw [st_cons]
  · right; rw [st_cons, ← h]; simp

theorem cl_body {c : Str} {bs : List Str} {pre : Str} (h : Cl ([] :: bs) pre) : Cl (c :: bs) (c ++ pre) := by
  obtain ⟨done, hd, h⟩ := h
  cases done with
  | nil =>
    rcases h with rfl | h
    · refine ⟨[c], by simp, .inr ?_⟩
      simp [st]
    · simp [st] at h
  | cons a done =>
    obtain ⟨rfl, hd'⟩ := List.cons_prefix_cons.mp hd
    refine ⟨c :: done, List.cons_prefix_cons.mpr ⟨rfl, hd'⟩, ?_⟩
    rw [st_cons] at h ⊢
    rcases h with rfl | h
    · left; simp
    · right; rw [List.append_assoc, h]; simp

/-- 1 for a body, 0 for none. -/
def weight (c : Str) : Nat := if c = [] then 0 else 1

/-- Accepted packets yield at least one message per frame, and exactly one only if all cuts are clean. -/
theorem bound : ∀ (n : Nat) (texts : List Str) (mss : List (List Msg)) (c : Str) (fs : List Str),
    texts.flatten.length + texts.length ≤ n → List.Forall₂ (fun p ms => pp p = .ok ms) texts mss →
    texts.flatten = c ++ '#' :: '#' :: st fs → ¬ HasHH (c ++ cs!"#") → (∀ b ∈ fs, Body b) →
    weight c + fs.length ≤ mss.flatten.length ∧
      (mss.flatten.length = weight c + fs.length → ∀ j, Cl (c :: fs) (texts.take j).flatten) := by
  intro n
  induction n with
  | zero =>
    intro texts mss c fs hn ha e hc hfs
    have := congrArg List.length e
    rw [List.length_append, List.length_cons] at this
    omega
  | succ n ih =>
    intro texts mss c fs hn ha e hc hfs
    cases ha with
    | nil => simp at e
    | @cons p ms ps mss hp ha =>
      by_cases hp0 : p = []
      · subst hp0
        rw [pp_nil] at hp
        cases hp
        obtain ⟨h1, h2⟩ := ih ps mss c fs (by simp at hn ⊢; omega) ha (by simpa using e) hc hfs
        refine ⟨by simpa using h1, fun he j => ?_⟩
        cases j with
        | zero => exact cl_nil _
        | succ j => simpa using h2 (by simpa using he) j
      · rcases packet_end (by simpa using e) with ⟨x, rfl, e'⟩ | ⟨rfl, e'⟩ | ⟨p', rfl, e'⟩
        · have hx : ¬ HasHH (x ++ cs!"#") := not_hasHH_suffix (a := p) (by simpa using hc)
          have hl := List.length_pos_iff.mpr hp0
          obtain ⟨h1, h2⟩ := ih ps mss x fs (by simp at hn ⊢; omega) ha e' hx hfs
          rw [pp_one hp0 (not_hasHH_prefix (b := x ++ cs!"#") (by simpa using hc))] at hp
          have hlen : ms.length = 1 := by
            cases hm : parseMessage (p ++ cs!"##") with
            | error e => rw [hm] at hp; cases hp
            | ok m => rw [hm] at hp; cases hp; rfl
          have hw : weight (p ++ x) = 1 := by simp [weight, hp0]
          refine ⟨?_, fun he j => ?_⟩
          · rw [List.flatten_cons, List.length_append, hlen, hw]; omega
          · rw [List.flatten_cons, List.length_append, hlen, hw] at he
            have hx0 : x = [] := by
              by_contra hx0
              have : weight x = 1 := by simp [weight, hx0]
              omega
            subst hx0
            cases j with
            | zero => exact cl_nil _
            | succ j =>
              have := cl_body (c := p) (h2 (by simp [weight] at he ⊢; omega) j)
              simpa using this
        · exact (acc_hash ha (st_head hfs) e').elim
        · rw [pp_sep hc] at hp
          have hms : ∃ ms', pp p' = .ok ms' ∧ ms.length = weight c + ms'.length := by
            unfold weight
            split at hp
            · next h0 => exact ⟨ms, hp, by simp [h0]⟩
            · next h0 =>
              cases hm : parseMessage (c ++ cs!"##") with
              | error e => rw [hm] at hp; cases hp
              | ok m =>
                rw [hm] at hp
                cases hq : pp p' with
                | error e => rw [hq] at hp; cases hp
                | ok ms' =>
                  rw [hq] at hp
                  cases hp
                  exact ⟨ms', rfl, by simp [h0]; omega⟩
          obtain ⟨ms', hp', hlen⟩ := hms
          cases fs with
          | nil =>
            have e'' : p' = [] ∧ ps.flatten = [] := by
              have : [] = p' ++ ps.flatten := by simpa [st] using e'
              simpa using this.symm
            obtain ⟨rfl, e''⟩ := e''
            rw [pp_nil] at hp'
            cases hp'
            refine ⟨?_, fun _ j => ?_⟩
            · rw [List.flatten_cons, List.length_append, hlen]; simp
            · cases j with
              | zero => exact cl_nil _
              | succ j =>
                have h0 : (ps.take j).flatten = [] := by
                  have h := List.take_append_drop j ps
                  have h' := congrArg List.flatten h
                  rw [List.flatten_append, e''] at h'
                  exact (List.append_eq_nil_iff.mp h').1
                have := cl_step (c := c) (cl_nil [])
                simpa [h0] using this
          | cons b fs =>
            obtain ⟨h1, h2⟩ := ih (p' :: ps) (ms' :: mss) b fs (by simp at hn ⊢; omega) (.cons hp' ha)
              (by rw [List.flatten_cons, ← e', st_cons]) (hfs b (by simp)).2 (fun d hd => hfs d (by simp [hd]))
            have hb : weight b = 1 := by simp [weight, (hfs b (by simp)).ne]
            rw [hb] at h1 h2
            simp only [List.flatten_cons, List.length_append, List.length_cons] at h1 h2 ⊢
            refine ⟨by omega, fun he j => ?_⟩
            cases j with
            | zero => exact cl_nil _
            | succ j =>
              have := cl_step (c := c) (h2 (by omega) (j + 1))
              simpa using this

theorem cl_unstep {c : Str} {bs : List Str} {pre : Str} (h : Cl (c :: bs) (c ++ '#' :: '#' :: pre)) : Cl bs pre := by
  obtain ⟨done, hd, h⟩ := h
  cases done with
  | nil => rcases h with h | h <;> · have := congrArg List.length h; simp [st] at this
  | cons a done =>
    obtain ⟨rfl, hd'⟩ := List.cons_prefix_cons.mp hd
    rw [st_cons] at h
    refine ⟨done, hd', ?_⟩
    rcases h with h | h
    · left; simpa using h
    · right; simpa using h

theorem cl_unbody {c : Str} (hc : c ≠ []) {bs : List Str} {pre : Str} (h : Cl (c :: bs) (c ++ pre)) : Cl ([] :: bs) pre := by
  obtain ⟨done, hd, h⟩ := h
  cases done with
  | nil => rcases h with h | h <;> simp [st, hc] at h
  | cons a done =>
    obtain ⟨rfl, hd'⟩ := List.cons_prefix_cons.mp hd
    rw [st_cons] at h
    refine ⟨[] :: done, List.cons_prefix_cons.mpr ⟨rfl, hd'⟩, ?_⟩
    rw [st_cons]
    rcases h with h | h
    · left; simpa using h
    · right; simpa using h

/-- A clean cut inside a body is at its end. -/
theorem cl_inside {p x : Str} (hp : p ≠ []) {bs : List Str} (h : Cl ((p ++ x) :: bs) p) : x = [] := by
  obtain ⟨done, hd, h⟩ := h
  cases done with
  | nil => rcases h with h | h <;> simp [st, hp] at h
  | cons a done =>
    obtain ⟨rfl, hd'⟩ := List.cons_prefix_cons.mp hd
    rw [st_cons] at h
    rcases h with h | h <;> have h := congrArg List.length h <;>
      simp only [List.length_append, List.length_cons, List.length_nil] at h <;> exact List.length_eq_zero_iff.mp (by omega)

/-- No clean cut is in the middle of a terminator. -/
theorem cl_middle {c : Str} {bs : List Str} (h : Cl (c :: bs) (c ++ ['#'])) : False := by
  obtain ⟨done, hd, h⟩ := h
  cases done with
  | nil => rcases h with h | h <;> simp [st] at h
  | cons a done =>
    obtain ⟨rfl, hd'⟩ := List.cons_prefix_cons.mp hd
    rw [st_cons] at h
    rcases h with h | h <;> have h := congrArg List.length h <;> simp at h
    cases done with
    | nil => simp [st] at h
    | cons b done => rw [st_cons] at h; simp at h; omega

/-- With clean cuts all packets are accepted and yield the messages of the frames. -/
theorem clean : ∀ (n : Nat) (texts : List Str) (c : Str) (mc : Msg) (fs : List Str) (ms : List Msg),
    texts.flatten.length + texts.length ≤ n → texts.flatten = c ++ '#' :: '#' :: st fs → ¬ HasHH (c ++ cs!"#") →
    (c ≠ [] → parseMessage (c ++ cs!"##") = .ok mc) → (∀ b ∈ fs, Body b) →
    List.Forall₂ (fun b m => parseMessage (b ++ cs!"##") = .ok m) fs ms →
    (∀ j, Cl (c :: fs) (texts.take j).flatten) →
    ∃ mss, List.Forall₂ (fun p ms => pp p = .ok ms) texts mss ∧ mss.flatten = (if c = [] then [] else [mc]) ++ ms := by
  intro n
  induction n with
  | zero =>
    intro texts c mc fs ms hn e
    have := congrArg List.length e
    rw [List.length_append, List.length_cons] at this
    omega
  | succ n ih =>
    intro texts c mc fs ms hn e hc hm hfs hms hcl
    cases texts with
    | nil => simp at e
    | cons p ps =>
      by_cases hp0 : p = []
      · subst hp0
        obtain ⟨mss, h1, h2⟩ := ih ps c mc fs ms (by simp at hn ⊢; omega) (by simpa using e) hc hm hfs hms
          (fun j => by simpa using hcl (j + 1))
        exact ⟨[] :: mss, .cons pp_nil h1, by simpa using h2⟩
      · have hcut := hcl 1
        simp only [List.take_succ_cons, List.take_zero, List.flatten_cons, List.flatten_nil, List.append_nil] at hcut
        rcases packet_end (by simpa using e) with ⟨x, rfl, e'⟩ | ⟨rfl, e'⟩ | ⟨p', rfl, e'⟩
        · have hx := cl_inside hp0 hcut
          subst hx
          simp only [List.append_nil] at *
          have hl := List.length_pos_iff.mpr hp0
          obtain ⟨mss, h1, h2⟩ := ih ps [] mc fs ms (by simp at hn ⊢; omega) e' (by simp [HasHH]; intro u v h; have := congrArg List.length h; simp at this; omega)
            (fun h => absurd rfl h) hfs hms
            (fun j => cl_unbody hp0 (by simpa using hcl (j + 1)))
          refine ⟨[mc] :: mss, .cons ?_ h1, by simpa [hp0] using h2⟩
          rw [pp_one hp0 (not_hasHH_left hc), hm hp0]; rfl
        · exact (cl_middle hcut).elim
        · have hpp : ∀ ms', pp p' = .ok ms' → pp (c ++ '#' :: '#' :: p') = .ok ((if c = [] then [] else [mc]) ++ ms') := by
            intro ms' h
            rw [pp_sep hc]
            split
            · simpa using h
            · next h0 => rw [hm h0, h]; rfl
          cases hms with
          | nil =>
            have e'' : p' = [] ∧ ps.flatten = [] := by
              have : [] = p' ++ ps.flatten := by simpa [st] using e'
              simpa using this.symm
            obtain ⟨rfl, e''⟩ := e''
            refine ⟨(if c = [] then [] else [mc]) :: ps.map fun _ => [], .cons (by simpa using hpp [] pp_nil) ?_, ?_⟩
            · rw [List.forall₂_map_right_iff, List.forall₂_same]
              intro q hq
              rw [List.flatten_eq_nil_iff.mp e'' q hq]
              exact pp_nil
            · simp
          | @cons b m fs ms hb hms =>
            obtain ⟨mss, h1, h2⟩ := ih (p' :: ps) b m fs ms (by simp at hn ⊢; omega)
              (by rw [List.flatten_cons, ← e', st_cons]) (hfs b (by simp)).2 (fun _ => hb) (fun d hd => hfs d (by simp [hd])) hms
              (by
                intro j
                cases j with
                | zero => exact cl_nil _
                | succ j => exact cl_unstep (by simpa using hcl (j + 1)))
            cases h1 with
            | @cons _ ms' _ mss' hq h1 =>
              refine ⟨_ :: mss', .cons (hpp ms' hq) h1, ?_⟩
              rw [if_neg (hfs b (by simp)).ne] at h2
              simp only [List.flatten_cons] at h2 ⊢
              rw [List.append_assoc, h2]; rfl

theorem run_packets {packets : List (List UInt8)} : ∀ (s : QState), s.reading = true →
    (((s.run (packets.map .packet)).reading = true) ↔ ∃ mss, List.Forall₂ (fun d ms => packetMessages d = .ok ms) packets mss) ∧
    (∀ mss, List.Forall₂ (fun d ms => packetMessages d = .ok ms) packets mss →
      (s.run (packets.map .packet)).queue = s.queue ++ mss.flatten) := by
  induction packets with
  | nil =>
    intro s hs
    refine ⟨⟨fun _ => ⟨[], .nil⟩, fun _ => hs⟩, fun mss h => ?_⟩
    cases h
    simp [QState.run]
  | cons d ds ih =>
    intro s hs
    have hrun : s.run ((d :: ds).map .packet) = (s.step (.packet d)).run (ds.map .packet) := rfl
    rw [hrun]
    cases hp : packetMessages d with
    | ok ms =>
      have hstep : s.step (.packet d) = { s with queue := s.queue ++ ms } := by simp [QState.step, dataReceived, hs, hp]
      rw [hstep]
      obtain ⟨h1, h2⟩ := ih { s with queue := s.queue ++ ms } hs
      refine ⟨h1.trans ?_, fun mss h => ?_⟩
      · constructor
        · rintro ⟨mss, h⟩
          exact ⟨ms :: mss, .cons hp h⟩
        · rintro ⟨mss, h⟩
          cases h with
          | cons _ h => exact ⟨_, h⟩
      · cases h with
        | cons hq h =>
          rw [hp] at hq
          cases hq
          rw [h2 _ h]
          simp
    | error e =>
      have hstep : s.step (.packet d) = { s with reading := false } := by simp [QState.step, dataReceived, hs, hp]
      have hstay : ∀ (ds : List (List UInt8)) (s : QState), s.reading = false → s.run (ds.map .packet) = s := by
        intro ds
        induction ds with
        | nil => intro s _; rfl
        | cons d ds ih =>
          intro s hs
          have : s.run ((d :: ds).map .packet) = (s.step (.packet d)).run (ds.map .packet) := rfl
          rw [this, show s.step (.packet d) = s by simp [QState.step, hs]]
          exact ih s hs
      rw [hstep, hstay ds _ rfl]
      refine ⟨⟨fun h => (by cases h), ?_⟩, fun mss h => ?_⟩
      · rintro ⟨mss, h⟩
        cases h with
        | cons hq _ => rw [hp] at hq; cases hq
      · cases h with
        | cons hq _ => rw [hp] at hq; cases hq

/-- A member on the left has a partner. -/
theorem partner {α β : Type} {R : α → β → Prop} {l : List α} {r : List β} (h : List.Forall₂ R l r) {a : α} (ha : a ∈ l) :
    ∃ b, R a b := by
  induction h with
  | nil => cases ha
  | cons h _ ih =>
    rcases List.mem_cons.mp ha with rfl | ha
    · exact ⟨_, h⟩
    · exact ih ha

theorem stream_eq (tss : List (List Str)) : stream tss = st (tss.map body) := by
  simp [stream, st, List.map_map]; rfl

theorem clean_iff (tss : List (List Str)) (pre : Str) : CleanCut tss pre ↔ Cl (tss.map body) pre := by
  constructor
  · rintro ⟨done, hd, h⟩
    exact ⟨done.map body, hd.map _, by rwa [← stream_eq]⟩
  · rintro ⟨done, hd, h⟩
    obtain ⟨t, ht⟩ := hd
    obtain ⟨l1, l2, rfl, rfl, rfl⟩ := List.map_eq_append_iff.mp ht.symm
    exact ⟨l1, by simp, by rwa [stream_eq]⟩

theorem body_chars {ts : List Str} (h : ∀ t ∈ ts, TagText t) : ∀ c ∈ body ts, isSpace c = false := by
  induction ts with
  | nil => simp [body]
  | cons t ts ih =>
    intro c hc
    simp only [body, List.cons_append, List.mem_cons, List.mem_append] at hc
    rcases hc with rfl | hc | hc
    · exact isSpace_star
    · have := h t (by simp) c hc
      simp only [TagChar, List.mem_cons, List.not_mem_nil, or_false] at this
      rcases this with rfl | rfl | rfl | rfl | rfl | rfl | rfl | rfl | rfl | rfl | rfl <;> decide
    · exact ih (fun t ht => h t (by simp [ht])) c hc

end Segments

open Segments

/-- C17, exactly: a stream of frames, cut into packets in any way, is received as the messages of its frames, and the connection
survives, if and only if every cut is between two frames or just before the `##` of a frame. -/
theorem C17_cuts (tss : List (List Str)) (ms : List Msg)
    (hf : List.Forall₂ (fun ts m => ts ≠ [] ∧ (∀ t ∈ ts, TagText t ∧ ¬ HasHH t) ∧
      (∀ t, ts.getLast? = some t → t.getLast? ≠ some '#') ∧ FrameOf ts m) tss ms)
    (packets : List (List UInt8)) (texts : List Str) (hd : List.Forall₂ (fun d s => decodeAscii d = .ok s) packets texts)
    (ht : texts.flatten = stream tss) :
    ((QState.init.run (packets.map .packet)).reading = true ∧ (QState.init.run (packets.map .packet)).queue = ms) ↔
      ∀ j, CleanCut tss (texts.take j).flatten := by
  have hspace : ∀ p ∈ texts, ∀ c ∈ p, isSpace c = false := by
    intro p hp c hc
    have hmem : c ∈ stream tss := by rw [← ht]; exact List.mem_flatten.mpr ⟨p, hp, hc⟩
    unfold stream at hmem
    obtain ⟨f, hf1, hf2⟩ := List.mem_flatten.mp hmem
    obtain ⟨ts, hts, rfl⟩ := List.mem_map.mp hf1
    obtain ⟨m, hg⟩ := partner hf hts
    unfold frame at hf2
    rcases List.mem_append.mp hf2 with h | h
    · exact body_chars (fun t h => (hg.2.1 t h).1) c h
    · simp only [List.mem_cons, List.not_mem_nil, or_false, or_self] at h
      rw [h]; exact isSpace_hash
  have hpm : List.Forall₂ (fun d p => packetMessages d = pp p) packets texts := by
    clear ht
    induction hd with
    | nil => exact .nil
    | @cons d p ds ps h _ ih =>
      refine .cons ?_ (ih fun q hq => hspace q (by simp [hq]))
      have hs : strip p = p := strip_eq_self (fun c h => hspace p (by simp) c (List.mem_of_mem_head? h))
        (fun c h => hspace p (by simp) c (List.mem_of_getLast? h))
      rw [packetMessages, h]
      change parsePieces (split2 '#' '#' (strip p)) = _
      rw [hs]; rfl
  have hiff : ∀ mss, List.Forall₂ (fun d ms => packetMessages d = .ok ms) packets mss ↔
      List.Forall₂ (fun p ms => pp p = .ok ms) texts mss := by
    clear hd ht hspace
    induction hpm with
    | nil => intro mss; constructor <;> intro h <;> cases h <;> exact .nil
    | cons h _ ih =>
      intro mss
      constructor
      · intro h'; cases h' with | cons h1 h2 => exact .cons (h ▸ h1) ((ih _).mp h2)
      · intro h'; cases h' with | cons h1 h2 => exact .cons (h.trans h1) ((ih _).mpr h2)
  obtain ⟨hr, hq⟩ := run_packets (packets := packets) QState.init rfl
  have hbody : List.Forall₂ (fun ts m => Body (body ts) ∧ parseMessage (body ts ++ cs!"##") = .ok m) tss ms := by
    refine hf.imp ?_
    rintro ts m ⟨hne, h1, h2, h3⟩
    have hb := (not_hasHH_body_hash hne).mpr ⟨fun t h => (h1 t h).2, h2⟩
    refine ⟨⟨?_, hb⟩, ?_⟩
    · cases ts with
      | nil => exact absurd rfl hne
      | cons t ts => rfl
    · exact (parseMessage_ok_iff _ _).mpr
        ⟨ts, ⟨hne, fun t h => (h1 t h).1, ⟨[], [], by simp, by simp, by simp [frame]⟩, oneHH_frame hb⟩, h3⟩
  clear hf
  rw [stream_eq] at ht
  simp only [clean_iff]
  cases hbody with
  | nil =>
    have h0 : ∀ p ∈ texts, p = [] := List.flatten_eq_nil_iff.mp (by simpa [st] using ht)
    have hacc : List.Forall₂ (fun p ms => pp p = .ok ms) texts (texts.map fun _ => []) := by
      rw [List.forall₂_map_right_iff, List.forall₂_same]
      intro p hp; rw [h0 p hp]; exact pp_nil
    constructor
    · intro _ j
      have : (texts.take j).flatten = [] := List.flatten_eq_nil_iff.mpr fun p hp => h0 p (List.mem_of_mem_take hp)
      rw [this]; exact cl_nil _
    · intro _
      refine ⟨hr.mpr ⟨_, (hiff _).mpr hacc⟩, ?_⟩
      rw [hq _ ((hiff _).mpr hacc)]
      simp [QState.init]
  | @cons ts m tss ms h0 hbody =>
    have hfs : ∀ b ∈ tss.map body, Body b := by
      intro b hb
      obtain ⟨us, hus, rfl⟩ := List.mem_map.mp hb
      obtain ⟨_, h⟩ := partner hbody hus
      exact h.1
    have hms : List.Forall₂ (fun b m => parseMessage (b ++ cs!"##") = .ok m) (tss.map body) ms := by
      rw [List.forall₂_map_left_iff]; exact hbody.imp fun _ _ h => h.2
    rw [List.map_cons, st_cons] at ht
    rw [List.map_cons]
    constructor
    · rintro ⟨h1, h2⟩
      obtain ⟨mss, hm⟩ := hr.mp h1
      rw [hq _ hm] at h2
      refine (bound _ texts mss _ _ (Nat.le_refl _) ((hiff _).mp hm) ht h0.1.2 hfs).2 ?_
      have := congrArg List.length h2
      simp only [QState.init, List.nil_append, List.length_cons] at this
      rw [this, weight, if_neg h0.1.ne, List.length_map, hbody.length_eq]
      omega
    · intro h
      obtain ⟨mss, h1, h2⟩ := clean _ texts _ m _ ms (Nat.le_refl _) ht h0.1.2 (fun _ => h0.2) hfs hms h
      refine ⟨hr.mpr ⟨mss, (hiff _).mpr h1⟩, ?_⟩
      rw [hq _ ((hiff _).mpr h1), h2, if_neg h0.1.ne]
      rfl

/-- The hypotheses are met, and both kinds of clean cut, and the two harmful ones, occur: between frames, before `##`, inside a
body, inside `##`. -/
example : List.Forall₂ (fun ts m => ts ≠ [] ∧ (∀ t ∈ ts, TagText t ∧ ¬ HasHH t) ∧
    (∀ t, ts.getLast? = some t → t.getLast? ≠ some '#') ∧ FrameOf ts m)
    [[Who.lighting.code, cs!"1", cs!"12"]] [.normal .lighting ⟨cs!"1"⟩ ⟨cs!"12"⟩] :=
  .cons ⟨by simp, by simp [TagText, TagChar, Who.code, hasHH_cons_iff, not_hasHH_nil], by simp, .normal⟩ .nil
example :
    (QState.init.run ([cs!"*1*1*12##*1*0*", cs!"13##"].map fun s => .packet (asciiBytes s))).queue =
      [.normal .lighting ⟨cs!"1"⟩ ⟨cs!"12"⟩, .normal .lighting ⟨cs!"0"⟩ ⟨cs!""⟩] ∧
    (QState.init.run ([cs!"*1*1*12", cs!"##*1*0*13##"].map fun s => .packet (asciiBytes s))).queue =
      [.normal .lighting ⟨cs!"1"⟩ ⟨cs!"12"⟩, .normal .lighting ⟨cs!"0"⟩ ⟨cs!"13"⟩] := by decide +kernel
example : ¬ CleanCut [[cs!"1", cs!"1", cs!"12"]] cs!"*1*1*12#" := by
  rw [clean_iff]
  exact fun h => cl_middle (c := cs!"*1*1*12") (bs := []) h
