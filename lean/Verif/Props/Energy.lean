import Verif.Proofs.Energy

/-!
# Properties of the energy items (C62, C63, C65, C66, C70, C73, C75)
-/

open Py Spec M Client Item Energy

/-! ## C62: types of items -/

/-- C62: an item can be made for each documented address, and it has the documented type. -/
theorem C62_documented (s : Str) (t : TypeEnergy) (h : EnergyAddress s t) (ht : TagText s) :
    EnergyManagement.new s = .ok ⟨.energyManagement, ⟨s⟩⟩ ∧ EnergyManagement.getType ⟨s⟩ = .ok t := by
  suffices hg : EnergyManagement.getType ⟨s⟩ = .ok t by
    refine ⟨?_, hg⟩
    unfold EnergyManagement.new EnergyManagement.newTag
    rw [ofStr_ok ht, ok_bind, hg]
    rfl
  exact getType_documented h

/-- C62 (partial): every other address raises `InvalidTag`, except those that start with `7` and have no parameter, which
raise `IndexError`.  Missing from the full claim: `InvalidTag` for these. -/
theorem C62_other_partial (s : Str) (h : ∀ t, ¬ EnergyAddress s t) :
    EnergyManagement.new s =
      .error (if TagText s ∧ s.head? = some '7' ∧ '#' ∉ s then .indexError else .invalidTag s) := by
  by_cases ht : TagText s
  · unfold EnergyManagement.new
    rw [ofStr_ok ht, ok_bind, newTag_other h]
    simp only [ht, true_and]
  · unfold EnergyManagement.new
    rcases C01_tag_str s with ⟨h', _⟩ | ⟨_, h'⟩
    · exact absurd h' ht
    · rw [h', if_neg (by tauto)]
      rfl

/-- C62: the two cases exclude each other and each address has at most one type, so the first two theorems say when the
constructor succeeds. -/
theorem C62_iff (s : Str) (ht : TagText s) : (∃ i, EnergyManagement.new s = .ok i) ↔ ∃ t, EnergyAddress s t := by
  constructor
  · rintro ⟨i, hi⟩
    by_contra hc
    push Not at hc
    rw [C62_other_partial s hc] at hi
    cases hi
  · rintro ⟨t, h⟩
    exact ⟨_, (C62_documented s t h ht).1⟩

/-- C62: a Stop&Go item can be made exactly for a Stop&Go address. -/
theorem C62_stop_go (s : Str) (ht : TagText s) : (∃ i, StopGo.new s = .ok i) ↔ EnergyAddress s .stopGo := by
  have hnew : StopGo.new s = (EnergyManagement.new s >>= fun i => EnergyManagement.getType ⟨s⟩ >>= fun t =>
      if t ≠ .stopGo then .error (.invalidTag (cs!"Invalid tag for a Stop&Go item: " ++ s)) else .ok i) := by
    unfold StopGo.new EnergyManagement.new
    rw [ofStr_ok ht]
    rfl
  rw [hnew]
  constructor
  · rintro ⟨i, hi⟩
    rcases hn : EnergyManagement.new s with e | j
    · rw [hn] at hi; cases hi
    · obtain ⟨t, h⟩ := (C62_iff s ht).1 ⟨j, hn⟩
      rw [hn, (C62_documented s t h ht).2] at hi
      simp only [ok_bind] at hi
      split_ifs at hi with hc
      rw [ne_eq, not_not] at hc
      exact hc ▸ h
  · intro h
    obtain ⟨h1, h2⟩ := C62_documented s _ h ht
    rw [h1, h2]
    exact ⟨_, rfl⟩

/-- C62 is false for the addresses of actuators without their parameter: `71` raises `IndexError`. -/
theorem C62_invalid_tag_refuted :
    (∀ t, ¬ EnergyAddress cs!"71" t) ∧ EnergyManagement.new cs!"71" = .error .indexError := by
  constructor
  · intro t h
    generalize hs : cs!"71" = s at h
    cases h with
    | stopGo n => simp at hs
    | powerMeter n => simp at hs
    | actuator n =>
      have := congrArg (fun l => '#' ∈ l) hs
      simp at this
    | actuatorMore n =>
      have := congrArg (fun l => '#' ∈ l) hs
      simp at this
  · decide +kernel

/-- The hypotheses are met. -/
example : EnergyAddress cs!"712#0" .actuator := .actuator cs!"12" (by decide) (by decide +kernel)
example : ∀ t, ¬ EnergyAddress cs!"9" t := by
  intro t h
  generalize hs : cs!"9" = s at h
  cases h <;> simp at hs

/-! ## C65 and C63: Stop&Go status -/

/-- C65: over any stream of replies with dimensions 250 to 263 each attribute is what the last reply about it says, and
`None` if there was none. -/
theorem C65_last_wins (cfg : Config) (i : Item) (hi : TagText i.wher.string) (dim : Str) (hd : TagText dim) (w : World)
    (hw : Ready cfg w) (rs : List Msg) (ps : List (Nat × Nat)) (h : List.Forall₂ StopGoReply rs ps)
    (hp : ∀ p ∈ ps, 250 ≤ p.1 ∧ p.1 ≤ 263) (tail : List InEv) (hin : w.inbox = rs.map .msg ++ tail)
    (r : Except Err Unit) (rest : List InEv) (acts : List CAct) (he : Ending DimReply tail r rest acts) :
    ∃ s, StopGo.requestStatus cfg i dim w =
        (r.map (fun _ => s), w.after rest (.sent (frame ['#' :: i.who.code, i.wher.string, dim]) :: (rs.map .got ++ acts))) ∧
      ∀ k < 13, StopGoStatus.bit s k = latest k ps := by
  obtain ⟨us, h1, h2⟩ := bodies h hp
  have hq := ((Queries.dim_queries cfg i hi ⟨dim⟩ hd StopGo.statusBody w).2 hw rs tail us ?_ hin h1).1 r rest acts he
  · refine ⟨StopGo.applyAll us.flatten, ?_, fun k hk => ?_⟩
    · unfold StopGo.requestStatus
      rw [ofStr_ok hd]
      dsimp only
      rw [hq]
      rcases r with e | ⟨⟩ <;> rfl
    · unfold StopGo.applyAll
      rw [h2 _ k hk]
      have : StopGoStatus.bit {} k = none := by interval_cases k <;> rfl
      rw [this]
      cases latest k ps <;> rfl
  · exact replies_dim h

/-- C65, messages that are already there: the same status; the first message of another class raises `InvalidMessage`. -/
theorem C65_given_messages (rs : List Msg) (ps : List (Nat × Nat)) (h : List.Forall₂ StopGoReply rs ps)
    (hp : ∀ p ∈ ps, 250 ≤ p.1 ∧ p.1 ≤ 263) :
    (∃ s, StopGo.statusOf rs = .ok s ∧ ∀ k < 13, StopGoStatus.bit s k = latest k ps) ∧
    ∀ (m : Msg) (rest : List Msg), ¬ DimReply m → StopGo.statusOf (rs ++ m :: rest) = .error (.invalidMessage m.str) := by
  obtain ⟨us, h1, h2⟩ := bodies h hp
  have h1 := Queries.mapM_of_forall₂ h1
  refine ⟨⟨StopGo.applyAll us.flatten, ?_, fun k hk => ?_⟩, fun m rest hm => ?_⟩
  · unfold StopGo.statusOf; rw [h1]; rfl
  · unfold StopGo.applyAll
    rw [h2 _ k hk]
    have : StopGoStatus.bit {} k = none := by interval_cases k <;> rfl
    rw [this]
    cases latest k ps <;> rfl
  · have hb : StopGo.statusBody m = .error (.invalidMessage m.str) := by
      cases m <;> first | rfl | exact absurd ⟨_, _, _, _, rfl⟩ hm
    unfold StopGo.statusOf
    rw [List.mapM_append, h1, List.mapM_cons, hb]
    rfl

/-- C65: with single-bit replies only, an attribute is the value of the last reply of its own dimension. -/
theorem C65_own_dimension (ps : List (Nat × Nat)) (h : ∀ p ∈ ps, p.1 ≠ 250) (k : Nat) :
    (latest k ps = none ↔ ∀ p ∈ ps, p.1 ≠ 251 + k) ∧
    ∀ before after n, ps = before ++ (251 + k, n) :: after → (∀ p ∈ after, p.1 ≠ 251 + k) →
      latest k ps = some (decide (n ≠ 0)) := by
  constructor
  · constructor
    · intro hl
      induction ps with
      | nil => simp
      | cons p ps ih =>
        rw [latest_cons] at hl
        rw [Option.or_eq_none_iff, latest_one] at hl
        rw [if_neg (h p (by simp))] at hl
        intro q hq
        rcases List.mem_cons.1 hq with rfl | hq
        · intro hc; simp [hc] at hl
        · exact ih (fun q hq => h q (by simp [hq])) hl.1 q hq
    · intro hn
      induction ps with
      | nil => rfl
      | cons p ps ih =>
        rw [latest_cons, ih (fun q hq => h q (by simp [hq])) (fun q hq => hn q (by simp [hq])), latest_one,
          if_neg (h p (by simp)), if_neg (hn p (by simp))]
        rfl
  · rintro before after n rfl hn
    have hafter : latest k after = none := by
      induction after with
      | nil => rfl
      | cons p ps ih =>
        rw [latest_cons, ih (fun q hq => h q (by simp at hq ⊢; tauto)) (fun q hq => hn q (by simp [hq])), latest_one,
          if_neg (h p (by simp)), if_neg (hn p (by simp))]
        rfl
    have : latest k ((251 + k, n) :: after) = some (decide (n ≠ 0)) := by
      rw [latest_cons, hafter, latest_one, if_neg (by simp only; omega), if_pos rfl]
      rfl
    clear h
    induction before with
    | nil => exact this
    | cons p ps ih => rw [List.cons_append, latest_cons, ih]; rfl

/-- C65: a reply of another dimension raises `InvalidMessage`; nothing after it is read. -/
theorem C65_unknown_dimension (cfg : Config) (i : Item) (hi : TagText i.wher.string) (dim : Str) (hd : TagText dim) (w : World)
    (hw : Ready cfg w) (rs : List Msg) (ps : List (Nat × Nat)) (h : List.Forall₂ StopGoReply rs ps)
    (hp : ∀ p ∈ ps, 250 ≤ p.1 ∧ p.1 ≤ 263) (wo : Who) (we d v : Tag) (vs : List Tag) (n : Nat) (rest : List InEv)
    (hin : w.inbox = rs.map .msg ++ .msg (.dimResp wo we d (v :: vs)) :: rest)
    (hdim : ∀ k, 250 ≤ k → k ≤ 263 → ¬ Numeral d.string k) (hv : decimal v.string = some n) :
    StopGo.requestStatus cfg i dim w =
      (.error (.invalidMessage (Msg.dimResp wo we d (v :: vs)).str),
        w.after rest (.sent (frame ['#' :: i.who.code, i.wher.string, dim]) ::
          (rs.map .got ++ [.got (.dimResp wo we d (v :: vs))]))) := by
  obtain ⟨us, h1, h2⟩ := bodies h hp
  have hbad : StopGo.statusBody (.dimResp wo we d (v :: vs)) = .error (.invalidMessage (Msg.dimResp wo we d (v :: vs)).str) := by
    unfold StopGo.statusBody
    change (pyInt v.string >>= fun val => _) = _
    have ht : TagText v.string := by
      unfold decimal at hv
      split_ifs at hv with hc
      exact TagText.of_digits hc.2.1
    rw [pyInt_decimal ht, hv, ok_bind]
    rw [update_none _ fun k hk1 hk2 he => hdim k hk1 hk2 ((numeral_iff _ _).2 he)]
  have hq := ((Queries.dim_queries cfg i hi ⟨dim⟩ hd StopGo.statusBody w).2 hw rs _ us ?_ hin h1).2 _ _ _ rfl
    ⟨_, _, _, _, rfl⟩ hbad
  · unfold StopGo.requestStatus
    rw [ofStr_ok hd]
    dsimp only
    rw [hq]
  · exact replies_dim h

/-- C63: the documented answer, the mask followed by the thirteen bits and an ACK, is decoded to the mask. -/
theorem C63_documented (cfg : Config) (i : Item) (hi : TagText i.wher.string) (w : World) (hw : Ready cfg w) (we : Tag)
    (dims : Nat → Str) (hdims : ∀ k < 13, Numeral (dims k) (251 + k)) (b : Nat → Bool) (rest : List InEv)
    (hin : w.inbox = (statusAnswer we dims b).map .msg ++ .msg .ack :: rest) :
    ∃ s w', StopGo.requestStatus cfg i cs!"250" w = (.ok s, w') ∧ w'.inbox = rest ∧
      ∀ k < 13, StopGoStatus.bit s k = some (b k) := by
  have hbit : ∀ x : Bool, decimal (bitText x) = some x.toNat := by intro x; cases x <;> decide +kernel
  have hmask : ∃ n, decimal (maskText b) = some n := by
    have hd : Digits (maskText b) := by
      intro c hc
      simp only [maskText, List.mem_flatten, List.mem_map] at hc
      obtain ⟨l, ⟨k, _, rfl⟩, hc⟩ := hc
      cases hb : b k <;> rw [hb] at hc <;> simp [bitText] at hc <;> simp [hc]
    have hl : (maskText b).length = 13 := by
      have e : ∀ x, (bitText x).length = 1 := by intro x; cases x <;> rfl
      simp [maskText, List.range_succ, e]
    refine ⟨value (maskText b), ?_⟩
    unfold decimal
    rw [if_pos ⟨by rintro h; simp [h] at hl, hd, by omega⟩]
  obtain ⟨n, hn⟩ := hmask
  have hf : List.Forall₂ StopGoReply (statusAnswer we dims b)
      ((250, n) :: (List.range 13).map fun k => (251 + k, (b k).toNat)) := by
    refine .cons ⟨_, _, _, _, _, rfl, (by decide +kernel : Numeral cs!"250" 250), hn⟩ ?_
    rw [List.forall₂_map_left_iff, List.forall₂_map_right_iff, List.forall₂_same]
    intro k hk
    exact ⟨_, _, _, _, _, rfl, hdims k (by simpa using hk), hbit _⟩
  obtain ⟨s, h1, h2⟩ := C65_last_wins cfg i hi cs!"250" (by decide +kernel) w hw _ _ hf (by
    intro p hp
    rcases List.mem_cons.1 hp with rfl | hp
    · simp
    · obtain ⟨k, hk, rfl⟩ := List.mem_map.1 hp
      have := List.mem_range.1 hk
      simp only
      omega) _ hin _ _ _ (Ending.acknowledged rest)
  refine ⟨s, _, h1, rfl, fun k hk => ?_⟩
  rw [h2 k hk]
  have hlat : ∀ (l : List Nat) (tail : List (Nat × Nat)), k ∈ l → l.Nodup → (∀ p ∈ tail, p.1 ≠ 250 ∧ p.1 ≠ 251 + k) →
      latest k (l.map (fun k => (251 + k, (b k).toNat)) ++ tail) = some (b k) := by
    intro l
    induction l with
    | nil => intro tail h; simp at h
    | cons j l ih =>
      intro tail hk hnd ht
      rw [List.map_cons, List.cons_append, latest_cons]
      rw [List.nodup_cons] at hnd
      by_cases hkl : k ∈ l
      · rw [ih tail hkl hnd.2 ht]; rfl
      · have hjk : k = j := by
          rcases List.mem_cons.1 hk with h | h
          · exact h
          · exact absurd h hkl
        subst hjk
        have hnone : latest k (l.map (fun k => (251 + k, (b k).toNat)) ++ tail) = none := by
          have : ∀ (L : List (Nat × Nat)), (∀ p ∈ L, p.1 ≠ 250 ∧ p.1 ≠ 251 + k) → latest k L = none := by
            intro L
            induction L with
            | nil => intro _; rfl
            | cons p L ih =>
              intro h
              rw [latest_cons, ih fun q hq => h q (by simp [hq]), latest_one, if_neg (h p (by simp)).1,
                if_neg (h p (by simp)).2]
              rfl
          refine this _ fun p hp => ?_
          rcases List.mem_append.1 hp with hp | hp
          · obtain ⟨j, hj, rfl⟩ := List.mem_map.1 hp
            have : j ≠ k := fun e => hkl (e ▸ hj)
            simp only
            omega
          · exact ht p hp
        rw [hnone, latest_one, if_neg (by simp only; omega), if_pos rfl]
        cases b k <;> rfl
  rw [latest_cons]
  have := hlat (List.range 13) [] (List.mem_range.2 hk) List.nodup_range (by simp)
  rw [List.append_nil] at this
  rw [this]
  rfl

/-- C63 (partial): a mask alone is read as a decimal number whose binary digits are the attributes. -/
theorem C63_mask_partial (cfg : Config) (i : Item) (hi : TagText i.wher.string) (w : World) (hw : Ready cfg w) (wo : Who)
    (we : Tag) (v : Str) (vs : List Tag) (n : Nat) (hv : decimal v = some n) (rest : List InEv)
    (hin : w.inbox = .msg (.dimResp wo we ⟨cs!"250"⟩ (⟨v⟩ :: vs)) :: .msg .ack :: rest) :
    ∃ s w', StopGo.requestStatus cfg i cs!"250" w = (.ok s, w') ∧ w'.inbox = rest ∧
      ∀ k < 13, StopGoStatus.bit s k = some (n.testBit k) := by
  obtain ⟨s, h1, h2⟩ := C65_last_wins cfg i hi cs!"250" (by decide +kernel) w hw [_] [(250, n)]
    (.cons ⟨wo, we, _, v, vs, rfl, (by decide +kernel : Numeral cs!"250" 250), hv⟩ .nil) (by simp) (.msg .ack :: rest) hin _ _ _ (Ending.acknowledged rest)
  refine ⟨s, _, h1, rfl, fun k hk => ?_⟩
  rw [h2 k hk, latest_one, if_pos rfl]

/-- C63 is false for the mask alone: the text of the documented mask is binary, but it is read as a decimal number.  With
only b2 set (`0000000000010`) the status also says that b4 is set. -/
theorem C63_mask_refuted (cfg : Config) (hs : cfg.session ≠ .event) (i : Item) (hi : TagText i.wher.string) :
    ∃ (b : Nat → Bool) (w w' : World) (s : StopGoStatus),
      w.inbox = [.msg (.dimResp .energyManagement i.wher ⟨cs!"250"⟩ [⟨maskText b⟩]), .msg .ack] ∧
      StopGo.requestStatus cfg i cs!"250" w = (.ok s, w') ∧ ∃ k < 13, StopGoStatus.bit s k ≠ some (b k) := by
  obtain ⟨s, w', h1, h2, h3⟩ := C63_mask_partial cfg i hi ⟨[], true, [.msg (.dimResp .energyManagement i.wher ⟨cs!"250"⟩
    [⟨maskText fun k => k = 1⟩]), .msg .ack], []⟩ ⟨rfl, hs⟩ .energyManagement i.wher _ [] 10 (by decide +kernel) [] rfl
  refine ⟨fun k => k = 1, _, w', s, rfl, h1, 3, by norm_num, ?_⟩
  rw [h3 3 (by norm_num)]
  decide

/-- The hypotheses are met: two single bits, the second one twice. -/
example : List.Forall₂ StopGoReply
    [.dimResp .energyManagement ⟨cs!"15"⟩ ⟨cs!"252"⟩ [⟨cs!"1"⟩], .dimResp .energyManagement ⟨cs!"15"⟩ ⟨cs!"252"⟩ [⟨cs!"0"⟩]]
    [(252, 1), (252, 0)] ∧ latest 1 [(252, 1), (252, 0)] = some false ∧ latest 2 [(252, 1), (252, 0)] = none :=
  ⟨.cons ⟨_, _, _, _, _, rfl, by decide +kernel, by decide +kernel⟩
    (.cons ⟨_, _, _, _, _, rfl, by decide +kernel, by decide +kernel⟩ .nil), by decide, by decide⟩

/-! ## C66 and C70: actuators -/

/-- The three shapes of a value: six digits at least, fewer digits, or a `#` among the first six characters. -/
theorem C66_shapes (s : Str) (h : TagText s) :
    (∃ a b c d e f rest, s = a :: b :: c :: d :: e :: f :: rest ∧ Digits [a, b, c, d, e, f]) ∨
    (Digits s ∧ s.length < 6) ∨ (∃ pre post, s = pre ++ '#' :: post ∧ Digits pre ∧ pre.length < 6) := by
  have key : ∀ (k : Nat) (s : Str), TagText s →
      (∃ pre rest, s = pre ++ rest ∧ Digits pre ∧ pre.length = k) ∨ (Digits s ∧ s.length < k) ∨
      (∃ pre post, s = pre ++ '#' :: post ∧ Digits pre ∧ pre.length < k) := by
    intro k
    induction k with
    | zero => intro s _; exact .inl ⟨[], s, rfl, by decide, rfl⟩
    | succ k ih =>
      intro s hs
      rcases s with _ | ⟨c, s⟩
      · exact .inr (.inl ⟨by decide, by simp⟩)
      · have hc := (tagChar_iff c).1 (hs c (by simp))
        have hs' : TagText s := fun x hx => hs x (by simp [hx])
        by_cases hd : c ∈ cs!"0123456789"
        · have cons : ∀ {l : Str}, Digits l → Digits (c :: l) := by
            intro l hl x hx
            rcases List.mem_cons.1 hx with rfl | hx
            · exact hd
            · exact hl x hx
          rcases ih s hs' with ⟨pre, rest, rfl, h1, h2⟩ | ⟨h1, h2⟩ | ⟨pre, post, rfl, h1, h2⟩
          · exact .inl ⟨c :: pre, rest, rfl, cons h1, by simp [h2]⟩
          · exact .inr (.inl ⟨cons h1, by simpa using h2⟩)
          · exact .inr (.inr ⟨c :: pre, post, rfl, cons h1, by simpa using h2⟩)
        · rw [← isDigit_iff, Bool.not_eq_true] at hd
          simp only [hd, Bool.false_or, beq_iff_eq] at hc
          subst hc
          exact .inr (.inr ⟨[], s, rfl, by decide, by simp⟩)
  rcases key 6 s h with ⟨pre, rest, rfl, h1, h2⟩ | h | h
  · rcases pre with _ | ⟨a, _ | ⟨b, _ | ⟨c, _ | ⟨d, _ | ⟨e, _ | ⟨f, _ | ⟨g, l⟩⟩⟩⟩⟩⟩⟩ <;> simp at h2
    exact .inl ⟨a, b, c, d, e, f, rest, rfl, h1⟩
  · exact .inr (.inl h)
  · exact .inr (.inr h)

/-- C66: from a given message, each of the first six digits of the first value decides its attribute; a `#` among them raises
`ValueError`, a value that is too short or missing `IndexError`. -/
theorem C66_positions (cfg : Config) (i : Item) (m : Msg) (w : World) :
    (m.values = [] → EnergyManagement.getActuatorsInfo cfg i (some m) w = (.error .indexError, w)) ∧
    ∀ s vs, m.values = ⟨s⟩ :: vs →
      (∀ a b c d e f rest, s = a :: b :: c :: d :: e :: f :: rest → Digits [a, b, c, d, e, f] →
        EnergyManagement.getActuatorsInfo cfg i (some m) w =
          (.ok ⟨digit a ≠ 0, digit b ≠ 0, digit c ≠ 0, digit d ≠ 0, digit e ≠ 0, digit f = 1⟩, w)) ∧
      (Digits s → s.length < 6 → EnergyManagement.getActuatorsInfo cfg i (some m) w = (.error .indexError, w)) ∧
      (∀ pre post, s = pre ++ '#' :: post → Digits pre → pre.length < 6 →
        EnergyManagement.getActuatorsInfo cfg i (some m) w = (.error .valueError, w)) := by
  have hg : EnergyManagement.getActuatorsInfo cfg i (some m) w = (EnergyManagement.decodeActuator m.values, w) :=
    given cfg i _ m _ w
  rw [hg]
  refine ⟨fun h => by rw [h]; rfl, fun s vs hv => ?_⟩
  rw [hv]
  have hdig : ∀ (k : Nat) (c : Char), s[k]? = some c → c ∈ cs!"0123456789" →
      EnergyManagement.charInt (⟨s⟩ :: vs) k = .ok (digit c : Int) := by
    intro k c hk hc
    change (index s k >>= fun c => pyInt [c]) = _
    unfold index
    rw [hk]
    change pyInt [c] = _
    simp only [List.mem_cons, List.not_mem_nil, or_false] at hc
    rcases hc with rfl | rfl | rfl | rfl | rfl | rfl | rfl | rfl | rfl | rfl <;> decide +kernel
  have hnone : ∀ k : Nat, s[k]? = none → EnergyManagement.charInt (⟨s⟩ :: vs) k = .error .indexError := by
    intro k hk
    change (index s k >>= fun c => pyInt [c]) = _
    unfold index
    rw [hk]
    rfl
  have hhash : ∀ k : Nat, s[k]? = some '#' → EnergyManagement.charInt (⟨s⟩ :: vs) k = .error .valueError := by
    intro k hk
    change (index s k >>= fun c => pyInt [c]) = _
    unfold index
    rw [hk]
    decide +kernel
  have hfail : ∀ (e : Err) (k : Nat), k < 6 → (∀ j < k, ∃ n, EnergyManagement.charInt (⟨s⟩ :: vs) j = .ok n) →
      EnergyManagement.charInt (⟨s⟩ :: vs) k = .error e → EnergyManagement.decodeActuator (⟨s⟩ :: vs) = .error e := by
    intro e k hk hlt hke
    unfold EnergyManagement.decodeActuator
    rcases h0 : EnergyManagement.charInt (⟨s⟩ :: vs) 0 with e0 | n0
    · rcases Nat.eq_zero_or_pos k with rfl | hk0
      · rw [h0] at hke; cases hke; rfl
      · obtain ⟨n, hn⟩ := hlt 0 hk0; rw [h0] at hn; cases hn
    rw [ok_bind]
    rcases h1 : EnergyManagement.charInt (⟨s⟩ :: vs) 1 with e1 | n1
    · rcases Nat.lt_trichotomy k 1 with h | rfl | h
      · obtain rfl : k = 0 := by omega
        rw [h0] at hke; cases hke
      · rw [h1] at hke; cases hke; rfl
      · obtain ⟨n, hn⟩ := hlt 1 h; rw [h1] at hn; cases hn
    rw [ok_bind]
    rcases h2 : EnergyManagement.charInt (⟨s⟩ :: vs) 2 with e2 | n2
    · rcases Nat.lt_trichotomy k 2 with h | rfl | h
      · interval_cases k <;> simp_all
      · rw [h2] at hke; cases hke; rfl
      · obtain ⟨n, hn⟩ := hlt 2 h; rw [h2] at hn; cases hn
    rw [ok_bind]
    rcases h3 : EnergyManagement.charInt (⟨s⟩ :: vs) 3 with e3 | n3
    · rcases Nat.lt_trichotomy k 3 with h | rfl | h
      · interval_cases k <;> simp_all
      · rw [h3] at hke; cases hke; rfl
      · obtain ⟨n, hn⟩ := hlt 3 h; rw [h3] at hn; cases hn
    rw [ok_bind]
    rcases h4 : EnergyManagement.charInt (⟨s⟩ :: vs) 4 with e4 | n4
    · rcases Nat.lt_trichotomy k 4 with h | rfl | h
      · interval_cases k <;> simp_all
      · rw [h4] at hke; cases hke; rfl
      · obtain ⟨n, hn⟩ := hlt 4 h; rw [h4] at hn; cases hn
    rw [ok_bind]
    have : k = 5 := by
      by_contra hne
      interval_cases k <;> simp_all
    subst this
    rw [hke]
    rfl
  refine ⟨?_, ?_, ?_⟩
  · rintro a b c d e f rest rfl hd
    unfold EnergyManagement.decodeActuator
    rw [hdig 0 a rfl (hd a (by simp)), hdig 1 b rfl (hd b (by simp)), hdig 2 c rfl (hd c (by simp)),
      hdig 3 d rfl (hd d (by simp)), hdig 4 e rfl (hd e (by simp)), hdig 5 f rfl (hd f (by simp))]
    simp only [ok_bind]
    have h1 : (!decide ((digit f : Int) - 1 ≠ 0)) = decide (digit f = 1) := by
      by_cases h : digit f = 1
      · simp [h]
      · have : (digit f : Int) - 1 ≠ 0 := by omega
        simp [h, this]
    have h2 : ∀ n : Nat, decide ((n : Int) ≠ 0) = decide (n ≠ 0) := by intro n; congr 1; simp
    rw [h1, h2, h2, h2, h2, h2]
    rfl
  · intro hd hl
    rw [hfail .indexError s.length hl (fun j hj => ?_) (hnone _ (by simp))]
    exact ⟨_, hdig j s[j] (by simp [hj]) (hd _ (List.getElem_mem hj))⟩
  · rintro pre post rfl hd hl
    rw [hfail .valueError pre.length hl (fun j hj => ?_) (hhash _ (by simp))]
    refine ⟨_, hdig j pre[j] ?_ (hd _ (List.getElem_mem hj))⟩
    rw [List.getElem?_append_left hj, List.getElem?_eq_getElem hj]

/-- C66: without a message the actuator is asked with dimension 71 and the first reply is decoded in the same way. -/
theorem C66_request (cfg : Config) (i : Item) (hi : TagText i.wher.string) :
    Asks cfg (EnergyManagement.getActuatorsInfo cfg i none) (frame ['#' :: i.who.code, i.wher.string, cs!"71"])
      EnergyManagement.decodeActuator ∧
    ∀ m w, EnergyManagement.getActuatorsInfo cfg i (some m) w = (EnergyManagement.decodeActuator m.values, w) :=
  ⟨asks_of cfg i hi _ ⟨cs!"71"⟩ (by decide +kernel) (by decide +kernel) _, fun m w => given cfg i _ m _ w⟩

/-- C70 is false: every documented reply, six values of one digit each, raises `IndexError`. -/
theorem C70_documented_refuted (cfg : Config) (i : Item) (a b c d e f : Char) (hd : Digits [a, b, c, d, e, f]) (wo : Who)
    (we dim : Tag) (w : World) :
    EnergyManagement.getActuatorsInfo cfg i (some (.dimResp wo we dim [⟨[a]⟩, ⟨[b]⟩, ⟨[c]⟩, ⟨[d]⟩, ⟨[e]⟩, ⟨[f]⟩])) w =
      (.error .indexError, w) :=
  ((C66_positions cfg i _ w).2 _ _ rfl).2.1 (fun x hx => hd x (by simp at hx ⊢; tauto)) (by simp)

/-- C70 (partial): what can be read is one value made of six digits. -/
theorem C70_one_value_partial (cfg : Config) (i : Item) (a b c d e f : Char) (hd : Digits [a, b, c, d, e, f]) (wo : Who)
    (we dim : Tag) (vs : List Tag) (w : World) :
    EnergyManagement.getActuatorsInfo cfg i (some (.dimResp wo we dim (⟨[a, b, c, d, e, f]⟩ :: vs))) w =
      (.ok ⟨digit a ≠ 0, digit b ≠ 0, digit c ≠ 0, digit d ≠ 0, digit e ≠ 0, digit f = 1⟩, w) :=
  ((C66_positions cfg i _ w).2 _ _ rfl).1 _ _ _ _ _ _ [] rfl hd

/-- The hypotheses are met. -/
example (cfg : Config) (i : Item) (w : World) :
    EnergyManagement.getActuatorsInfo cfg i (some (.dimResp .energyManagement ⟨cs!"71#0"⟩ ⟨cs!"71"⟩ [⟨cs!"010002"⟩])) w =
      (.ok ⟨false, true, false, false, false, false⟩, w) :=
  C70_one_value_partial cfg i '0' '1' '0' '0' '0' '2' (by decide +kernel) _ _ _ _ w

/-- C70 is false also when the actuator is asked: `*#18*7N#0*71##` is written, the documented answer comes and is consumed to
its end, and the call raises `IndexError`. -/
theorem C70_asked_refuted (cfg : Config) (i : Item) (hi : TagText i.wher.string) (a b c d e f : Char)
    (hd : Digits [a, b, c, d, e, f]) (wo : Who) (we dim : Tag) (rest : List InEv) (w : World) (hr : Ready cfg w) :
    let m : Msg := .dimResp wo we dim [⟨[a]⟩, ⟨[b]⟩, ⟨[c]⟩, ⟨[d]⟩, ⟨[e]⟩, ⟨[f]⟩]
    w.inbox = .msg m :: .msg .ack :: rest →
    EnergyManagement.getActuatorsInfo cfg i none w = (.error .indexError,
      w.after rest [.sent (frame ['#' :: i.who.code, i.wher.string, cs!"71"]), .got m, .got .ack]) := by
  intro m hm
  rw [((C66_request cfg i hi).1 w).2 hr [m] _ _ _ _ (by simp [m, DimReply]) hm (.acknowledged rest)]
  have h := C70_documented_refuted cfg i a b c d e f hd wo we dim w
  rw [(C66_request cfg i hi).2] at h
  exact Prod.ext (Prod.ext_iff.1 h).1 rfl

/-- C70 (partial): asked in the same way, an actuator that answers with one value of six digits is understood. -/
theorem C70_asked_partial (cfg : Config) (i : Item) (hi : TagText i.wher.string) (a b c d e f : Char)
    (hd : Digits [a, b, c, d, e, f]) (wo : Who) (we dim : Tag) (vs : List Tag) (rest : List InEv) (w : World)
    (hr : Ready cfg w) :
    let m : Msg := .dimResp wo we dim (⟨[a, b, c, d, e, f]⟩ :: vs)
    w.inbox = .msg m :: .msg .ack :: rest →
    EnergyManagement.getActuatorsInfo cfg i none w =
      (.ok ⟨digit a ≠ 0, digit b ≠ 0, digit c ≠ 0, digit d ≠ 0, digit e ≠ 0, digit f = 1⟩,
      w.after rest [.sent (frame ['#' :: i.who.code, i.wher.string, cs!"71"]), .got m, .got .ack]) := by
  intro m hm
  rw [((C66_request cfg i hi).1 w).2 hr [m] _ _ _ _ (by simp [m, DimReply]) hm (.acknowledged rest)]
  have h := C70_one_value_partial cfg i a b c d e f hd wo we dim vs w
  rw [(C66_request cfg i hi).2] at h
  exact Prod.ext (Prod.ext_iff.1 h).1 rfl

/-- The hypotheses of both are met. -/
example (cfg : Config) (hc : cfg.session = .command) (w : World) (hw : w.started = true) :
    let m : Msg := .dimResp .energyManagement ⟨cs!"71#0"⟩ ⟨cs!"71"⟩ [⟨cs!"010002"⟩]
    let w := { w with inbox := [.msg m, .msg .ack] }
    Ready cfg w ∧ EnergyManagement.getActuatorsInfo cfg ⟨.energyManagement, ⟨cs!"71#0"⟩⟩ none w =
      (.ok ⟨false, true, false, false, false, false⟩, w.after [] [.sent cs!"*#18*71#0*71##", .got m, .got .ack]) := by
  have hr : ∀ inbox, Ready cfg { w with inbox := inbox } := fun _ => ⟨hw, by rw [hc]; decide⟩
  exact ⟨hr _, C70_asked_partial cfg ⟨.energyManagement, ⟨cs!"71#0"⟩⟩ (by decide +kernel) '0' '1' '0' '0' '0' '2'
    (by decide +kernel) _ _ _ _ _ _ (hr _) rfl⟩

/-! ## C73 and C75: measurements -/

/-- C73: `float` of a value gives the nearest double, or infinity when that would be 2^1024 or more; the number itself when it
is below 2^53. -/
theorem C73_float (vs : List Tag) (s : Str) :
    (EnergyManagement.decodeFloat [] = .error .indexError) ∧
    (s ≠ [] → Digits s → ∃ x, Nearest (value s) x ∧ (value s < 2 ^ 53 → x = value s) ∧
      EnergyManagement.decodeFloat (⟨s⟩ :: vs) = .ok (if x < 2 ^ 1024 then .nat x else .inf)) ∧
    (s = [] ∨ ¬ Digits s → EnergyManagement.decodeFloat (⟨s⟩ :: vs) = .error .valueError) := by
  have e : EnergyManagement.decodeFloat (⟨s⟩ :: vs) = pyFloat s := rfl
  refine ⟨rfl, fun hne hd => ⟨roundDouble (value s), round_nearest _, fun h => round_small h, ?_⟩, fun h => ?_⟩
  · rw [e, pyFloat_eq, if_pos ⟨hne, hd⟩]
    rfl
  · rw [e, pyFloat_eq, if_neg (by tauto)]

/-- C73: the five getters of measurements write their documented requests and decode the first value of the first reply. -/
theorem C73_getters (cfg : Config) (i : Item) (hi : TagText i.wher.string) :
    Asks cfg (EnergyManagement.getActivePower cfg i) (frame ['#' :: i.who.code, i.wher.string, cs!"113"])
      EnergyManagement.decodeFloat ∧
    Asks cfg (EnergyManagement.getEnergyUnitTotalizer cfg i) (frame ['#' :: i.who.code, i.wher.string, cs!"51"])
      EnergyManagement.decodeFloat ∧
    Asks cfg (EnergyManagement.getPartialTotalizerCurrentMonth cfg i) (frame ['#' :: i.who.code, i.wher.string, cs!"53"])
      EnergyManagement.decodeFloat ∧
    Asks cfg (EnergyManagement.getPartialTotalizerCurrentDay cfg i) (frame ['#' :: i.who.code, i.wher.string, cs!"54"])
      EnergyManagement.decodeFloat ∧
    (∀ (now : Nat × Nat) (month year : Option Nat) (y m : Str), Numeral y (year.getD (now.1 % 100)) → y.length ≤ 4300 →
      Numeral m (month.getD now.2) → m.length ≤ 4300 →
      Asks cfg (EnergyManagement.getEnergyUnitPerMonth cfg now i (month.map Int.ofNat) (year.map Int.ofNat))
        (frame ['#' :: i.who.code, i.wher.string, cs!"52#" ++ y ++ cs!"#" ++ m]) EnergyManagement.decodeFloat) := by
  refine ⟨asks_of cfg i hi _ ⟨cs!"113"⟩ (by decide +kernel) (by decide +kernel) _,
    asks_of cfg i hi _ ⟨cs!"51"⟩ (by decide +kernel) (by decide +kernel) _,
    asks_of cfg i hi _ ⟨cs!"53"⟩ (by decide +kernel) (by decide +kernel) _,
    asks_of cfg i hi _ ⟨cs!"54"⟩ (by decide +kernel) (by decide +kernel) _, ?_⟩
  intro now month year y m hy hyl hm hml
  refine asks_of cfg i hi _ ⟨cs!"52#" ++ y ++ cs!"#" ++ m⟩ ?_ ?_ _
  · unfold EnergyManagement.monthDimension
    have h1 : (year.map Int.ofNat).getD ((now.1 % 100 : Nat) : Int) = ((year.getD (now.1 % 100) : Nat) : Int) := by
      cases year <;> rfl
    have h2 : (month.map Int.ofNat).getD (now.2 : Int) = ((month.getD now.2 : Nat) : Int) := by
      cases month <;> rfl
    rw [h1, h2]
    have h3 : DimensionEnergy.withParameter DimensionEnergy.energyUnitPerMonth ((year.getD (now.1 % 100) : Nat) : Int) =
        .ok ⟨cs!"52#" ++ y⟩ := energy_param hy hyl (what := cs!"52") (by decide +kernel)
    rw [h3, ok_bind, tag_param hm hml (TagText.append (by decide +kernel) (TagText.of_digits hy.2.1))]
  · exact TagText.append (TagText.append (TagText.append (by decide +kernel) (TagText.of_digits hy.2.1)) (by decide +kernel))
      (TagText.of_digits hm.2.1)

/-- C73: `get_differential_current_level` asks with dimension 73 and gives the number in the first value. -/
theorem C73_level (cfg : Config) (i : Item) (hi : TagText i.wher.string) :
    Asks cfg (EnergyManagement.getDifferentialCurrentLevel cfg i) (frame ['#' :: i.who.code, i.wher.string, cs!"73"])
      EnergyManagement.decodeLevel ∧
    ∀ (s : Str) (vs : List Tag), TagText s → EnergyManagement.decodeLevel (⟨s⟩ :: vs) =
      match decimal s with | some n => .ok (n : Int) | none => .error .valueError := by
  refine ⟨asks_of cfg i hi _ ⟨cs!"73"⟩ (by decide +kernel) (by decide +kernel) _, fun s vs hs => ?_⟩
  change pyInt s = _
  rw [pyInt_decimal hs]
  cases decimal s <;> rfl

/-- C73: `get_totalizers(n)` asks with dimension `72#n`. -/
theorem C73_totalizers (cfg : Config) (i : Item) (hi : TagText i.wher.string) (n : Nat) (s : Str) (hn : Numeral s n)
    (hl : s.length ≤ 4300) :
    Asks cfg (EnergyManagement.getTotalizers cfg i n none) (frame ['#' :: i.who.code, i.wher.string, cs!"72#" ++ s])
      EnergyManagement.decodeTotalizers ∧
    ∀ m w, EnergyManagement.getTotalizers cfg i n (some m) w = (EnergyManagement.decodeTotalizers m.values, w) :=
  ⟨asks_of cfg i hi _ ⟨cs!"72#" ++ s⟩ (energy_param hn hl (what := cs!"72") (by decide +kernel))
    (TagText.append (by decide +kernel) (TagText.of_digits hn.2.1)) _, fun m w => given cfg i _ m _ w⟩

/-- C73: the documented reply `energy, day, month, year, hour, minute` gives the energy and the time of the last reset. -/
theorem C73_totalizers_decoded (e d m y h mi : Str) (vs : List Tag) (date : Date) (hour minute : Nat) (hne : e ≠ [])
    (he : Digits e) (hdate : date.Valid) (hd : decimal d = some date.day) (hm : decimal m = some date.month)
    (hy : decimal y = some date.year) (hh : decimal h = some hour) (hmi : decimal mi = some minute) (h23 : hour ≤ 23)
    (h59 : minute ≤ 59) :
    ∃ x, Nearest (value e) x ∧ (value e < 2 ^ 53 → x = value e) ∧
      EnergyManagement.decodeTotalizers (⟨e⟩ :: ⟨d⟩ :: ⟨m⟩ :: ⟨y⟩ :: ⟨h⟩ :: ⟨mi⟩ :: vs) =
        .ok (⟨date, ⟨hour, minute, 0, 0, none⟩⟩, if x < 2 ^ 1024 then .nat x else .inf) := by
  obtain ⟨x, h1, h2, h3⟩ := (C73_float (⟨d⟩ :: ⟨m⟩ :: ⟨y⟩ :: ⟨h⟩ :: ⟨mi⟩ :: vs) e).2.1 hne he
  refine ⟨x, h1, h2, ?_⟩
  unfold EnergyManagement.decodeTotalizers
  rw [h3, ok_bind]
  have ht : ∀ {s : Str} {n : Nat}, decimal s = some n → pyInt s = .ok (n : Int) := by
    intro s n hs
    have : TagText s := by
      unfold decimal at hs
      split_ifs at hs with hc
      exact TagText.of_digits hc.2.1
    rw [pyInt_decimal this, hs]
  change (pyInt y >>= fun y => pyInt m >>= fun m => pyInt d >>= fun d => pyInt h >>= fun h => pyInt mi >>= fun mi =>
    DateTime.newNaive y m d h mi >>= fun t => _) = _
  rw [ht hy, ok_bind, ht hm, ok_bind, ht hd, ok_bind, ht hh, ok_bind, ht hmi, ok_bind, newNaive_ok hdate h23 h59]
  rfl

/-- C75 is false: the gateway sends the energy since the last reset in Wh, and `get_totalizers`, documented to give kWh, gives
the same number: 2000 Wh become 2000 "kWh". -/
theorem C75_totalizer_unit_refuted :
    ∃ (wh : Nat) (e : Str), Numeral e wh ∧ 1000 ∣ wh ∧ ∃ t x,
      EnergyManagement.decodeTotalizers [⟨e⟩, ⟨cs!"1"⟩, ⟨cs!"2"⟩, ⟨cs!"2024"⟩, ⟨cs!"3"⟩, ⟨cs!"4"⟩] = .ok (t, .nat x) ∧
      x ≠ wh / 1000 :=
  ⟨2000, cs!"2000", by decide +kernel, by norm_num, ⟨⟨2024, 2, 1⟩, ⟨3, 4, 0, 0, none⟩⟩, 2000, by decide +kernel, by norm_num⟩

/-- C75 (partial): the number is the transmitted one, in the unit of the gateway. -/
theorem C75_raw_partial (e : Str) (vs : List Tag) (hne : e ≠ []) (he : Digits e) (hlt : value e < 2 ^ 53) :
    EnergyManagement.decodeFloat (⟨e⟩ :: vs) = .ok (.nat (value e)) := by
  obtain ⟨x, _, h2, h3⟩ := (C73_float vs e).2.1 hne he
  rw [h3, h2 hlt, if_pos (lt_trans hlt (Nat.pow_lt_pow_right (by decide) (by decide)))]

/-- The hypotheses are met. -/
example : EnergyManagement.decodeFloat [⟨cs!"1234"⟩] = .ok (.nat 1234) :=
  C75_raw_partial cs!"1234" [] (by decide) (by decide +kernel) (by decide +kernel)
