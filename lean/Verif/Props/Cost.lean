import Verif.Proofs.Linear
import Verif.Proofs.WireLogs
import Verif.Proofs.Origin
import Verif.Model.PacketCost
import Verif.Proofs.Classify

/-!
# Cost of parsing (C67)
-/

open Py Spec Re

/-! ## C67: parsing time -/

/-- C67: the matcher whose tests are counted finds a match exactly when the pattern matches, for every pattern and text. -/
theorem C67_matcher (r : Re) (s : Str) : (search r s).1 = pyMatch r s := search_eq r s

theorem strip_length (s : Str) : (strip s).length ≤ s.length := by
  obtain ⟨u, v, _, _, e⟩ := exists_ws_strip s
  have := congrArg List.length e
  simp at this
  omega

/-- The text `*00…0x##` with `n` zeros. -/
def evil (n : Nat) : Str := '*' :: (List.replicate n '0' ++ cs!"x##")

theorem frame_chars {ts : List Str} (ht : ∀ t ∈ ts, TagText t) : ∀ c ∈ body ts, isDigit c = true ∨ c = '#' ∨ c = '*' := by
  induction ts with
  | nil => intro c hc; cases hc
  | cons t ts ih =>
    intro c hc
    simp only [body, List.cons_append, List.mem_cons, List.mem_append] at hc
    rcases hc with rfl | hc | hc
    · exact .inr (.inr rfl)
    · have := (tagChar_iff c).1 (ht t (by simp) c hc)
      rw [Bool.or_eq_true, beq_iff_eq] at this
      rcases this with h | h
      · exact .inl h
      · exact .inr (.inl h)
    · exact ih (fun t h => ht t (by simp [h])) c hc

theorem evil_last (n : Nat) : (evil n).getLast? = some '#' := by
  have : evil n = ('*' :: (List.replicate n '0' ++ cs!"x#")) ++ ['#'] := by simp [evil]
  rw [this, List.getLast?_concat]

theorem evil_match (n : Nat) : pyMatch MsgRe.generic (evil n) = false := by
  rw [pyMatch_eq (by rw [evil_last]; decide)]
  by_contra hc
  rw [Bool.not_eq_false, accepts_iff, MsgRe.lang_generic] at hc
  obtain ⟨ts, _, ht, he⟩ := hc
  have hx : 'x' ∈ frame ts := by rw [← he]; simp [evil]
  rcases List.mem_append.1 hx with hx | hx
  · rcases frame_chars ht _ hx with h | h | h <;> revert h <;> decide
  · revert hx; decide

theorem evil_count (n : Nat) : count2 '#' '#' (evil n) = 1 := by
  have : evil n = ('*' :: (List.replicate n '0' ++ ['x'])) ++ cs!"##" := by simp [evil]
  rw [this, count2_append_left (by simp)]
  rfl

theorem evil_strip (n : Nat) : strip (evil n) = evil n := by
  refine strip_eq_self (fun c hc => ?_) (fun c hc => ?_)
  · obtain rfl : '*' = c := by simpa [evil] using hc
    rfl
  · rw [evil_last] at hc
    cases hc
    rfl

/-- C67 is false: a text of `n + 4` characters that is no frame costs at least `2 ^ n` character tests before it is
rejected. -/
theorem C67_exponential_refuted (n : Nat) :
    (evil n).length = n + 4 ∧ parseMessage (evil n) = .error (.invalidMessage (evil n)) ∧ 2 ^ n ≤ parseTests (evil n) := by
  have hm := evil_match n
  refine ⟨by simp [evil], ?_, ?_⟩
  · unfold parseMessage
    simp [evil_count, evil_strip, hm]
  · have hs : (search MsgRe.generic (evil n)).1 = false := by rw [search_eq, hm]
    have ht : parseTests (evil n) = (search MsgRe.generic (evil n)).2 := by
      unfold parseTests
      simp [evil_count, evil_strip, hs]
    have hb : base MsgRe.generic (evil n) ≤ (search MsgRe.generic (evil n)).2 := by
      have := ((run_walks MsgRe.generic (evil n) atEnd).2 hs).2
      change _ ≤ (run MsgRe.generic (evil n) atEnd).2
      omega
    rw [ht]
    refine le_trans ?_ hb
    have h1 : base MsgRe.generic (evil n) =
        1 + base (seq (plus (seq MsgRe.digits (seq MsgRe.params (opt (chr '*'))))) MsgRe.suffix) (zeros n) :=
      (marked_same '*' _ (zeros n)).2
    have h2 : ((ends (plus (seq MsgRe.digits (seq MsgRe.params (opt (chr '*'))))) (zeros n)).map (base MsgRe.suffix)).sum ≤
        base (seq (plus (seq MsgRe.digits (seq MsgRe.params (opt (chr '*'))))) MsgRe.suffix) (zeros n) := by
      rw [base]; omega
    have h3 : (ends (plus (seq MsgRe.digits (seq MsgRe.params (opt (chr '*'))))) (zeros n)).length ≤
        ((ends (plus (seq MsgRe.digits (seq MsgRe.params (opt (chr '*'))))) (zeros n)).map (base MsgRe.suffix)).sum := by
      have := sum_le (ends (plus (seq MsgRe.digits (seq MsgRe.params (opt (chr '*'))))) (zeros n)) (fun _ => 1)
        (base MsgRe.suffix) fun t _ => by
          change 1 ≤ base (seq (chr '#') (chr '#')) t
          rw [base]; exact Nat.le_add_right 1 _
      rwa [List.map_const', List.sum_replicate_nat, mul_one] at this
    have h4 : 2 ^ n ≤ (ends (plus (seq MsgRe.digits (seq MsgRe.params (opt (chr '*'))))) (zeros n)).length := by
      change _ ≤ ((ends (seq MsgRe.digits (seq MsgRe.params (opt (chr '*')))) (zeros n)).flatMap
        (ends (star (seq MsgRe.digits (seq MsgRe.params (opt (chr '*'))))))).length
      rw [group_zeros, List.range_succ, List.map_append, List.flatMap_append, List.length_append]
      refine le_trans ?_ (Nat.le_add_left _ _)
      simp only [List.map_cons, List.map_nil, List.flatMap_cons, List.flatMap_nil, List.append_nil]
      exact rounds_zeros _ n (by rw [zeros_length]; omega)
    omega

theorem sq_le_two_pow (m : Nat) (h : 4 ≤ m) : m * m ≤ 2 ^ m := by
  induction m, h using Nat.le_induction with
  | base => norm_num
  | succ m hm ih =>
    rw [pow_succ]
    nlinarith

/-- C67 is false: no polynomial bounds the number of tests. -/
theorem C67_refuted (c d : Nat) : ∃ s : Str, c * s.length ^ d < parseTests s := by
  have hm := sq_le_two_pow (c + d + 4) (by omega)
  generalize hmm : c + d + 4 = m at hm
  refine ⟨evil (2 ^ m), ?_⟩
  obtain ⟨h1, _, h2⟩ := C67_exponential_refuted (2 ^ m)
  refine lt_of_lt_of_le ?_ h2
  rw [h1]
  have e1 : 2 ^ m + 4 ≤ 2 ^ (m + 1) := by
    have : 2 ^ 2 ≤ 2 ^ m := Nat.pow_le_pow_right (by norm_num) (by omega)
    rw [pow_succ]; omega
  calc c * (2 ^ m + 4) ^ d ≤ c * (2 ^ (m + 1)) ^ d := Nat.mul_le_mul_left _ (Nat.pow_le_pow_left e1 d)
    _ = c * 2 ^ ((m + 1) * d) := by rw [pow_mul]
    _ < 2 ^ c * 2 ^ ((m + 1) * d) := Nat.mul_lt_mul_of_pos_right Nat.lt_two_pow_self (by positivity)
    _ = 2 ^ (c + (m + 1) * d) := by rw [pow_add]
    _ ≤ 2 ^ (2 ^ m) := Nat.pow_le_pow_right (by norm_num) (le_trans (by subst hmm; nlinarith) hm)

/-- C67 as far as it holds: for every text that parses, the number of tests is linear in its length. -/
theorem C67_valid_partial (s : Str) (m : Msg) (h : parseMessage s = .ok m) : parseTests s ≤ 66 * s.length + 178 := by
  obtain ⟨ts, hf, _⟩ := (parseMessage_ok_iff s m).1 h
  obtain ⟨h1, h2, h3, h4⟩ := (isFrame_iff _ _).1 hf
  obtain ⟨w, hw⟩ : ∃ w, body ts = '*' :: w := by
    rcases ts with _ | ⟨t, ts⟩
    · exact absurd rfl h1
    · exact ⟨_, rfl⟩
  have hg : Within (search MsgRe.generic (strip s)) (3 * w.length + 62) := by
    rw [h3, frame, hw]
    exact generic_within w fun c hc => frame_chars h2 c (by rw [hw]; simp [hc])
  have hc := Re.Linear.classes_linear (strip s)
  have hl : (strip s).length ≤ s.length := strip_length s
  have hwl : w.length + 3 = (strip s).length := by rw [h3, frame, hw]; simp
  have ht : parseTests s = (search MsgRe.generic (strip s)).2 + classTests (strip s) messageClasses := by
    unfold parseTests
    simp [h4, hg.1]
  have := hg.2
  omega

/-- C67: the patterns of the message classes make a linear number of tests on every text, also on those that are no frames; it is
the pattern for all frames that does not. -/
theorem C67_classes (s : Str) : classTests s messageClasses ≤ 63 * s.length + 125 := by
  have := Re.Linear.classes_linear s
  omega

/-- C67, as far as it holds: a packet that is accepted costs a number of tests that is linear in its length. -/
theorem C67_packet_partial (d : List UInt8) (ms : List Msg) (h : Protocol.packetMessages d = .ok ms) :
    packetTests d ≤ 126 * (d.length + 2) := by
  unfold Protocol.packetMessages at h
  unfold packetTests
  rcases hd : Protocol.decodeAscii d with e | t
  · simp
  · rw [hd] at h
    have hlen : t.length = d.length := by
      unfold Protocol.decodeAscii at hd
      split at hd
      · cases hd; simp
      · cases hd
    have key : ∀ (ps : List Str) (ms : List Msg), Protocol.parsePieces ps = .ok ms →
        pieceTests ps ≤ 126 * (ps.map fun p => p.length + 2).sum := by
      intro ps
      induction ps with
      | nil => intro ms _; simp [pieceTests]
      | cons p ps ih =>
        intro ms hp
        unfold Protocol.parsePieces at hp
        unfold pieceTests
        by_cases he : p = []
        · rw [if_pos he] at hp ⊢
          have := ih ms hp
          simp only [List.map_cons, List.sum_cons]
          omega
        · rw [if_neg he] at hp ⊢
          rcases hm : parseMessage (p ++ cs!"##") with e | m
          · rw [hm] at hp; cases hp
          · rw [hm] at hp
            rcases hr : Protocol.parsePieces ps with e | ms'
            · rw [hr] at hp; cases hp
            · have h1 := ih ms' hr
              have h2 := C67_valid_partial _ m hm
              have h3 : 0 < p.length := List.length_pos_iff.2 he
              simp only [List.length_append, List.length_cons, List.length_nil] at h2
              simp only [List.map_cons, List.sum_cons]
              omega
    have hsum : ∀ ps : List Str, ps ≠ [] → (ps.map fun p => p.length + 2).sum = (join cs!"##" ps).length + 2 := by
      intro ps
      induction ps with
      | nil => intro h; exact absurd rfl h
      | cons p ps ih =>
        intro _
        cases ps with
        | nil => simp [join]
        | cons q ps =>
          have := ih (by simp)
          simp only [List.map_cons, List.sum_cons, join, List.length_append, List.length_cons, List.length_nil] at this ⊢
          omega
    have hne : split2 '#' '#' (strip t) ≠ [] := by
      intro h0
      have := join_split2 (strip t)
      obtain ⟨p, ps, hp, _⟩ := split2_infix (a := '#') (b := '#') (strip t)
      rw [h0] at hp
      cases hp
    have h1 := key _ _ h
    rw [hsum _ hne, join_split2] at h1
    have := strip_length t
    dsimp only
    omega

/-- A frame, and texts that are none: three more zeros cost eight times as much. -/
example : (∃ m, parseMessage cs!"*1*1*12##" = .ok m) ∧ parseTests cs!"*1*1*12##" = 104 ∧
    4096 ≤ parseTests (evil 9) ∧ 8 * 4096 ≤ parseTests (evil 12) :=
  ⟨⟨_, rfl⟩, by decide +kernel, by decide +kernel, by decide +kernel⟩

/-- A packet of two frames. -/
example : let d : List UInt8 := "*1*1*12##*#1*12##".toUTF8.toList
    (∃ ms, Protocol.packetMessages d = .ok ms) ∧ packetTests d ≤ 300 ∧ 150 ≤ packetTests d :=
  ⟨⟨[.normal .lighting ⟨cs!"1"⟩ ⟨cs!"12"⟩, .status .lighting ⟨cs!"12"⟩], by decide +kernel⟩, by decide +kernel, by decide +kernel⟩
