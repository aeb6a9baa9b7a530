import Verif.Proofs.HmacAuth
import Verif.Spec.Handshake

/-!
# Properties of the HMAC strings (C26, C27)
-/

open Py Spec HmacAuth

/-! ## C26: transcoding is lossless -/

/-- Hexadecimal text of any length and either case: its transcription has two decimal digits per hexadecimal digit, is the
documented one, and decodes to the lower case text. -/
theorem C26_roundtrip (lib : Lib) (h : Str) (vs : List Nat) (hh : Hex.Text h vs) :
    ∃ d, hexToDigits lib h = .ok d ∧ d = Hex.transcription vs ∧ d.length = 2 * h.length ∧
      (∀ c ∈ d, '0' ≤ c ∧ c ≤ '9') ∧ digitsToHex lib d = .ok (Hex.lower vs) := by
  refine ⟨_, hexToDigits_text lib hh, rfl, ?_, ?_, ?_⟩
  · rw [transcription_length (text_lt hh), text_length hh]
  · intro c hc
    simpa [isDigit] using transcription_digits (text_lt hh) c hc
  · rw [digitsToHex, digitsToHexLoop_transcription lib (text_lt hh), List.nil_append]

/-- The other direction, for digit strings: it is the identity exactly on an even number of digits whose pairs are at
most 15. -/
theorem C26_reverse (lib : Lib) (d : Str) (hd : ∀ c ∈ d, '0' ≤ c ∧ c ≤ '9') :
    (∃ h, digitsToHex lib d = .ok h ∧ hexToDigits lib h = .ok d) ↔
      d.length % 2 = 0 ∧ ∀ v ∈ Hex.pairValues d, v ≤ 15 := by
  have hd' : ∀ c ∈ d, isDigit c = true := fun c hc => by simpa [isDigit] using hd c hc
  constructor
  · rintro ⟨h, e1, e2⟩
    have even : d.length % 2 = 0 := by
      by_contra hodd
      rw [digitsToHex, digitsToHex_odd lib d [] hd' (by omega)] at e1
      cases e1
    refine ⟨even, ?_⟩
    obtain ⟨h', e, t⟩ := digitsToHex_digits lib d hd' even
    rw [digitsToHex, e] at e1
    cases e1
    rw [hexToDigits_text lib t] at e2
    have e2 := congrArg List.length (Except.ok.inj e2)
    rw [transcription_length (text_lt t)] at e2
    have := pairValues_length d
    intro v hv
    have := (flatMap_nibbles_length (Hex.pairValues d)).2 (by omega) v hv
    omega
  · rintro ⟨even, small⟩
    obtain ⟨h, e, t⟩ := digitsToHex_digits lib d hd' even
    have small' : ∀ v ∈ Hex.pairValues d, v < 16 := fun v hv => by have := small v hv; omega
    rw [flatMap_nibbles_small small'] at t
    exact ⟨h, e, by rw [hexToDigits_text lib t, transcription_pairValues d hd' even small']⟩

/-- An odd number of digits raises `IndexError`. -/
theorem C26_odd (lib : Lib) (d : Str) (hd : ∀ c ∈ d, '0' ≤ c ∧ c ≤ '9') (h : d.length % 2 = 1) :
    digitsToHex lib d = .error .indexError :=
  digitsToHex_odd lib d [] (fun c hc => by simpa [isDigit] using hd c hc) h

/-- A character that is not a hexadecimal digit (and not one of the non-ASCII decimal digits, which `int` accepts too)
raises `ValueError`, wherever it stands and whatever the rest. -/
theorem C26_not_hex (lib : Lib) (s : Str) (c : Char) (hc : c ∈ s) (hx : ¬ ∃ v, Hex.Digit c v)
    (hu : 128 ≤ c.toNat → lib.decimal c = none) : hexToDigits lib s = .error .valueError := by
  apply hexToDigitsLoop_bad lib s [] c hc
  have range : ∀ a b : Char, a ≤ c → c ≤ b → a.toNat ≤ c.toNat ∧ c.toNat ≤ b.toNat := fun a b h1 h2 => ⟨h1, h2⟩
  have e : c = Char.ofNat c.toNat := (Char.ofNat_toNat c).symm
  unfold intChar16 intChar
  rw [if_neg, if_neg, if_neg]
  · split_ifs with h
    · rfl
    · rw [hu (by omega)]
  · intro h
    have h : '0' ≤ c ∧ c ≤ '9' := by simpa [isDigit] using h
    obtain ⟨h1, h2⟩ := range '0' '9' h.1 h.2
    apply hx
    refine ⟨c.toNat - 48, .inl ?_⟩
    simp at h1 h2
    rw [e]
    generalize c.toNat = n at *
    interval_cases n <;> rfl
  · rintro ⟨h1, h2⟩
    obtain ⟨h1, h2⟩ := range _ _ h1 h2
    apply hx
    refine ⟨c.toNat - 55, .inr ?_⟩
    simp at h1 h2
    rw [e]
    generalize c.toNat = n at *
    interval_cases n <;> rfl
  · rintro ⟨h1, h2⟩
    obtain ⟨h1, h2⟩ := range _ _ h1 h2
    apply hx
    refine ⟨c.toNat - 87, .inl ?_⟩
    simp at h1 h2
    rw [e]
    generalize c.toNat = n at *
    interval_cases n <;> rfl

/-- Mixed case text. -/
example : Hex.Text cs!"fF0a" [15, 15, 0, 10] :=
  .cons (.inl rfl) (.cons (.inr rfl) (.cons (.inl rfl) (.cons (.inl rfl) .nil)))
example (lib : Lib) : hexToDigits lib cs!"fF0a" = .ok cs!"15150010" := rfl
example (lib : Lib) : digitsToHex lib cs!"15150010" = .ok cs!"ff0a" := rfl
/-- A pair above 15 is not restored. -/
example (lib : Lib) : digitsToHex lib cs!"9916" = .ok cs!"6310" ∧ hexToDigits lib cs!"6310" = .ok cs!"06030100" :=
  ⟨rfl, rfl⟩
example : ¬ ∃ v, Hex.Digit '#' v := by
  rintro ⟨v, h⟩
  have := digit_lt h
  interval_cases v <;> rcases h with h | h <;> cases h

/-! ## C27: the formulas -/

theorem HmacAuth.encode_eq (s : Str) : encode s = utf8 s := by
  unfold encode utf8
  rw [String.toByteArray_ofList]
  simp [List.utf8Encode]

theorem HmacAuth.encode_append (s t : Str) : encode (s ++ t) = encode s ++ encode t := by
  simp [encode]

theorem HmacAuth.hexdigest_eq (b : Bytes) : hexdigest b = hexText b := by
  unfold hexdigest hexText Hex.lower
  rw [List.map_flatMap]
  congr 1
  funext x
  have hx : x.toNat < 256 := x.toNat_lt
  have key : ∀ v, v < 16 → hexChar v = Hex.lowerDigits.getD v '?' := by
    intro v hv
    interval_cases v <;> rfl
  simp only [List.map_cons, List.map_nil]
  rw [key _ (by omega), key _ (by omega)]

theorem HmacAuth.hashFunction_value (lib : Lib) (alg : Alg) : hashFunction lib alg.value = .ok (hashOf lib alg) := by
  cases alg <;> rfl

/-- The client's string is the documented `HMAC(Ra, Rb, A, B, Kab)`. -/
theorem C27_client_partial (lib : Lib) (alg : Alg) (ra rb password a b : Str) :
    clientHmac lib ra rb password a b alg.value =
      .ok (mac lib alg ra [ra, rb, a, b, hexText (hashOf lib alg (utf8 password))]) := by
  unfold clientHmac mac
  rw [hashFunction_value, ok_bind, except_pure]
  simp only [encode_eq, hexdigest_eq, List.map_cons, List.map_nil, List.flatten_cons, List.flatten_nil]
  simp only [← encode_eq, encode_append, List.append_assoc, List.append_nil]

/-- The server's string has the keys in the order `Rb, Ra`. -/
theorem C27_server_partial (lib : Lib) (alg : Alg) (ra rb password : Str) :
    serverHmac lib ra rb password alg.value =
      .ok (mac lib alg ra [rb, ra, hexText (hashOf lib alg (utf8 password))]) := by
  unfold serverHmac mac
  rw [hashFunction_value, ok_bind, except_pure]
  simp only [encode_eq, hexdigest_eq, List.map_cons, List.map_nil, List.flatten_cons, List.flatten_nil]
  simp only [← encode_eq, encode_append, List.append_assoc, List.append_nil]

/-- `create_key` gives two lower case hexadecimal digits per byte of the hash. -/
theorem C27_create_key_partial (lib : Lib) (alg : Alg) (token : Bytes) :
    ∃ k vs, createKey lib token alg.value = .ok k ∧ Hex.Text k vs ∧ k = Hex.lower vs ∧
      k.length = 2 * (hashOf lib alg token).length := by
  refine ⟨hexText (hashOf lib alg token), _, ?_, ?_, rfl, ?_⟩
  · unfold createKey
    rw [hashFunction_value, ok_bind, hexdigest_eq]; rfl
  · apply lower_text
    intro v hv
    obtain ⟨x, _, hv⟩ := List.mem_flatMap.1 hv
    have hx : x.toNat < 256 := x.toNat_lt
    simp at hv
    omega
  · unfold hexText Hex.lower
    rw [List.length_map, List.length_flatMap]
    generalize hashOf lib alg token = l
    induction l with
    | nil => rfl
    | cons a l ih => simp at ih ⊢; omega

/-- Another algorithm number raises `ValueError`. -/
theorem C27_unknown_algorithm_partial (lib : Lib) (n : Int) (h : ∀ alg : Alg, n ≠ alg.value)
    (ra rb password a b : Str) (token : Bytes) :
    clientHmac lib ra rb password a b n = .error .valueError ∧ serverHmac lib ra rb password n = .error .valueError ∧
      createKey lib token n = .error .valueError := by
  have e : hashFunction lib n = .error .valueError := by
    unfold hashFunction
    rw [if_neg (show n ≠ 1 from h .sha1), if_neg (show n ≠ 2 from h .sha256)]
  unfold clientHmac serverHmac createKey
  rw [e]
  exact ⟨rfl, rfl, rfl⟩

/-- The documentation has the server confirm with `HMAC(Ra, Rb, Kab)`; the function computes something else whenever the
HMAC is injective in its message and the two keys do not commute. -/
theorem C27_server_order_differs_partial (lib : Lib) (alg : Alg) (ra rb password : Str)
    (inj : ∀ h k m m', lib.hmac h k m = lib.hmac h k m' → m = m') (hne : ra ++ rb ≠ rb ++ ra) :
    serverHmac lib ra rb password alg.value ≠
      .ok (mac lib alg ra [ra, rb, hexText (hashOf lib alg (utf8 password))]) := by
  rw [C27_server_partial]
  intro h
  have h := inj _ _ _ _ (Except.ok.inj h)
  simp only [List.map_cons, List.map_nil, List.flatten_cons, List.flatten_nil] at h
  simp only [← encode_eq, ← encode_append, List.append_nil, ← List.append_assoc] at h
  rw [encode_append, encode_append _ (hexText _)] at h
  have h := List.append_cancel_right h
  apply hne
  rw [encode_eq, encode_eq] at h
  unfold utf8 at h
  have h : (String.ofList (rb ++ ra)).toByteArray = (String.ofList (ra ++ rb)).toByteArray := by
    apply ByteArray.ext
    exact Array.toList_inj.1 h
  have h := String.toByteArray_inj.1 h
  exact (String.ofList_injective h).symm

/-- The documented formula does not hold in general. -/
theorem C27_server_order_refuted : ¬ ∀ (lib : Lib) (alg : Alg) (ra rb password : Str),
    serverHmac lib ra rb password alg.value =
      .ok (mac lib alg ra [ra, rb, hexText (hashOf lib alg (utf8 password))]) := fun h =>
  C27_server_order_differs_partial ⟨id, id, fun _ _ m => m, fun _ => none⟩ .sha256 cs!"#11" cs!"ab" cs!"12345"
    (fun _ _ _ _ h => h) (by decide) (h _ _ _ _ _)
