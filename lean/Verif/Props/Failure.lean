import Verif.Props.Client

/-!
# What a failed `start()` raises (C87)
-/

open Py Spec HmacAuth Client M

namespace Spec

/-- A message that came out of the parser. -/
def Parsed (m : Msg) : Prop := ∃ text, parseMessage text = .ok m

end Spec

theorem Spec.Parsed.tags {m : Msg} (h : Parsed m) : m.tags ≠ [] ∧ ∀ t ∈ m.tags, TagText t := by
  obtain ⟨text, h⟩ := h
  obtain ⟨ts, hf, hm⟩ := (C07_classified text m).1 h
  refine ⟨?_, (Msg.tags_valid_iff m).2 (printTags_frameOf hf.1 hf.2.1 hm).1⟩
  cases hm <;> simp [Msg.tags]
  exact hf.1

theorem pyInt_error {s : Str} {e : Err} (h : pyInt s = .error e) : e = .valueError := by
  have key : ∀ (r : Str) (e : Err), pyNat r = .error e → e = .valueError := by
    intro r e h
    unfold pyNat at h
    split at h
    · split_ifs at h; cases h; rfl
    · cases h; rfl
  unfold pyInt at h
  dsimp only at h
  split at h
  all_goals
    generalize hn : pyNat _ = x at h
    cases x with
    | error e' => cases h; exact key _ _ hn
    | ok n => cases h

theorem ownCalcPassStr_error {pw nonce : Str} {e : Err} (h : OpenAuth.ownCalcPassStr pw nonce = .error e) :
    e = .valueError ∧ pyInt pw = .error .valueError := by
  rcases C22_answer_32bit_text pw nonce with ⟨e', h1, h2⟩ | ⟨s, n, h2, _⟩
  · rw [h] at h2; cases h2
    exact ⟨pyInt_error h1, pyInt_error h1 ▸ h1⟩
  · rw [h] at h2; cases h2

namespace Client

theorem hexToDigits_hash (lib : Lib) {tag : Str} (h : '#' ∈ tag) : hexToDigits lib tag = .error .valueError := by
  apply C26_not_hex lib tag '#' h
  · rintro ⟨v, hv⟩
    have := digit_lt hv
    unfold Hex.Digit Hex.lowerDigits Hex.upperDigits at hv
    interval_cases v <;> simp at hv
  · intro h; simp at h

theorem hexToDigits_tag (lib : Lib) {tag : Str} (ht : TagText tag) (h : '#' ∉ tag) :
    ∃ d b, hexToDigits lib tag = .ok d ∧ fromHex d = .ok b := by
  have hd : ∀ c ∈ tag, '0' ≤ c ∧ c ≤ '9' := by
    intro c hc
    have h' := ht c hc
    simp only [TagChar, List.mem_cons, List.not_mem_nil, or_false] at h'
    rcases h' with rfl | rfl | rfl | rfl | rfl | rfl | rfl | rfl | rfl | rfl | rfl <;>
      first | exact absurd hc h | decide
  refine ⟨_, _, hexToDigits_text lib (digits_text hd), fromHex_small ?_⟩
  intro v hv
  obtain ⟨c, hc, rfl⟩ := List.mem_map.1 hv
  exact digit_le (hd c hc)

/-- The runs of `confirm`. -/
theorem confirm_fail {cfg : Config} {sp : Bytes} {w : World} (hs : w.started = true)
    (hw : ∀ m, .msg m ∈ w.inbox.take 1 → Parsed m) :
    ((confirm cfg sp w).1 = .error .valueError ∧ ∃ r rest tag, w.inbox = .msg r :: rest ∧ r ≠ .nack ∧
      r.tags.head? = some tag ∧ '#' ∈ tag ∧ (confirm cfg sp w).2.trace = w.trace ++ [.got r]) ∨
    ((confirm cfg sp w).1 = .error .timeoutError ∨ (confirm cfg sp w).1 = .error .invalidAuthentication ∨
      (confirm cfg sp w).1 = .ok ()) ∧
      ∀ r rest tag, w.inbox = .msg r :: rest → r ≠ .nack → r.tags.head? = some tag → '#' ∉ tag := by
  unfold confirm
  rcases read_cases hs with ⟨m, rest, h1, h2⟩ | ⟨h1, h2⟩
  · rw [bind_ok h2]
    obtain ⟨t1, t2⟩ := (hw m (by rw [h1]; simp)).tags
    by_cases hn : m.type = .nack
    · rw [if_pos hn]
      refine .inr ⟨.inr (.inl rfl), fun r rest' tag h hr => ?_⟩
      rw [h1] at h; cases h
      exact absurd (type_nack.1 hn) hr
    · rw [if_neg hn]
      rcases ht : m.tags with _ | ⟨tag, more⟩
      · exact absurd ht t1
      · rw [show index (tag :: more) 0 = .ok tag from rfl, lift_bind_ok]
        have htt : TagText tag := t2 tag (by rw [ht]; simp)
        by_cases hh : '#' ∈ tag
        · rw [hexToDigits_hash _ hh, lift_bind_error]
          exact .inl ⟨rfl, m, rest, tag, h1, fun h => hn (type_nack.2 h), by rw [ht]; rfl, hh, rfl⟩
        · obtain ⟨d, b, e1, e2⟩ := hexToDigits_tag cfg.lib htt hh
          rw [e1, lift_bind_ok, e2, lift_bind_ok]
          refine .inr ⟨?_, fun r rest' tag' h hr ht' => ?_⟩
          · split_ifs
            · exact .inr (.inl rfl)
            · rw [send_force (by exact hs) ack_valid]
              exact .inr (.inr rfl)
          · rw [h1] at h; cases h
            rw [ht] at ht'; cases ht'
            exact hh
  · rw [bind_error h2]
    exact .inr ⟨.inl rfl, fun r rest tag h => absurd h (h1 r rest)⟩

theorem exchange_fail {cfg : Config} {alg : Alg} {w : World} (hs : w.started = true)
    (hw : ∀ m, .msg m ∈ w.inbox.take 2 → Parsed m) :
    ((exchange cfg alg w).1 = .error .valueError ∧ ∃ k r rest ra tag, w.inbox = .msg k :: .msg r :: rest ∧
      k.tags.head? = some ra ∧ r ≠ .nack ∧ r.tags.head? = some tag ∧ '#' ∈ tag ∧
      (exchange cfg alg w).2.trace = w.trace ++ [.got k, .sent (proofFrame cfg alg ra), .got r]) ∨
    ((exchange cfg alg w).1 = .error .timeoutError ∨ (exchange cfg alg w).1 = .error .invalidAuthentication ∨
      (exchange cfg alg w).1 = .ok ()) ∧
      ∀ k r rest tag, w.inbox = .msg k :: .msg r :: rest → r ≠ .nack → r.tags.head? = some tag → '#' ∉ tag := by
  unfold exchange
  rcases read_cases hs with ⟨m, rest, h1, h2⟩ | ⟨h1, h2⟩
  · rw [bind_ok h2]
    obtain ⟨t1, t2⟩ := (hw m (by rw [h1]; simp)).tags
    rcases ht : m.tags with _ | ⟨ra, more⟩
    · exact absurd ht t1
    · rw [show index (ra :: more) 0 = .ok ra from rfl]
      erw [lift_bind_ok]
      dsimp only
      have := confirm_fail (cfg := cfg) (sp := serverProof cfg alg ra)
        (w := { w with inbox := rest, trace := w.trace ++ [.got m] ++ [.sent (proofFrame cfg alg ra)] }) hs
        (fun x hx => hw x (by rw [h1]; exact List.mem_cons_of_mem _ hx))
      rcases this with ⟨e, r, rest', tag, e1, e2, e3, e4, e5⟩ | ⟨e, h⟩
      · refine .inl ⟨e, m, r, rest', ra, tag, ?_, by rw [ht]; rfl, e2, e3, e4, ?_⟩
        · rw [h1]; simp only at e1; rw [e1]
        · simpa using e5
      · refine .inr ⟨e, fun k r rest' tag hk => h r rest' tag ?_⟩
        rw [h1] at hk; cases hk; rfl
  · rw [bind_error h2]
    exact .inr ⟨.inl rfl, fun r _ rest tag h => absurd h (h1 r _)⟩

theorem awaitAck_fail {w : World} (hs : w.started = true) :
    (awaitAck w).1 = .error .timeoutError ∨ (awaitAck w).1 = .error .invalidAuthentication ∨ (awaitAck w).1 = .ok () := by
  unfold awaitAck
  rcases read_cases hs with ⟨m, rest, h1, h2⟩ | ⟨h1, h2⟩
  · rw [bind_ok h2]
    split_ifs
    · exact .inr (.inl rfl)
    · exact .inr (.inr rfl)
  · rw [bind_error h2]
    exact .inl rfl

end Client

namespace Spec

/-- The conversations that end in a `ValueError`. -/
inductive Confused (cfg : Config) : List Msg → List CAct → Prop
  /-- a one-tag challenge, while the password is not a number -/
  | password (c : Msg) (nonce : Str) (hc : c.tags = [nonce]) (hp : pyInt cfg.password = .error .valueError) :
      Confused cfg [.ack, c] [.got .ack, .sent (frame [cs!"99", cfg.session.value]), .got c]
  /-- HMAC, and a confirmation whose first tag has a `#` -/
  | confirmation (c k r : Msg) (name : Str) (more : List Str) (alg : Alg) (ra tag : Str)
      (hc : c.tags = cs!"98" :: name :: more) (ha : Announces name alg) (hk : k.tags.head? = some ra)
      (hr : r ≠ .nack) (ht : r.tags.head? = some tag) (hh : '#' ∈ tag) :
      Confused cfg [.ack, c, k, r]
        [.got .ack, .sent (frame [cs!"99", cfg.session.value]), .got c, .sent (frame [cs!"#", cs!"1"]), .got k,
         .sent (proofFrame cfg alg ra), .got r]

end Spec

/-- C87 as far as it holds: whatever the gateway says, a failing `start()` raises `TimeoutError`, `InvalidAuthentication`, or
`ValueError`, the latter in two situations. -/
theorem C87_failures_partial (cfg : Config) (w : World) (e : Err)
    (hw : ∀ inbox net, w.network = some inbox :: net → ∀ m, .msg m ∈ inbox → Parsed m)
    (h : (start cfg w).1 = .error e) :
    e = .timeoutError ∨ e = .invalidAuthentication ∨
      e = .valueError ∧ ∃ said rest net acts, w.network = some (said.map InEv.msg ++ rest) :: net ∧
        Confused cfg said acts ∧ (start cfg w).2.trace = w.trace ++ .connected :: acts := by
  have hs := start_cases cfg w
  generalize start cfg w = r at *
  cases hs with
  | unreachable _ => cases h; exact .inl rfl
  | mute _ _ _ _ => cases h; exact .inl rfl
  | refused _ _ _ _ _ => cases h; exact .inr (.inl rfl)
  | unanswered _ _ _ _ => cases h; exact .inl rfl
  | answered c q net hn =>
    have hp := hw _ _ hn
    have hc := challenge_cases cfg c ⟨net, true, q, w.trace ++ [.connected, .got .ack, .sent (sessionFrame cfg), .got c]⟩ rfl
    generalize challenge cfg c ⟨net, true, q, w.trace ++ [.connected, .got .ack, .sent (sessionFrame cfg), .got c]⟩ = r at *
    cases hc with
    | free _ => cases h
    | open_error nonce e' hc he =>
      cases h
      obtain ⟨rfl, hpw⟩ := ownCalcPassStr_error he
      exact .inr (.inr ⟨rfl, [.ack, c], q, net, _, hn, .password c nonce hc hpw, rfl⟩)
    | open_answer nonce enc hc he =>
      rcases awaitAck_fail (w := ⟨net, true, q, w.trace ++ [.connected, .got .ack, .sent (sessionFrame cfg), .got c] ++
          [.sent (frame ['#' :: enc])]⟩) rfl with h' | h' | h'
      · rw [h'] at h; cases h; exact .inl rfl
      · rw [h'] at h; cases h; exact .inr (.inl rfl)
      · rw [h'] at h; cases h
    | hmac name more alg hc ha =>
      rcases exchange_fail (cfg := cfg) (alg := alg)
        (w := ⟨net, true, q, w.trace ++ [.connected, .got .ack, .sent (sessionFrame cfg), .got c] ++
          [.sent (frame [cs!"#", cs!"1"])]⟩) rfl (fun m hm => hp m (by have := List.mem_of_mem_take hm; simp at this ⊢; exact .inr (.inr this)))
        with ⟨h', k, r, rest, ra, tag, e1, e2, e3, e4, e5, e6⟩ | ⟨h', -⟩
      · rw [h'] at h; cases h
        simp only at e1
        subst e1
        refine .inr (.inr ⟨rfl, [.ack, c, k, r], rest, net, _, hn, .confirmation c k r name more alg ra tag hc ha e2 e3 e4 e5, ?_⟩)
        rw [e6]
        simp [sessionFrame]
      · rcases h' with h' | h' | h'
        · rw [h'] at h; cases h; exact .inl rfl
        · rw [h'] at h; cases h; exact .inr (.inl rfl)
        · rw [h'] at h; cases h
    | unsupported _ _ _ _ => cases h; exact .inr (.inl rfl)
    | other _ _ _ _ _ _ => cases h; exact .inr (.inl rfl)
    | empty hc => exact absurd hc (hp c (by simp)).tags.1

/-- And it does raise `ValueError` in these situations. -/
theorem C87_value_error (cfg : Config) (w : World) (said : List Msg) (rest : List InEv) (net : List (Option (List InEv)))
    (acts : List CAct) (hn : w.network = some (said.map InEv.msg ++ rest) :: net) (hc : Confused cfg said acts)
    (hw : ∀ m ∈ said, Parsed m) :
    (start cfg w).1 = .error .valueError ∧ (start cfg w).2.trace = w.trace ++ .connected :: acts := by
  have hs := start_cases cfg w
  generalize start cfg w = r at *
  cases hs with
  | unreachable h => exact absurd hn (h _ _)
  | mute _ _ h hq =>
    rw [hn] at h
    cases hc <;> cases h <;> exact absurd rfl (hq _ _)
  | refused m _ _ h hm =>
    rw [hn] at h
    cases hc <;> · cases h; exact absurd rfl hm
  | unanswered _ _ h hq =>
    rw [hn] at h
    cases hc <;> cases h <;> exact absurd rfl (hq _ _)
  | answered c q net' h =>
    rw [hn] at h
    cases hc with
    | password _ nonce hc hp =>
      cases h
      change (challenge cfg c ⟨net, true, rest, _⟩).1 = _ ∧ (challenge cfg c ⟨net, true, rest, _⟩).2.trace = _
      have hch := challenge_cases cfg c ⟨net, true, rest, w.trace ++ [.connected, .got .ack, .sent (sessionFrame cfg), .got c]⟩ rfl
      generalize challenge cfg c ⟨net, true, rest, w.trace ++ [.connected, .got .ack, .sent (sessionFrame cfg), .got c]⟩ = r at *
      cases hch with
      | free h => subst h; simp [Msg.tags] at hc
      | open_error nonce' e hc' he =>
        obtain ⟨rfl, _⟩ := ownCalcPassStr_error he
        exact ⟨rfl, rfl⟩
      | open_answer nonce' enc hc' he => unfold OpenAuth.ownCalcPassStr at he; rw [hp] at he; cases he
      | hmac _ _ _ hc' _ => rw [hc] at hc'; cases hc'
      | unsupported _ _ hc' _ => rw [hc] at hc'; cases hc'
      | other _ _ _ hc' _ _ => rw [hc] at hc'; cases hc'
      | empty hc' => rw [hc] at hc'; cases hc'
    | confirmation _ k r' name more alg ra tag hc ha hk hr ht hh =>
      cases h
      change (challenge cfg c ⟨net, true, .msg k :: .msg r' :: rest, _⟩).1 = _ ∧
        (challenge cfg c ⟨net, true, .msg k :: .msg r' :: rest, _⟩).2.trace = _
      have hch := challenge_cases cfg c
        ⟨net, true, .msg k :: .msg r' :: rest, w.trace ++ [.connected, .got .ack, .sent (sessionFrame cfg), .got c]⟩ rfl
      generalize challenge cfg c ⟨net, true, .msg k :: .msg r' :: rest,
        w.trace ++ [.connected, .got .ack, .sent (sessionFrame cfg), .got c]⟩ = r at *
      cases hch with
      | free h => subst h; simp [Msg.tags] at hc
      | open_error _ _ hc' _ => rw [hc] at hc'; cases hc'
      | open_answer _ _ hc' _ => rw [hc] at hc'; cases hc'
      | hmac name' more' alg' hc' ha' =>
        rw [hc] at hc'; cases hc'
        have hal : alg = alg' := by
          have h1 := (fromString_iff _ _).2 ha
          rw [(fromString_iff _ _).2 ha'] at h1
          cases h1; rfl
        subst hal
        rcases exchange_fail (cfg := cfg) (alg := alg)
          (w := ⟨net, true, .msg k :: .msg r' :: rest, w.trace ++ [.connected, .got .ack, .sent (sessionFrame cfg), .got c] ++
            [.sent (frame [cs!"#", cs!"1"])]⟩) rfl
          (fun m hm => hw m (by simp at hm ⊢; tauto))
          with ⟨h', k', r, rest', ra', tag', e1, e2, e3, e4, e5, e6⟩ | ⟨-, h'⟩
        · cases e1
          rw [hk] at e2; cases e2
          refine ⟨h', ?_⟩
          rw [e6]
          simp [sessionFrame]
        · exact absurd hh (h' k r' rest tag rfl hr ht)
      | unsupported name' _ hc' ha' => rw [hc] at hc'; cases hc'; exact absurd ha (ha' _)
      | other _ _ _ hc' hf _ => rw [hc] at hc'; cases hc'; exact absurd rfl hf
      | empty hc' => rw [hc] at hc'; cases hc'

/-- C87 is false: every gateway that follows the documented HMAC exchange makes `start()` raise a bare `ValueError`, whatever
the password, the keys and the hash functions. -/
theorem C87_conforming_gateway_refuted (cfg : Config) (w : World) (alg : Alg) (proof : Bytes) (c k r : Msg)
    (hc : Conforming alg proof c k r) (hp : Parsed c ∧ Parsed k ∧ Parsed r) (rest : List InEv)
    (net : List (Option (List InEv))) (hn : w.network = some ([.msg .ack, .msg c, .msg k, .msg r] ++ rest) :: net) :
    (start cfg w).1 = .error .valueError := by
  obtain ⟨⟨name, ha, rfl⟩, ⟨ra, rfl⟩, rfl⟩ := hc
  refine (C87_value_error cfg w [.ack, .generic [cs!"98", name], .generic ['#' :: ra],
    .generic ['#' :: Hex.transcription (nibblesOf proof)]] rest net _ hn
    (.confirmation _ _ _ name [] alg ('#' :: ra) _ rfl ha rfl (by simp) rfl (by simp)) ?_).1
  intro m hm
  simp at hm
  rcases hm with rfl | rfl | rfl | rfl
  · exact ⟨cs!"*#*1##", by decide +kernel⟩
  · exact hp.1
  · exact hp.2.1
  · exact hp.2.2

/-- The documented exchange, with SHA-256 announced and one byte of everything. -/
example : Conforming .sha256 [0xAB] (.generic [cs!"98", cs!"2"]) (.generic [cs!"#0411"]) (.generic [cs!"#1011"]) ∧
    Parsed (.generic [cs!"98", cs!"2"]) ∧ Parsed (.generic [cs!"#0411"]) ∧ Parsed (.generic [cs!"#1011"]) :=
  ⟨⟨⟨_, rfl, rfl⟩, ⟨_, rfl⟩, by decide +kernel⟩, ⟨cs!"*98*2##", by decide +kernel⟩, ⟨cs!"*#0411##", by decide +kernel⟩,
    ⟨cs!"*#1011##", by decide +kernel⟩⟩

/-- A password with letters and an OPEN challenge. -/
example (lib : Lib) (w : World)
    (hn : w.network = [some [.msg .ack, .msg (.generic [cs!"#603356072"]), .msg .ack]]) :
    (start ⟨cs!"secret", .command, lib, []⟩ w).1 = .error .valueError :=
  (C87_value_error _ w [.ack, .generic [cs!"#603356072"]] [.msg .ack] [] _ hn
    (.password _ _ rfl (show pyInt cs!"secret" = _ by decide +kernel)) (by
      intro m hm
      simp at hm
      rcases hm with rfl | rfl
      · exact ⟨cs!"*#*1##", by decide +kernel⟩
      · exact ⟨cs!"*#603356072##", by decide +kernel⟩)).1

/-- A gateway that never says more than its greeting. -/
example (cfg : Config) (w : World) (hn : w.network = [some [.msg .ack]]) (e : Err) (h : (start cfg w).1 = .error e) :
    e = .timeoutError ∨ e = .invalidAuthentication ∨ e = .valueError := by
  rcases C87_failures_partial cfg w e (fun inbox net h m hm => by
    rw [hn] at h; cases h
    simp at hm; subst hm
    exact ⟨cs!"*#*1##", by decide +kernel⟩) h with h | h | ⟨h, _⟩ <;> simp [h]
