import Verif.Proofs.Client

/-! # Running the handshake -/

open Py Spec HmacAuth M

namespace Client


theorem connect_run (w : World) :
    (∃ inbox net, w.network = some inbox :: net ∧
      connect w = (.ok (), ⟨net, true, inbox, w.trace ++ [.connected]⟩)) ∨
    (∀ inbox net, w.network ≠ some inbox :: net) ∧ connect w = (.error .timeoutError, { w with network := w.network.drop 1 }) := by
  unfold connect
  cases h : w.network with
  | nil => right; refine ⟨by simp, ?_⟩; cases w; simp only at h; subst h; rfl
  | cons x net =>
    cases x with
    | none => right; refine ⟨by simp, ?_⟩; rfl
    | some inbox => left; exact ⟨inbox, net, rfl, rfl⟩

theorem fromString_iff (tag : Str) (alg : Alg) : Alg.fromString tag = .ok alg ↔ Announces tag alg := by
  unfold Alg.fromString
  cases alg <;> simp only [Announces] <;> split_ifs with h1 h2 <;> simp_all

theorem confirm_ok {cfg : Config} {sp : Bytes} {w w' : World} (hs : w.started = true) :
    confirm cfg sp w = (.ok (), w') ↔ ∃ r rest tag, w.inbox = .msg r :: rest ∧ r ≠ .nack ∧ r.tags.head? = some tag ∧
      Accepts cfg.lib tag sp ∧
      w' = { w with inbox := rest, trace := w.trace ++ [.got r, .sent (frame [cs!"#", cs!"1"])] } := by
  unfold confirm
  rcases read_cases hs with ⟨m, rest, h1, h2⟩ | ⟨h1, h2⟩
  · rw [bind_ok h2]
    constructor
    · intro h
      by_cases hn : m.type = .nack
      · rw [if_pos hn] at h; cases h
      · rw [if_neg hn] at h
        cases hi : index m.tags 0 with
        | error e => rw [hi] at h; cases h
        | ok tag =>
          rw [hi, lift_bind_ok] at h
          cases hd : hexToDigits cfg.lib tag with
          | error e => rw [hd] at h; cases h
          | ok d =>
            rw [hd, lift_bind_ok] at h
            cases hf : fromHex d with
            | error e => rw [hf] at h; cases h
            | ok conf =>
              rw [hf, lift_bind_ok] at h
              by_cases hc : compareHmac sp conf = false
              · rw [if_pos hc] at h; cases h
              · rw [if_neg hc, send_force (by exact hs) ack_valid] at h
                have hc : sp = conf := by simpa [compareHmac] using hc
                refine ⟨m, rest, tag, h1, ?_, index_zero.1 hi, ⟨d, hd, hc ▸ hf⟩, ?_⟩
                · rintro rfl; exact hn rfl
                · cases h; simp; rfl
    · rintro ⟨r, rest', tag, e1, hn, ht, ⟨d, hd, hf⟩, rfl⟩
      rw [h1] at e1
      cases e1
      rw [if_neg (by rw [type_nack]; exact hn), index_zero.2 ht, lift_bind_ok, hd, lift_bind_ok, hf, lift_bind_ok,
        if_neg (by simp [compareHmac]), send_force (by exact hs) ack_valid]
      simp; rfl
  · rw [bind_error h2]
    constructor
    · intro h; cases h
    · rintro ⟨r, rest, tag, e, _⟩; exact absurd e (h1 r rest)

theorem exchange_ok {cfg : Config} {alg : Alg} {w w' : World} (hs : w.started = true) :
    exchange cfg alg w = (.ok (), w') ↔ ∃ k r rest ra tag, w.inbox = .msg k :: .msg r :: rest ∧
      k.tags.head? = some ra ∧ r ≠ .nack ∧ r.tags.head? = some tag ∧ Accepts cfg.lib tag (serverProof cfg alg ra) ∧
      w' = { w with inbox := rest, trace := w.trace ++ [.got k, .sent (proofFrame cfg alg ra), .got r, .sent (frame [cs!"#", cs!"1"])] } := by
  unfold exchange
  rcases read_cases hs with ⟨k, rest, h1, h2⟩ | ⟨h1, h2⟩
  · rw [bind_ok h2]
    cases hi : index k.tags 0 with
    | error e =>
      constructor
      · intro h; cases h
      · rintro ⟨k', r, rest', ra, tag, e1, hk, _⟩
        rw [h1] at e1; cases e1
        rw [index_zero.2 hk] at hi; cases hi
    | ok ra =>
      change confirm cfg (serverProof cfg alg ra) _ = _ ↔ _
      rw [confirm_ok (by exact hs)]
      constructor
      · rintro ⟨r, rest', tag, e, hn, ht, ha, rfl⟩
        simp only at e
        subst e
        exact ⟨k, r, rest', ra, tag, h1, index_zero.1 hi, hn, ht, ha, by simp⟩
      · rintro ⟨k', r, rest', ra', tag, e1, hk, hn, ht, ha, rfl⟩
        rw [h1] at e1; cases e1
        rw [index_zero.2 hk] at hi; cases hi
        exact ⟨r, rest', tag, rfl, hn, ht, ha, by simp⟩
  · rw [bind_error h2]
    constructor
    · intro h; cases h
    · rintro ⟨k, r, rest, ra, tag, e, _⟩; exact absurd e (h1 k _)

theorem awaitAck_ok {w w' : World} (hs : w.started = true) :
    awaitAck w = (.ok (), w') ↔ ∃ rest, w.inbox = .msg .ack :: rest ∧
      w' = { w with inbox := rest, trace := w.trace ++ [.got .ack] } := by
  unfold awaitAck
  rcases read_cases hs with ⟨m, rest, h1, h2⟩ | ⟨h1, h2⟩
  · rw [bind_ok h2]
    constructor
    · intro h
      by_cases hm : m.type = .ack
      · rw [if_neg (by simp [hm])] at h
        rw [type_ack] at hm
        subst hm
        cases h
        exact ⟨rest, h1, rfl⟩
      · rw [if_pos hm] at h; cases h
    · rintro ⟨rest', e, rfl⟩
      rw [h1] at e; cases e
      rw [if_neg (by simp [Msg.type])]
      rfl
  · rw [bind_error h2]
    constructor
    · intro h; cases h
    · rintro ⟨rest, e, _⟩; exact absurd e (h1 _ _)

/-- What `handshake` does with the answer to the session frame. -/
def challenge (cfg : Config) (resp : Msg) : M Unit :=
  if resp.type = .ack then return ()
  else if resp.tags.length = 1 then do
    authenticateOpen cfg (← lift (index resp.tags 0))
  else do
    let first ← lift (index resp.tags 0)
    if first = cs!"98" then do
      authenticateHmac cfg (← lift (index resp.tags 1))
    else raise .invalidAuthentication

/-- The runs of `start`, up to the answer to the session frame. -/
inductive Start (cfg : Config) (w : World) : Except Err Unit × World → Prop
  | unreachable (h : ∀ inbox net, w.network ≠ some inbox :: net) :
      Start cfg w (.error .timeoutError, { w with network := w.network.drop 1 })
  | mute (inbox net) (h : w.network = some inbox :: net) (hq : ∀ m r, inbox ≠ .msg m :: r) :
      Start cfg w (.error .timeoutError, ⟨net, true, inbox.drop 1, w.trace ++ [.connected]⟩)
  | refused (m r net) (h : w.network = some (.msg m :: r) :: net) (hm : m ≠ .ack) :
      Start cfg w (.error .invalidAuthentication, ⟨net, true, r, w.trace ++ [.connected, .got m]⟩)
  | unanswered (r net) (h : w.network = some (.msg .ack :: r) :: net) (hq : ∀ m r', r ≠ .msg m :: r') :
      Start cfg w (.error .timeoutError,
        ⟨net, true, r.drop 1, w.trace ++ [.connected, .got .ack, .sent (sessionFrame cfg)]⟩)
  | answered (c r net) (h : w.network = some (.msg .ack :: .msg c :: r) :: net) :
      Start cfg w (challenge cfg c
        ⟨net, true, r, w.trace ++ [.connected, .got .ack, .sent (sessionFrame cfg), .got c]⟩)

theorem start_cases (cfg : Config) (w : World) : Start cfg w (start cfg w) := by
  unfold start
  rcases connect_run w with ⟨inbox, net, hn, hc⟩ | ⟨hn, hc⟩
  · rw [bind_ok hc]
    rcases read_cases (w := ⟨net, true, inbox, w.trace ++ [.connected]⟩) rfl with ⟨m, r1, h1, _⟩ | ⟨h1, h2⟩
    · simp only at h1
      subst h1
      by_cases hm : m = .ack
      · subst hm
        rw [handshake_ack rfl rfl]
        unfold negotiate
        rw [bind_apply]
        rcases read_cases (w := ⟨net, true, r1, (w.trace ++ [.connected]) ++ [.got .ack, .sent (sessionFrame cfg)]⟩) rfl
          with ⟨c, r2, h1, h2⟩ | ⟨h1, h2⟩
        · rw [h2]
          simp only at h1
          subst h1
          simpa [challenge] using Start.answered (cfg := cfg) c r2 net hn
        · rw [h2]
          simpa using Start.unanswered (cfg := cfg) r1 net hn h1
      · rw [handshake_other rfl rfl hm]
        simpa using Start.refused (cfg := cfg) m r1 net hn hm
    · unfold handshake
      rw [bind_error h2]
      exact Start.mute inbox net hn h1
  · rw [bind_error hc]
    exact Start.unreachable hn

/-- The runs after the answer `c` to the session frame. -/
inductive Challenge (cfg : Config) (c : Msg) (w : World) : Except Err Unit × World → Prop
  | free (h : c = .ack) : Challenge cfg c w (.ok (), w)
  | open_error (nonce : Str) (e : Err) (hc : c.tags = [nonce])
      (h : OpenAuth.ownCalcPassStr cfg.password nonce = .error e) : Challenge cfg c w (.error e, w)
  | open_answer (nonce enc : Str) (hc : c.tags = [nonce]) (h : OpenAuth.ownCalcPassStr cfg.password nonce = .ok enc) :
      Challenge cfg c w (awaitAck { w with trace := w.trace ++ [.sent (frame ['#' :: enc])] })
  | hmac (name : Str) (more : List Str) (alg : Alg) (hc : c.tags = cs!"98" :: name :: more) (ha : Announces name alg) :
      Challenge cfg c w (exchange cfg alg { w with trace := w.trace ++ [.sent (frame [cs!"#", cs!"1"])] })
  | unsupported (name : Str) (more : List Str) (hc : c.tags = cs!"98" :: name :: more) (ha : ∀ alg, ¬ Announces name alg) :
      Challenge cfg c w (.error .invalidAuthentication, { w with trace := w.trace ++ [.sent (frame [cs!"#", cs!"0"])] })
  | other (first snd : Str) (more : List Str) (hc : c.tags = first :: snd :: more) (hf : first ≠ cs!"98") (ha : c ≠ .ack) :
      Challenge cfg c w (.error .invalidAuthentication, w)
  | empty (hc : c.tags = []) : Challenge cfg c w (.error .indexError, w)

theorem challenge_cases (cfg : Config) (c : Msg) (w : World) (hs : w.started = true) :
    Challenge cfg c w (challenge cfg c w) := by
  unfold challenge
  split_ifs with h1 h2
  · exact .free (type_ack.1 h1)
  · obtain ⟨nonce, hn⟩ := List.length_eq_one_iff.1 h2
    rw [hn]
    change Challenge cfg c w (authenticateOpen cfg nonce w)
    rcases authenticateOpen_run (cfg := cfg) hs nonce with ⟨e, he, h⟩ | ⟨enc, he, h⟩
    · rw [h]; exact .open_error nonce e hn he
    · rw [h]; exact .open_answer nonce enc hn he
  · rw [type_ack] at h1
    rcases ht : c.tags with _ | ⟨a, _ | ⟨b, l⟩⟩
    · exact .empty ht
    · simp [ht] at h2
    · change Challenge cfg c w ((if a = cs!"98" then _ else _ : M Unit) w)
      split_ifs with h98
      · subst h98
        change Challenge cfg c w (authenticateHmac cfg b w)
        unfold authenticateHmac
        cases ha : Alg.fromString b with
        | error e =>
          dsimp only
          rw [bind_ok (send_force hs nack_valid)]
          refine .unsupported b l ht ?_
          intro alg h
          rw [(fromString_iff _ _).2 h] at ha
          cases ha
        | ok alg =>
          dsimp only
          rw [authenticateHmacWith_run hs]
          exact .hmac b l alg ht ((fromString_iff _ _).1 ha)
      · exact .other a b l ht h98 h1

end Client
