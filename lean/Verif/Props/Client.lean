import Verif.Proofs.Cut

/-!
# Properties of the handshake and of the client's state (C28–C34)
-/

open Py Spec HmacAuth Client M

/-! ## C29: success means a complete handshake -/

/-- C29: `start()` returns exactly on the complete handshakes, and then the connection saw exactly that exchange. -/
theorem C29_start_iff (cfg : Config) (w w' : World) :
    start cfg w = (.ok (), w') ↔
      ∃ said rest net acts, w.network = some (said.map InEv.msg ++ rest) :: net ∧ Handshake cfg said acts ∧
        w' = ⟨net, true, rest, w.trace ++ .connected :: acts⟩ := by
  unfold start
  rcases connect_run w with ⟨inbox, net, hn, hc⟩ | ⟨hn, hc⟩
  · rw [bind_ok hc]
    constructor
    · intro h
      rcases read_cases (w := ⟨net, true, inbox, w.trace ++ [.connected]⟩) rfl with ⟨m, r1, h1, _⟩ | ⟨_, h2⟩
      · simp only at h1
        subst h1
        by_cases hm : m = .ack
        · subst hm
          rw [handshake_ack rfl rfl] at h
          unfold negotiate at h
          rw [bind_apply] at h
          rcases read_cases (w := ⟨net, true, r1, (w.trace ++ [.connected]) ++ [.got .ack, .sent (sessionFrame cfg)]⟩) rfl
            with ⟨c, r2, h1, h2⟩ | ⟨_, h2⟩
          · simp only at h1
            subst h1
            rw [h2] at h
            dsimp only at h
            split_ifs at h with hack h1 <;> try cases h
            · -- no authentication
              rw [type_ack] at hack
              subst hack
              exact ⟨[.ack, .ack], r2, net, _, by simpa using hn, .free, by simp [sessionFrame]⟩
            · -- OPEN
              obtain ⟨nonce, hnonce⟩ := List.length_eq_one_iff.1 h1
              rw [hnonce] at h
              change authenticateOpen cfg nonce _ = _ at h
              rcases authenticateOpen_run (cfg := cfg)
                (w := ⟨net, true, r2, (w.trace ++ [.connected]) ++ [.got .ack, .sent (sessionFrame cfg)] ++ [.got c]⟩) rfl nonce
                with ⟨e, _, he⟩ | ⟨enc, henc, he⟩
              · rw [he] at h; cases h
              · rw [he, awaitAck_ok (by rfl)] at h
                obtain ⟨r3, h3, rfl⟩ := h
                simp only at h3
                subst h3
                exact ⟨[.ack, c, .ack], r3, net, _, by simpa using hn, .open c nonce enc hnonce henc, by simp [sessionFrame]⟩
            · -- HMAC or nothing
              cases hi : index c.tags 0 with
              | error e => rw [hi] at h; cases h
              | ok first =>
                rw [hi, lift_bind_ok] at h
                split_ifs at h with h98
                · subst h98
                  cases hi1 : index c.tags 1 with
                  | error e => rw [hi1] at h; cases h
                  | ok name =>
                    rw [hi1, lift_bind_ok] at h
                    have htags : ∃ more, c.tags = cs!"98" :: name :: more := by
                      revert hi hi1
                      rcases c.tags with _ | ⟨a, _ | ⟨b, l⟩⟩ <;> simp +contextual [index]
                    obtain ⟨more, htags⟩ := htags
                    unfold authenticateHmac at h
                    cases ha : Alg.fromString name with
                    | error e =>
                      rw [ha] at h
                      dsimp only at h
                      rw [bind_ok (send_force (by rfl) nack_valid)] at h
                      cases h
                    | ok alg =>
                      rw [ha] at h
                      dsimp only at h
                      rw [authenticateHmacWith_run (by rfl), exchange_ok (by rfl)] at h
                      obtain ⟨k, r, r3, ra, tag, h3, hk, hr, ht, hacc, rfl⟩ := h
                      simp only at h3
                      subst h3
                      refine ⟨[.ack, c, k, r], r3, net, _, by simpa using hn,
                        .hmac c k r name more alg ra tag htags ((fromString_iff _ _).1 ha) hk hr ht hacc, ?_⟩
                      simp [sessionFrame]
                · cases h
          · rw [h2] at h; cases h
        · rw [handshake_other rfl rfl hm] at h; cases h
      · unfold handshake at h
        rw [bind_error h2] at h; cases h
    · rintro ⟨said, rest, net', acts, hn', hh, rfl⟩
      rw [hn] at hn'
      cases hn'
      cases hh with
      | free =>
        rw [handshake_ack rfl rfl]
        unfold negotiate
        rw [bind_ok (read_msg (by rfl) (by rfl)), if_pos (by rfl)]
        simp [sessionFrame]
      | «open» c nonce enc htag he =>
        rw [handshake_ack rfl rfl]
        unfold negotiate
        rw [bind_ok (read_msg (by rfl) (by rfl)), if_neg, if_pos (by rw [htag]; rfl), htag]
        · change authenticateOpen cfg nonce _ = _
          rcases authenticateOpen_run (cfg := cfg)
            (w := ⟨net, true, .msg .ack :: rest, (w.trace ++ [.connected]) ++ [.got .ack, .sent (sessionFrame cfg)] ++ [.got c]⟩) rfl nonce
            with ⟨e, he', _⟩ | ⟨enc', he', h⟩
          · rw [he] at he'; cases he'
          · rw [he] at he'; cases he'
            refine h.trans ?_
            rw [awaitAck_ok (by rfl)]
            exact ⟨rest, rfl, by simp [sessionFrame]⟩
        · rw [type_ack]; rintro rfl; simp [Msg.tags] at htag
      | hmac c k r name more alg ra tag htag ha hk hr ht hacc =>
        rw [handshake_ack rfl rfl]
        unfold negotiate
        rw [bind_ok (read_msg (by rfl) (by rfl)), if_neg, if_neg (by rw [htag]; simp), htag]
        · change authenticateHmac cfg name _ = _
          unfold authenticateHmac
          rw [(fromString_iff _ _).2 ha]
          dsimp only
          rw [authenticateHmacWith_run (by rfl), exchange_ok (by rfl)]
          exact ⟨k, r, rest, ra, tag, rfl, hk, hr, ht, hacc, by simp [sessionFrame]⟩
        · rw [type_ack]; rintro rfl; simp [Msg.tags] at htag
  · rw [bind_error hc]
    constructor
    · intro h; cases h
    · rintro ⟨said, rest, net, acts, h, _⟩; exact absurd h (hn _ _)

/-- The documented OPEN exchange (password 12345, nonce 603356072). -/
example (lib : Lib) (net : List (Option (List InEv))) (rest : List InEv) :
    Client.start ⟨cs!"12345", .command, lib, []⟩
      ⟨some ([Msg.ack, .generic [cs!"603356072"], .ack].map InEv.msg ++ rest) :: net, false, [], []⟩ =
    (.ok (), ⟨net, true, rest, [] ++ .connected :: [.got .ack, .sent cs!"*99*9##", .got (.generic [cs!"603356072"]),
      .sent cs!"*#25280520##", .got .ack]⟩) :=
  (C29_start_iff _ _ _).2 ⟨_, rest, net, _, rfl, .open _ cs!"603356072" cs!"25280520" rfl
    (show OpenAuth.ownCalcPassStr cs!"12345" cs!"603356072" = _ by decide +kernel), rfl⟩

/-- A complete HMAC exchange exists (with a library whose digests are one byte long). -/
example : ∃ (cfg : Config) (said : List Msg) (acts : List CAct), said.length = 4 ∧ Handshake cfg said acts :=
  let lib : Lib := ⟨fun _ => [171], fun _ => [205], fun _ _ _ => [7], fun _ => none⟩
  let cfg : Config := ⟨cs!"secret", .event, lib, [1, 2, 3]⟩
  ⟨cfg, [.ack, .generic [cs!"98", cs!"2"], .generic [cs!"#0102"], .generic [cs!"7"]], _, rfl,
    .hmac _ _ _ cs!"2" [] .sha256 cs!"#0102" cs!"7" rfl rfl rfl (by decide) rfl ⟨cs!"07", rfl, rfl⟩⟩

/-! ## C30: what is sent, and when -/

/-- C30: a frame written by `start()` is the session frame, written right after the ACK was read, or comes after it. -/
theorem C30_session_first (cfg : Config) (w : World) :
    ∃ acts, (start cfg w).2.trace = w.trace ++ acts ∧
      ∀ pre text post, acts = pre ++ .sent text :: post →
        (pre = [.connected, .got .ack] ∧ text = frame [cs!"99", cfg.session.value]) ∨
        [.connected, .got .ack, .sent (frame [cs!"99", cfg.session.value])] <+: pre := by
  have key : ∀ more pre text post,
      [CAct.connected, .got .ack, .sent (sessionFrame cfg)] ++ more = pre ++ .sent text :: post →
        (pre = [.connected, .got .ack] ∧ text = frame [cs!"99", cfg.session.value]) ∨
        [.connected, .got .ack, .sent (frame [cs!"99", cfg.session.value])] <+: pre := by
    intro more pre text post h
    rcases pre with _ | ⟨a, _ | ⟨b, _ | ⟨c, l⟩⟩⟩
    · simp at h
    · simp at h
    · simp [sessionFrame] at h
      obtain ⟨rfl, rfl, rfl, -⟩ := h
      exact .inl ⟨rfl, rfl⟩
    · simp [sessionFrame] at h
      obtain ⟨rfl, rfl, rfl, -⟩ := h
      exact .inr ⟨l, rfl⟩
  generalize hr : start cfg w = r
  have hs := start_cases cfg w
  rw [hr] at hs
  cases hs with
  | unreachable h => exact ⟨[], by simp, by simp⟩
  | mute inbox net h hq =>
    refine ⟨_, rfl, ?_⟩
    intro pre text post e
    rcases pre with _ | ⟨a, _ | _⟩ <;> simp at e
  | refused m r net h hm =>
    refine ⟨_, rfl, ?_⟩
    intro pre text post e
    rcases pre with _ | ⟨a, _ | ⟨b, _ | _⟩⟩ <;> simp at e
  | unanswered r net h hq => exact ⟨_, rfl, key []⟩
  | answered c r net h =>
    obtain ⟨more, hmore⟩ := (tame_challenge cfg c).mono
      ⟨net, true, r, w.trace ++ [.connected, .got .ack, .sent (sessionFrame cfg), .got c]⟩
    refine ⟨[.connected, .got .ack, .sent (sessionFrame cfg)] ++ (.got c :: more), ?_, key _⟩
    rw [← hmore]
    simp

/-- The frame that asks for a session (`docs/original/intro.md:138,160`; the old code from `client/session.py:13`). -/
def Spec.sessionText : Session → Str
  | .oldCommand => cs!"*99*0##"
  | .command => cs!"*99*9##"
  | .event => cs!"*99*1##"

/-- C30 with the frames written out: the session asked for is the session the client was made for. -/
theorem C30_session_text (cfg : Config) (w : World) :
    ∃ acts, (start cfg w).2.trace = w.trace ++ acts ∧
      ∀ pre text post, acts = pre ++ .sent text :: post →
        (pre = [.connected, .got .ack] ∧ text = sessionText cfg.session) ∨
        [.connected, .got .ack, .sent (sessionText cfg.session)] <+: pre := by
  have : sessionText cfg.session = frame [cs!"99", cfg.session.value] := by cases cfg.session <;> rfl
  rw [this]
  exact C30_session_first cfg w

/-- Some frame is written: a command client whose gateway greets it and goes silent. -/
example (lib : Lib) : (start ⟨cs!"12345", .command, lib, []⟩ ⟨[some [.msg .ack]], false, [], []⟩).2.trace =
    [.connected, .got .ack, .sent cs!"*99*9##"] := rfl

/-- C30: two clients that differ only in the password behave identically, unless the gateway has sent a one-tag challenge
or has announced a supported algorithm and sent its key; up to that point they have done the same things. -/
theorem C30_password_only_after_challenge (cfg : Config) (pw : Str) (w : World) :
    start cfg w = start { cfg with password := pw } w ∨
    ∃ c acts, (c.tags.length = 1 ∧ acts = [.got c] ∨
        ∃ name more alg k, c.tags = cs!"98" :: name :: more ∧ Announces name alg ∧
          acts = [.got c, .sent (frame [cs!"#", cs!"1"]), .got k]) ∧
      w.trace ++ [.connected, .got .ack, .sent (frame [cs!"99", cfg.session.value])] ++ acts <+: (start cfg w).2.trace ∧
      w.trace ++ [.connected, .got .ack, .sent (frame [cs!"99", cfg.session.value])] ++ acts <+:
        (start { cfg with password := pw } w).2.trace := by
  set cfg' : Config := { cfg with password := pw } with hcfg'
  have hsf : sessionFrame cfg' = sessionFrame cfg := rfl
  generalize hr : start cfg w = r
  generalize hr' : start cfg' w = r'
  have hs := start_cases cfg w
  have hs' := start_cases cfg' w
  rw [hr] at hs
  rw [hr'] at hs'
  cases hs with
  | unreachable h =>
    left
    cases hs' with
    | unreachable h' => rfl
    | mute _ _ h' => exact absurd h' (h _ _)
    | refused _ _ _ h' => exact absurd h' (h _ _)
    | unanswered _ _ h' => exact absurd h' (h _ _)
    | answered _ _ _ h' => exact absurd h' (h _ _)
  | mute inbox net h hq =>
    left
    cases hs' with
    | unreachable h' => exact absurd h (h' _ _)
    | mute _ _ h' => rw [h] at h'; cases h'; rfl
    | refused _ _ _ h' => rw [h] at h'; cases h'; exact absurd rfl (hq _ _)
    | unanswered _ _ h' => rw [h] at h'; cases h'; exact absurd rfl (hq _ _)
    | answered _ _ _ h' => rw [h] at h'; cases h'; exact absurd rfl (hq _ _)
  | refused m r net h hm =>
    left
    cases hs' with
    | unreachable h' => exact absurd h (h' _ _)
    | mute _ _ h' hq => rw [h] at h'; cases h'; exact absurd rfl (hq _ _)
    | refused _ _ _ h' => rw [h] at h'; cases h'; rfl
    | unanswered _ _ h' => rw [h] at h'; cases h'; exact absurd rfl hm
    | answered _ _ _ h' => rw [h] at h'; cases h'; exact absurd rfl hm
  | unanswered r net h hq =>
    left
    cases hs' with
    | unreachable h' => exact absurd h (h' _ _)
    | mute _ _ h' hq => rw [h] at h'; cases h'; exact absurd rfl (hq _ _)
    | refused _ _ _ h' hm => rw [h] at h'; cases h'; exact absurd rfl hm
    | unanswered _ _ h' => rw [h] at h'; cases h'; rfl
    | answered _ _ _ h' => rw [h] at h'; cases h'; exact absurd rfl (hq _ _)
  | answered c r net h =>
    cases hs' with
    | unreachable h' => exact absurd h (h' _ _)
    | mute _ _ h' hq => rw [h] at h'; cases h'; exact absurd rfl (hq _ _)
    | refused _ _ _ h' hm => rw [h] at h'; cases h'; exact absurd rfl hm
    | unanswered _ _ h' hq => rw [h] at h'; cases h'; exact absurd rfl (hq _ _)
    | answered c' r' net' h' =>
      rw [h] at h'
      cases h'
      rw [hsf]
      set v : World := ⟨net, true, r, w.trace ++ [.connected, .got .ack, .sent (sessionFrame cfg), .got c]⟩ with hv
      by_cases h1 : c.tags.length = 1
      · right
        refine ⟨c, _, .inl ⟨h1, rfl⟩, ?_, ?_⟩
        · simpa [hv, sessionFrame] using (tame_challenge cfg c).mono v
        · simpa [hv, sessionFrame] using (tame_challenge cfg' c).mono v
      · by_cases h2 : ∃ name more alg, c.tags = cs!"98" :: name :: more ∧ Announces name alg
        · obtain ⟨name, more, alg, hc, ha⟩ := h2
          have run : ∀ cfg, challenge cfg c v =
              exchange cfg alg { v with trace := v.trace ++ [.sent (frame [cs!"#", cs!"1"])] } := by
            intro cfg
            unfold challenge
            rw [if_neg, if_neg h1, hc]
            · change authenticateHmac cfg name v = _
              unfold authenticateHmac
              rw [(fromString_iff _ _).2 ha]
              exact authenticateHmacWith_run rfl alg
            · rw [type_ack]; rintro rfl; simp [Msg.tags] at hc
          rw [run, run]
          set u : World := { v with trace := v.trace ++ [.sent (frame [cs!"#", cs!"1"])] } with hu
          rcases read_cases (w := u) rfl with ⟨k, rest, e1, e2⟩ | ⟨e1, e2⟩
          · right
            have grow : ∀ cfg, u.trace ++ [.got k] <+: (exchange cfg alg u).2.trace := by
              intro cfg
              unfold exchange
              rw [bind_ok e2]
              cases index k.tags 0 with
              | error e => exact List.prefix_refl _
              | ok ra =>
                change _ <+: (confirm cfg _ _).2.trace
                refine List.IsPrefix.trans ?_ (Tame.mono ?_ _)
                · simp
                · unfold confirm
                  repeat' first | apply Tame.bind | apply Tame.ite | apply Tame.lift | apply Tame.send | apply Tame.read | apply Tame.raise | apply Tame.pure | intro _
            refine ⟨c, _, .inr ⟨name, more, alg, k, hc, ha, rfl⟩, ?_, ?_⟩
            · simpa [hu, hv, sessionFrame] using grow cfg
            · simpa [hu, hv, sessionFrame] using grow cfg'
          · left
            unfold exchange
            rw [bind_error e2, bind_error e2]
        · left
          have c1 := challenge_cases cfg c v rfl
          have c2 := challenge_cases cfg' c v rfl
          generalize challenge cfg c v = x1 at *
          generalize challenge cfg' c v = x2 at *
          cases c1 with
          | free h => subst h; cases c2 <;> first | rfl | simp_all [Msg.tags]
          | open_error nonce e hc _ => simp [hc] at h1
          | open_answer nonce e hc _ => simp [hc] at h1
          | hmac name more alg hc ha => exact absurd ⟨name, more, alg, hc, ha⟩ h2
          | unsupported name more hc ha =>
            cases c2 <;> first | rfl | exact absurd ⟨_, _, _, ‹_›, ‹_›⟩ h2 | simp_all [Msg.tags]
          | other a b l hc hf ha =>
            cases c2 <;> first | rfl | contradiction | simp_all
          | empty hc =>
            cases c2 <;> first | rfl | simp_all [Msg.tags]

/-! ## C31: unsupported algorithms -/

/-- C31: any other announced algorithm is answered by a NACK and nothing else; `start()` raises `InvalidAuthentication`. -/
theorem C31_unsupported_algorithm (cfg : Config) (w : World) (c : Msg) (name : Str) (more : List Str)
    (rest : List InEv) (net : List (Option (List InEv)))
    (hn : w.network = some (.msg .ack :: .msg c :: rest) :: net) (hc : c.tags = cs!"98" :: name :: more)
    (h1 : name ≠ cs!"1") (h2 : name ≠ cs!"2") :
    start cfg w = (.error .invalidAuthentication, ⟨net, true, rest, w.trace ++
      [.connected, .got .ack, .sent (frame [cs!"99", cfg.session.value]), .got c, .sent (frame [cs!"#", cs!"0"])]⟩) := by
  have hs := start_cases cfg w
  generalize start cfg w = r at *
  cases hs with
  | unreachable h => exact absurd hn (h _ _)
  | mute _ _ h hq => rw [hn] at h; cases h; exact absurd rfl (hq _ _)
  | refused _ _ _ h hm => rw [hn] at h; cases h; exact absurd rfl hm
  | unanswered _ _ h hq => rw [hn] at h; cases h; exact absurd rfl (hq _ _)
  | answered c' r net' h =>
    rw [hn] at h
    cases h
    have hs := challenge_cases cfg c ⟨net, true, rest, w.trace ++ [.connected, .got .ack, .sent (sessionFrame cfg), .got c]⟩ rfl
    generalize challenge cfg c _ = r at *
    cases hs with
    | free h => subst h; simp [Msg.tags] at hc
    | open_error nonce e h => rw [hc] at h; simp at h
    | open_answer nonce e h => rw [hc] at h; simp at h
    | hmac name' more' alg h ha =>
      rw [hc] at h
      cases h
      cases alg
      · exact absurd ha h1
      · exact absurd ha h2
    | unsupported name' more' h ha => simp [sessionFrame]
    | other a b l h hf => rw [hc] at h; cases h; exact absurd rfl hf
    | empty h => rw [hc] at h; simp at h

/-- The frames of C31 do not depend on the password: the gateway's announcement is all the client reacts to. -/
theorem C31_independent_of_password (cfg : Config) (pw : Str) (w : World) (c : Msg) (name : Str) (more : List Str)
    (rest : List InEv) (net : List (Option (List InEv)))
    (hn : w.network = some (.msg .ack :: .msg c :: rest) :: net) (hc : c.tags = cs!"98" :: name :: more)
    (h1 : name ≠ cs!"1") (h2 : name ≠ cs!"2") : start { cfg with password := pw } w = start cfg w := by
  rw [C31_unsupported_algorithm cfg w c name more rest net hn hc h1 h2,
    C31_unsupported_algorithm _ w c name more rest net hn hc h1 h2]

/-! ## C32: a gateway that stops talking -/

/-- C32: the gateway says `l` and then nothing (for longer than the timeout, or for ever).  Either `start()` has its
outcome already, the same whatever would come later; or it raises `TimeoutError`, having written only what it would also
have written had the gateway gone on. -/
theorem C32_stops_talking (cfg : Config) (w : World) (l : List Msg) (q : List InEv) (net : List (Option (List InEv)))
    (hq : ∀ m r, q ≠ .msg m :: r) (hn : w.network = some (l.map .msg ++ q) :: net) :
    (∃ left, left <:+ l ∧ (start cfg w).2.inbox = left.map .msg ++ q ∧
      ∀ t, start cfg { w with network := some (l.map .msg ++ t) :: net } =
        ((start cfg w).1, { (start cfg w).2 with inbox := left.map .msg ++ t })) ∨
    ((start cfg w).1 = .error .timeoutError ∧
      ∀ t, (start cfg w).2.trace <+: (start cfg { w with network := some (l.map .msg ++ t) :: net }).2.trace) := by
  have run : ∀ i, start cfg { w with network := some i :: net } = handshake cfg ⟨net, true, i, w.trace ++ [.connected]⟩ :=
    fun i => rfl
  have e : start cfg w = handshake cfg ⟨net, true, l.map .msg ++ q, w.trace ++ [.connected]⟩ := by
    rw [← run, ← hn]
  rcases (tame_handshake cfg).cut ⟨net, true, l.map .msg ++ q, w.trace ++ [.connected]⟩ rfl l q hq rfl with
    ⟨done, left, h1, h2, h3⟩ | ⟨h1, h2, h3⟩
  · left
    rw [e]
    refine ⟨left, ⟨done, h1.symm⟩, h2, fun t => ?_⟩
    rw [run]
    exact h3 t
  · right
    rw [e]
    refine ⟨h1, fun t => ?_⟩
    rw [run]
    exact h3 t

/-- C32: a successful handshake cut anywhere before its last message ends in `TimeoutError`. -/
theorem C32_unfinished_handshake (cfg : Config) (w : World) (l more : List Msg) (acts : List CAct) (q : List InEv)
    (net : List (Option (List InEv))) (hq : ∀ m r, q ≠ .msg m :: r) (hmore : more ≠ [])
    (hh : Handshake cfg (l ++ more) acts) (hn : w.network = some (l.map .msg ++ q) :: net) :
    (start cfg w).1 = .error .timeoutError ∧ (start cfg w).2.trace <+: w.trace ++ .connected :: acts := by
  have full : start cfg { w with network := some (l.map .msg ++ more.map .msg) :: net } =
      (.ok (), ⟨net, true, [], w.trace ++ .connected :: acts⟩) := by
    rw [C29_start_iff]
    exact ⟨l ++ more, [], net, acts, by simp, hh, rfl⟩
  rcases C32_stops_talking cfg w l q net hq hn with ⟨left, _, _, h⟩ | ⟨h1, h2⟩
  · have h := h (more.map .msg)
    rw [full] at h
    have h := congrArg (fun p => p.2.inbox) h
    simp at h
    exact absurd h.2 hmore
  · refine ⟨h1, ?_⟩
    have h2 := h2 (more.map .msg)
    rw [full] at h2
    exact h2

/-- C32: when there is nothing to connect to, `start()` raises `TimeoutError` and nothing is written. -/
theorem C32_unreachable (cfg : Config) (w : World) (hn : ∀ inbox net, w.network ≠ some inbox :: net) :
    (start cfg w).1 = .error .timeoutError ∧ (start cfg w).2.trace = w.trace := by
  have hs := start_cases cfg w
  generalize start cfg w = r at *
  cases hs with
  | unreachable h => exact ⟨rfl, rfl⟩
  | mute _ _ h => exact absurd h (hn _ _)
  | refused _ _ _ h => exact absurd h (hn _ _)
  | unanswered _ _ h => exact absurd h (hn _ _)
  | answered _ _ _ h => exact absurd h (hn _ _)

/-! ## C33: sending and reading, after any history -/

namespace Spec

/-- The calls a user makes. -/
inductive Call where
  | start | close | read
  | send (m : Msg) (force : Bool)

/-- Whether the client has a connection after some calls, given what each connection attempt finds: the last of them that
is a `close` or a `start` that reached the gateway decides. -/
def live (up : Bool) : List (Option (List InEv)) → List Call → Bool
  | _, [] => up
  | some _ :: net, .start :: l => live true net l
  | none :: net, .start :: l => live up net l
  | [], .start :: l => live up [] l
  | net, .close :: l => live false net l
  | net, .read :: l => live up net l
  | net, .send _ _ :: l => live up net l

end Spec

/-- Making a call; an exception is caught by the user. -/
def Client.call (cfg : Config) (w : World) : Call → World
  | .start => (Client.start cfg w).2
  | .close => (Client.close w).2
  | .read => (Client.readMessage w).2
  | .send m force => (Client.sendMessage cfg m force w).2

theorem Client.start_started (cfg : Config) (w : World) :
    (∃ i net, w.network = some i :: net ∧ (start cfg w).2.started = true ∧ (start cfg w).2.network = net) ∨
    ((∀ i net, w.network ≠ some i :: net) ∧ start cfg w = (.error .timeoutError, { w with network := w.network.drop 1 })) := by
  rcases connect_run w with ⟨i, net, h, hc⟩ | ⟨h, hc⟩
  · left
    refine ⟨i, net, h, ?_⟩
    have hs := start_cases cfg w
    generalize start cfg w = r at *
    have key : ∀ c r t, (challenge cfg c ⟨net, true, r, t⟩).2.started = true ∧
        (challenge cfg c ⟨net, true, r, t⟩).2.network = net := by
      intro c r t
      refine ⟨(tame_challenge cfg c).keep _ rfl, ?_⟩
      have aw : ∀ w : World, (awaitAck w).2.network = w.network := by
        intro w
        unfold awaitAck
        rw [bind_apply]
        unfold readMessage
        split_ifs <;> try rfl
        rcases w.inbox with _ | ⟨_ | _, _⟩ <;> try rfl
        dsimp only
        split_ifs <;> rfl
      have rd : ∀ w : World, (readMessage w).2.network = w.network := by
        intro w
        unfold readMessage
        split_ifs <;> try rfl
        rcases w.inbox with _ | ⟨_ | _, _⟩ <;> rfl
      have sd : ∀ m (w : World), (sendMessage cfg m true w).2.network = w.network := by
        intro m w
        unfold sendMessage
        split_ifs <;> try rfl
        split <;> rfl
      have bd : ∀ {α β : Type} (f : M α) (g : α → M β), (∀ w, (f w).2.network = w.network) →
          (∀ a w, (g a w).2.network = w.network) → ∀ w, ((f >>= g) w).2.network = w.network := by
        intro α β f g hf hg w
        rw [bind_apply]
        have := hf w
        rcases h : f w with ⟨_ | a, w'⟩ <;> rw [h] at this
        · exact this
        · exact (hg a w').trans this
      have ex : ∀ alg (w : World), (exchange cfg alg w).2.network = w.network := by
        intro alg
        unfold exchange
        refine bd _ _ rd (fun resp => bd _ _ (fun _ => rfl) (fun ra w => ?_))
        unfold confirm
        exact bd _ _ rd (fun resp w => by
          split_ifs
          · rfl
          · exact bd _ _ (fun _ => rfl) (fun _ => bd _ _ (fun _ => rfl) (fun _ => bd _ _ (fun _ => rfl) (fun _ w => by
              split_ifs
              · rfl
              · exact sd _ w))) w) _
      have hs := challenge_cases cfg c ⟨net, true, r, t⟩ rfl
      generalize challenge cfg c ⟨net, true, r, t⟩ = x at *
      cases hs <;> first | rfl | exact aw _ | exact ex _ _
    cases hs with
    | unreachable h' => exact absurd h (h' _ _)
    | mute _ _ h' hq => rw [h] at h'; cases h'; exact ⟨rfl, rfl⟩
    | refused _ _ _ h' hm => rw [h] at h'; cases h'; exact ⟨rfl, rfl⟩
    | unanswered _ _ h' hq => rw [h] at h'; cases h'; exact ⟨rfl, rfl⟩
    | answered c r' net' h' => rw [h] at h'; cases h'; exact key _ _ _
  · right
    refine ⟨h, ?_⟩
    unfold start
    rw [bind_error hc]

/-- C33: after any history of calls the client is connected exactly when the specification says so. -/
theorem C33_connected_after_history (cfg : Config) (calls : List Call) (w : World) :
    (calls.foldl (Client.call cfg) w).started = live w.started w.network calls := by
  have rd : (readMessage w).2.network = w.network ∧ (readMessage w).2.started = w.started := by
    unfold readMessage
    split_ifs <;> try exact ⟨rfl, rfl⟩
    rcases w.inbox with _ | ⟨_ | _, _⟩ <;> exact ⟨rfl, rfl⟩
  have sd : ∀ m f, (sendMessage cfg m f w).2.network = w.network ∧ (sendMessage cfg m f w).2.started = w.started := by
    intro m f
    unfold sendMessage
    split_ifs <;> try exact ⟨rfl, rfl⟩
    split <;> exact ⟨rfl, rfl⟩
  match calls with
  | [] => simp [live]
  | .start :: l =>
    rw [List.foldl_cons, C33_connected_after_history cfg l]
    rcases start_started cfg w with ⟨i, net, h, h1, h2⟩ | ⟨h, h1⟩
    · simp only [Client.call, h1, h2, h, live]
    · simp only [Client.call, h1]
      rcases hn : w.network with _ | ⟨_ | i, net⟩
      · simp [live]
      · simp [live]
      · exact absurd hn (h _ _)
  | .close :: l =>
    rw [List.foldl_cons, C33_connected_after_history cfg l]
    have : ∀ net, live w.started net (.close :: l) = live false net l := by
      intro net
      rcases net with _ | ⟨_ | _, _⟩ <;> rfl
    rw [this]
    rfl
  | .read :: l =>
    rw [List.foldl_cons, C33_connected_after_history cfg l]
    have : ∀ net, live w.started net (.read :: l) = live w.started net l := by
      intro net
      rcases net with _ | ⟨_ | _, _⟩ <;> rfl
    rw [this]
    simp only [Client.call, rd.1, rd.2]
  | .send m f :: l =>
    rw [List.foldl_cons, C33_connected_after_history cfg l]
    have : ∀ net, live w.started net (.send m f :: l) = live w.started net l := by
      intro net
      rcases net with _ | ⟨_ | _, _⟩ <;> rfl
    rw [this]
    simp only [Client.call, (sd m f).1, (sd m f).2]

/-- C33: after any history, `send_message` of a message with legal tags writes its text exactly when the client is
connected and is a command session or `force` is given; otherwise it raises `InvalidSession` and changes nothing. -/
theorem C33_send (cfg : Config) (calls : List Call) (w : World) (m : Msg) (force : Bool)
    (hm : ∀ t ∈ m.tags, TagText t) :
    let v := calls.foldl (Client.call cfg) w
    sendMessage cfg m force v =
      if live w.started w.network calls = true ∧ (cfg.session ≠ .event ∨ force = true)
      then (.ok (), { v with trace := v.trace ++ [.sent m.str] })
      else (.error .invalidSession, v) := by
  intro v
  have hv : v.started = live w.started w.network calls := C33_connected_after_history cfg calls w
  obtain ⟨b, hb⟩ := bytes_ok hm
  rw [← hv]
  unfold sendMessage isCmdSession
  rw [hb]
  cases hs : cfg.session <;> cases force <;> cases hst : v.started <;> simp

/-- C33: reading without a connection raises `InvalidSession`; with one it never does, and takes the next message. -/
theorem C33_read (cfg : Config) (calls : List Call) (w : World) :
    let v := calls.foldl (Client.call cfg) w
    (live w.started w.network calls = false → readMessage v = (.error .invalidSession, v)) ∧
    (live w.started w.network calls = true →
      (∀ m rest, v.inbox = .msg m :: rest → readMessage v = (.ok m, { v with inbox := rest, trace := v.trace ++ [.got m] })) ∧
      ((∀ m rest, v.inbox ≠ .msg m :: rest) → (readMessage v).1 = .error .timeoutError ∧ (readMessage v).2.trace = v.trace)) := by
  intro v
  have hv : v.started = live w.started w.network calls := C33_connected_after_history cfg calls w
  rw [← hv]
  refine ⟨fun h => ?_, fun h => ⟨fun m rest hi => read_msg h hi, fun hi => ?_⟩⟩
  · unfold readMessage; simp [h]
  · rcases read_cases h with ⟨m, rest, h1, _⟩ | ⟨_, h2⟩
    · exact absurd h1 (hi m rest)
    · rw [h2]; exact ⟨rfl, rfl⟩

example : live false [none, some [], some []] [.start, .start, .send .ack false, .close, .read, .start] = true := rfl
example : live false [some []] [.start, .close, .start] = false := rfl

/-! ## C34: a failed `start()` -/

/-- C34 fails: whenever the connection was made, a failing `start()` leaves a command session on which every message can
still be sent. -/
theorem C34_failed_start_still_sends_refuted (cfg : Config) (w : World) (e : Err) (inbox : List InEv)
    (net : List (Option (List InEv))) (hn : w.network = some inbox :: net) (_he : (start cfg w).1 = .error e)
    (hs : cfg.session ≠ .event) (m : Msg) (hm : ∀ t ∈ m.tags, TagText t) :
    sendMessage cfg m false (start cfg w).2 =
      (.ok (), { (start cfg w).2 with trace := (start cfg w).2.trace ++ [.sent m.str] }) := by
  have := C33_send cfg [.start] w m false hm
  simp only [List.foldl_cons, List.foldl_nil, Client.call, hn, live] at this
  rw [this, if_pos ⟨trivial, .inl hs⟩]

/-- A gateway that refuses the password, and the command that is sent all the same. -/
theorem C34_failed_start_unusable_refuted :
    ¬ ∀ (cfg : Config) (w : World) (e : Err) (m : Msg), w.started = false → (start cfg w).1 = .error e →
        (sendMessage cfg m false (start cfg w).2).1 = .error .invalidSession := by
  intro h
  let lib : Lib := ⟨fun _ => [], fun _ => [], fun _ _ _ => [], fun _ => none⟩
  have := h ⟨cs!"12345", .command, lib, []⟩
    ⟨[some [.msg .ack, .msg (.generic [cs!"603356072"]), .msg .nack]], false, [], []⟩ .invalidAuthentication
    (.normal .lighting ⟨cs!"1"⟩ ⟨cs!"12"⟩) rfl (by decide +kernel)
  revert this
  decide +kernel

/-- C34, what does hold: no connection, an event session, or a `close()` after the failure. -/
theorem C34_failed_start_partial (cfg : Config) (w : World) (e : Err) (m : Msg) (_he : (start cfg w).1 = .error e)
    (hm : ∀ t ∈ m.tags, TagText t) :
    (w.started = false → (∀ inbox net, w.network ≠ some inbox :: net) →
      sendMessage cfg m false (start cfg w).2 = (.error .invalidSession, (start cfg w).2)) ∧
    (cfg.session = .event → sendMessage cfg m false (start cfg w).2 = (.error .invalidSession, (start cfg w).2)) ∧
    sendMessage cfg m false (close (start cfg w).2).2 = (.error .invalidSession, (close (start cfg w).2).2) := by
  refine ⟨fun h1 h2 => ?_, fun h => ?_, ?_⟩
  · have := C33_send cfg [.start] w m false hm
    simp only [List.foldl_cons, List.foldl_nil, Client.call] at this
    rw [this, if_neg]
    rintro ⟨hl, _⟩
    rcases hn : w.network with _ | ⟨_ | i, net⟩
    · simp [live, hn, h1] at hl
    · simp [live, hn, h1] at hl
    · exact absurd hn (h2 _ _)
  · have := C33_send cfg [.start] w m false hm
    simp only [List.foldl_cons, List.foldl_nil, Client.call] at this
    rw [this, if_neg (by simp [h])]
  · have := C33_send cfg [.start, .close] w m false hm
    simp only [List.foldl_cons, List.foldl_nil, Client.call] at this
    rw [this, if_neg]
    rintro ⟨hl, _⟩
    rcases hn : w.network with _ | ⟨_ | i, net⟩ <;> simp [live, hn] at hl

/-! ## C28: HMAC with a gateway that follows the protocol -/

namespace Spec

/-- A gateway that follows `docs/original/hmac.md`: it announces the algorithm, sends its key `Ra` as `*#Ra##` and, after the
client's proof, a confirmation `*#HMAC##` in the documented transcription.  `proof` is the confirmation's value. -/
structure Conforming (alg : Alg) (proof : Bytes) (c k r : Msg) : Prop where
  announces : ∃ name, Announces name alg ∧ c = .generic [cs!"98", name]
  key : ∃ ra, k = .generic ['#' :: ra]
  confirms : r = .generic ['#' :: Hex.transcription (nibblesOf proof)]

end Spec

theorem Client.hash_rejected (lib : Lib) (tag : Str) (digest : Bytes) (h : '#' ∈ tag) : ¬ Accepts lib tag digest := by
  rintro ⟨d, hd, _⟩
  rw [C26_not_hex lib tag '#' h] at hd
  · cases hd
  · rintro ⟨v, hv⟩
    have := digit_lt hv
    unfold Hex.Digit Hex.lowerDigits Hex.upperDigits at hv
    interval_cases v <;> simp at hv
  · intro h; simp at h

theorem Client.digits_text {tag : Str} (h : ∀ c ∈ tag, '0' ≤ c ∧ c ≤ '9') : Hex.Text tag (tag.map digit) := by
  induction tag with
  | nil => exact .nil
  | cons c tag ih =>
    refine .cons (.inl ?_) (ih (fun c hc => h c (by simp [hc])))
    obtain ⟨h1, h2⟩ := h c (by simp)
    have e : c = Char.ofNat c.toNat := (Char.ofNat_toNat c).symm
    have h1 : 48 ≤ c.toNat := h1
    have h2 : c.toNat ≤ 57 := h2
    rw [e]
    generalize c.toNat = n at *
    interval_cases n <;> rfl

theorem Client.digit_le {c : Char} (h : '0' ≤ c ∧ c ≤ '9') : digit c < 10 := by
  have h1 : 48 ≤ c.toNat := h.1
  have h2 : c.toNat ≤ 57 := h.2
  have e : c = Char.ofNat c.toNat := (Char.ofNat_toNat c).symm
  rw [e]
  generalize c.toNat = n at *
  interval_cases n <;> decide

theorem Client.fromHex_small {vs : List Nat} (h : ∀ v ∈ vs, v < 10) :
    fromHex (Hex.transcription vs) = .ok (vs.map UInt8.ofNat) := by
  induction vs with
  | nil => rfl
  | cons v vs ih =>
    have hv := h v (by simp)
    have ih := ih (fun v hv => h v (by simp [hv]))
    rw [transcription_cons]
    interval_cases v <;>
    · change (fromHex (Hex.transcription vs)).map _ = _
      rw [ih]; rfl

/-- What `start()` takes for a confirmation, among the tags that can arrive: a text of decimal digits whose *digits* are
the bytes of the digest. -/
theorem C28_accepted_partial (lib : Lib) (tag : Str) (digest : Bytes) (h : TagText tag) :
    Accepts lib tag digest ↔ (∀ c ∈ tag, '0' ≤ c ∧ c ≤ '9') ∧ digest = tag.map (fun c => UInt8.ofNat (digit c)) := by
  by_cases hh : '#' ∈ tag
  · constructor
    · intro ha; exact absurd ha (hash_rejected lib tag digest hh)
    · rintro ⟨hd, _⟩; exact absurd (hd _ hh) (by decide)
  · have hd : ∀ c ∈ tag, '0' ≤ c ∧ c ≤ '9' := by
      intro c hc
      have h' := h c hc
      simp only [TagChar, List.mem_cons, List.not_mem_nil, or_false] at h'
      rcases h' with rfl | rfl | rfl | rfl | rfl | rfl | rfl | rfl | rfl | rfl | rfl <;>
        first | exact absurd hc hh | decide
    have e1 := hexToDigits_text lib (digits_text hd)
    have e2 : fromHex (Hex.transcription (tag.map digit)) = .ok ((tag.map digit).map UInt8.ofNat) := by
      apply fromHex_small
      intro v hv
      obtain ⟨c, hc, rfl⟩ := List.mem_map.1 hv
      exact digit_le (hd c hc)
    constructor
    · rintro ⟨d, h1, h2⟩
      rw [e1] at h1; cases h1
      rw [e2] at h2; cases h2
      exact ⟨hd, by simp⟩
    · rintro ⟨_, rfl⟩
      exact ⟨_, e1, by rw [e2]; simp⟩

/-- C28 fails for every gateway that follows the protocol, whatever password, keys, hash functions, and whatever its
confirmation is computed from: `start()` raises. -/
theorem C28_conforming_gateway_refuted (cfg : Config) (w : World) (alg : Alg) (proof : Bytes) (c k r : Msg)
    (hc : Conforming alg proof c k r) (rest : List InEv) (net : List (Option (List InEv)))
    (hn : w.network = some ([.msg .ack, .msg c, .msg k, .msg r] ++ rest) :: net) :
    ∃ e, (start cfg w).1 = .error e := by
  cases hr : start cfg w with
  | mk res w' =>
    cases res with
    | error e => exact ⟨e, rfl⟩
    | ok u =>
      exfalso
      obtain ⟨said, rest', net', acts, h1, h2, -⟩ := (C29_start_iff cfg w w').1 hr
      rw [hn] at h1
      obtain ⟨⟨name, -, rfl⟩, -, rfl⟩ := hc
      cases h2 with
      | free => simp at h1
      | «open» c' nonce enc hc' _ =>
        simp at h1
        obtain ⟨⟨rfl, _⟩, _⟩ := h1
        simp [Msg.tags] at hc'
      | hmac c' k' r' name more alg' ra tag _ _ _ _ ht hacc =>
        simp at h1
        obtain ⟨⟨_, _, rfl, _⟩, _⟩ := h1
        simp [Msg.tags] at ht
        subst ht
        exact hash_rejected _ _ _ (by simp) hacc

/-- The same without the `#` in front of the confirmation, in the documented transcription of the value the client itself
expects: it is rejected too, because the text has four digits per byte and only one is expected. -/
theorem C28_bare_confirmation_refuted (cfg : Config) (w : World) (alg : Alg) (c k r : Msg) (ra : Str) (name : Str)
    (more : List Str) (hc : c.tags = cs!"98" :: name :: more) (ha : Announces name alg) (hk : k.tags.head? = some ra)
    (hr : r.tags = [Hex.transcription (nibblesOf (serverProof cfg alg ra))])
    (hlen : serverProof cfg alg ra ≠ []) (rest : List InEv) (net : List (Option (List InEv)))
    (hn : w.network = some ([.msg .ack, .msg c, .msg k, .msg r] ++ rest) :: net) :
    ∃ e, (start cfg w).1 = .error e := by
  cases hr' : start cfg w with
  | mk res w' =>
    cases res with
    | error e => exact ⟨e, rfl⟩
    | ok u =>
      exfalso
      obtain ⟨said, rest', net', acts, h1, h2, -⟩ := (C29_start_iff cfg w w').1 hr'
      rw [hn] at h1
      cases h2 with
      | free =>
        simp at h1
        obtain ⟨⟨rfl, _⟩, _⟩ := h1
        simp [Msg.tags] at hc
      | «open» c' nonce enc hc' _ =>
        simp at h1
        obtain ⟨⟨rfl, _⟩, _⟩ := h1
        rw [hc] at hc'
        simp at hc'
      | hmac c' k' r' name' more' alg' ra' tag hc' ha' hk' _ ht hacc =>
        simp at h1
        obtain ⟨⟨rfl, rfl, rfl, _⟩, _⟩ := h1
        rw [hk] at hk'; cases hk'
        rw [hc] at hc'; cases hc'
        have : alg' = alg := by
          cases alg <;> cases alg' <;> simp_all [Announces]
        subst this
        rw [hr] at ht
        cases ht
        have lt := text_lt (hexText_text (serverProof cfg alg' ra))
        have := ((C28_accepted_partial cfg.lib _ _ (transcription_tagText _)).1 hacc).2
        have := congrArg List.length this
        rw [List.length_map, transcription_length lt] at this
        have e : ∀ b : Bytes, (nibblesOf b).length = 2 * b.length := by
          intro b
          induction b with
          | nil => rfl
          | cons x b ih => simp [nibblesOf] at ih ⊢; omega
        rw [e] at this
        have : (serverProof cfg alg' ra).length = 0 := by omega
        exact hlen (List.length_eq_zero_iff.1 this)
