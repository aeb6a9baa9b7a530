import Verif.Props.Failure

/-!
# The messages made by `to_message` (C109)
-/

open Py Spec HmacAuth Client M

/-- C109: the message of a session type is the documented frame, it is read back as the same message, and its second tag
tells the session type. -/
theorem C109_session (s : Session) :
    ∃ m, s.toMessage = .ok m ∧ m.str = frame [cs!"99", s.value] ∧ parseMessage m.str = .ok m ∧
      m.tags = [cs!"99", s.value] ∧ ∀ s' : Session, s'.value = s.value → s' = s := by
  refine ⟨.generic [cs!"99", s.value], ?_, ?_, ?_, rfl, ?_⟩ <;> cases s
  all_goals first | decide +kernel | (intro s' h; cases s' <;> first | rfl | cases h)

/-- C109: the message of an algorithm is the documented frame, it is read back as the same message, and `from_string` of
its second tag is the algorithm. -/
theorem C109_algorithm (a : Alg) :
    ∃ m name, a.toMessage = .ok m ∧ Announces name a ∧ m.str = frame [cs!"98", name] ∧ parseMessage m.str = .ok m ∧
      m.tags = [cs!"98", name] ∧ Alg.fromString name = .ok a := by
  cases a
  · exact ⟨.generic [cs!"98", cs!"1"], cs!"1", by decide +kernel, rfl, by decide +kernel⟩
  · exact ⟨.generic [cs!"98", cs!"2"], cs!"2", by decide +kernel, rfl, by decide +kernel⟩

/-- C109: a gateway that greets, announces an algorithm with its message and sends a key is answered by an ACK and then by
the key and the proof for that algorithm, whatever happens afterwards. -/
theorem C109_handshake (cfg : Config) (w : World) (a : Alg) (c k : Msg) (ra : Str) (rest : List InEv)
    (net : List (Option (List InEv))) (ha : a.toMessage = .ok c) (hk : k.tags.head? = some ra)
    (hn : w.network = some (.msg .ack :: .msg c :: .msg k :: rest) :: net) :
    w.trace ++ [.connected, .got .ack, .sent (frame [cs!"99", cfg.session.value]), .got c,
      .sent (frame [cs!"#", cs!"1"]), .got k, .sent (proofFrame cfg a ra)] <+: (start cfg w).2.trace := by
  obtain ⟨m, name, h1, h2, -, -, h3, -⟩ := C109_algorithm a
  rw [ha] at h1
  cases h1
  have hs := start_cases cfg w
  generalize start cfg w = r at *
  cases hs with
  | unreachable h => exact absurd hn (h _ _)
  | mute _ _ h hq => rw [hn] at h; cases h; exact absurd rfl (hq _ _)
  | refused _ _ _ h hm => rw [hn] at h; cases h; exact absurd rfl hm
  | unanswered _ _ h hq => rw [hn] at h; cases h; exact absurd rfl (hq _ _)
  | answered c' r net' h =>
    rw [hn] at h
    cases h
    have hs := challenge_cases cfg c ⟨net, true, .msg k :: rest, w.trace ++ [.connected, .got .ack, .sent (sessionFrame cfg), .got c]⟩ rfl
    generalize challenge cfg c _ = r at *
    cases hs with
    | free h => subst h; simp [Msg.tags] at h3
    | open_error nonce e h => rw [h3] at h; simp at h
    | open_answer nonce e h => rw [h3] at h; simp at h
    | unsupported name' more' h hx => rw [h3] at h; cases h; exact absurd h2 (hx a)
    | other x b l h hf => rw [h3] at h; cases h; exact absurd rfl hf
    | empty h => rw [h3] at h; simp at h
    | hmac name' more' alg h ha' =>
      rw [h3] at h
      cases h
      have : alg = a := by
        have e1 := (fromString_iff _ _).2 ha'
        rw [(fromString_iff _ _).2 h2] at e1
        cases e1; rfl
      subst this
      set u : World := ⟨net, true, .msg k :: rest, w.trace ++ [.connected, .got .ack, .sent (sessionFrame cfg), .got c] ++ [.sent (frame [cs!"#", cs!"1"])]⟩ with hu
      change _ <+: (exchange cfg alg u).2.trace
      unfold exchange
      have e2 : readMessage u = (.ok k, { u with inbox := rest, trace := u.trace ++ [.got k] }) := rfl
      rw [bind_ok e2, index_zero.2 hk]
      change _ <+: (confirm cfg _ _).2.trace
      refine List.IsPrefix.trans ?_ (Tame.mono ?_ _)
      · simp [hu, sessionFrame]
      · unfold confirm
        repeat' first | apply Tame.bind | apply Tame.ite | apply Tame.lift | apply Tame.send | apply Tame.read | apply Tame.raise | apply Tame.pure | intro _

/-- Non-vacuity: both algorithms, with a key of one digit. -/
example : (Alg.sha1.toMessage = .ok (.generic [cs!"98", cs!"1"]) ∧ Alg.sha256.toMessage = .ok (.generic [cs!"98", cs!"2"])) ∧
    (Msg.generic [cs!"7"]).tags.head? = some cs!"7" := by decide +kernel
