import Verif.Spec.Retry
import Verif.Proofs.Retry
import Verif.Props.Programs

/-!
# C141: commands that are tried again

The full claim, for a program that tries a command again after a timeout, up to `n` times: it writes the frame at most `n + 1`
times and nothing else; it succeeds only if the gateway acknowledged the command; and the command after it reports the gateway's
answer to that one.
-/

open Py Spec Spec.Retry M Client Retry

/-- C141: on one connection.  The attempts that are not answered in time write the frame and take nothing; the first that is
answered, or the last, ends the program as the answer says. -/
theorem C141_attempts (cfg : Config) (cmd : M Unit) (f : Str) (hs : Sends cfg cmd f) (n k : Nat) (hk : k ≤ n) (w : World)
    (hw : Ready cfg w) (tail : List InEv) (hi : w.inbox = List.replicate k .silence ++ tail) (r : Except Err Unit)
    (rest : List InEv) (acts : List CAct) (ha : Answer tail r rest acts) (hr : r ≠ .error .timeoutError ∨ k = n) :
    plainly cmd n w = (r, w.after rest (List.replicate (k + 1) (.sent f) ++ acts)) := by
  unfold plainly
  induction k generalizing n w with
  | zero =>
    have : w.inbox = tail := hi
    subst this
    rw [retry_end hs _ n hw ha (hr.imp id Eq.symm)]
    rfl
  | succ k ih =>
    obtain ⟨n, rfl⟩ : ∃ m, n = m + 1 := ⟨n - 1, by omega⟩
    rw [retry_step hs _ n hw (rest := List.replicate k .silence ++ tail)
      (by rw [hi, List.replicate_succ]; exact .silent _)]
    have h := ih n (by omega) (w.after (List.replicate k .silence ++ tail) [.sent f]) ⟨hw.1, hw.2⟩ rfl
      (hr.imp id (by omega))
    refine Eq.trans (b := attempts (return ()) cmd n _) rfl (h.trans ?_)
    simp [World.after, List.replicate_succ]

/-- C141: whatever arrives, the frame is written at least once and at most `n + 1` times, and nothing else is; at most one
message is taken, the next that arrives.  It succeeds exactly if that is an ACK, and raises `TimeoutError` only after `n + 1`
attempts. -/
theorem C141_bounded (cfg : Config) (cmd : M Unit) (f : Str) (hs : Sends cfg cmd f) (n : Nat) (w : World) (hw : Ready cfg w) :
    ∃ k ≤ n, ∃ r rest acts, plainly cmd n w = (r, w.after rest (List.replicate (k + 1) (.sent f) ++ acts)) ∧
      ((∃ m, acts = [.got m] ∧ messages w.inbox = m :: messages rest ∧ r = verdict m) ∨
        (acts = [] ∧ messages w.inbox = messages rest ∧ r = .error .timeoutError ∧ k = n)) := by
  unfold plainly
  induction n generalizing w with
  | zero =>
    obtain ⟨r, rest, acts, ha, _⟩ := C35_answer_total w.inbox
    refine ⟨0, le_refl _, r, rest, acts, retry_end hs _ 0 hw ha (.inr rfl), ?_⟩
    generalize w.inbox = i at ha
    cases ha with
    | acknowledged => exact .inl ⟨_, rfl, rfl, rfl⟩
    | refused m _ hm _ => exact .inl ⟨m, rfl, rfl, by simp [verdict, hm]⟩
    | silent => exact .inr ⟨rfl, rfl, rfl, rfl⟩
    | nothing => exact .inr ⟨rfl, rfl, rfl, rfl⟩
  | succ n ih =>
    obtain ⟨r, rest, acts, ha, _⟩ := C35_answer_total w.inbox
    have late : r = .error .timeoutError → acts = [] → messages w.inbox = messages rest →
        ∃ k ≤ n + 1, ∃ r rest acts,
          attempts (return ()) cmd (n + 1) w = (r, w.after rest (List.replicate (k + 1) (.sent f) ++ acts)) ∧
          ((∃ m, acts = [.got m] ∧ messages w.inbox = m :: messages rest ∧ r = verdict m) ∨
            (acts = [] ∧ messages w.inbox = messages rest ∧ r = .error .timeoutError ∧ k = n + 1)) := fun h1 h2 h3 => by
      subst h1 h2
      obtain ⟨k, hk, r', rest', acts', e1, e2⟩ := ih (w.after rest [.sent f]) ⟨hw.1, hw.2⟩
      refine ⟨k + 1, by omega, r', rest', acts', ?_, ?_⟩
      · rw [retry_step hs _ n hw ha]
        refine Eq.trans (b := attempts (return ()) cmd n _) rfl (e1.trans ?_)
        simp [World.after, List.replicate_succ]
      · rw [h3]
        rcases e2 with ⟨m, h4, h5, h6⟩ | ⟨h4, h5, h6, h7⟩
        · exact .inl ⟨m, h4, h5, h6⟩
        · exact .inr ⟨h4, h5, h6, by rw [h7]⟩
    have done : r ≠ .error .timeoutError → attempts (return ()) cmd (n + 1) w = _ := fun h => retry_end hs _ _ hw ha (.inl h)
    generalize hi : w.inbox = i at ha
    cases ha with
    | acknowledged => exact ⟨0, by omega, _, _, _, done (by simp), .inl ⟨_, rfl, rfl, rfl⟩⟩
    | refused m _ hm _ => exact ⟨0, by omega, _, _, _, done (by simp), .inl ⟨m, rfl, rfl, by simp [verdict, hm]⟩⟩
    | silent => rw [hi] at late; exact late rfl rfl rfl
    | nothing => rw [hi] at late; exact late rfl rfl rfl

/-- The full claim about the command that follows: `retried` is a program that tries the first command again, and the gateway
answers every frame of it once, in order, and then the frame of the next command. -/
def C141_full (cfg : Config) (retried : M Unit → M Unit) : Prop :=
  ∀ (cmd next : M Unit) (f g : Str), Sends cfg cmd f → Sends cfg next g → ∀ (w : World), Ready cfg w →
    ∀ (answers : List Msg) (b : Msg) (more : List Msg), messages w.inbox = answers ++ b :: more →
      answers.length = times f (retried cmd w).2.trace - times f w.trace → (retried cmd w).1 = .ok () →
      (next (retried cmd w).2).1 = .error .timeoutError ∨ (next (retried cmd w).2).1 = verdict b

/-- C141 is false on one connection: the ACK for the first attempt comes after the second was made; the ACK for the second is
then taken for the answer to the next command, which the gateway refuses. -/
theorem C141_late_answer_refuted (cfg : Config) (hc : cfg.session ≠ .event) (n : Nat) :
    ¬ C141_full cfg (fun cmd => plainly cmd (n + 1)) := by
  intro h
  have hs := sends_normal cfg (i := ⟨.lighting, ⟨cs!"11"⟩⟩) (what := cs!"1") (by decide +kernel) (by decide +kernel)
  have hn := sends_normal cfg (i := ⟨.lighting, ⟨cs!"12"⟩⟩) (what := cs!"1") (by decide +kernel) (by decide +kernel)
  have hw : Ready cfg ⟨[], true, [.silence, .msg .ack, .msg .ack, .msg .nack], []⟩ := ⟨rfl, hc⟩
  have h1 := C141_attempts cfg _ _ hs (n + 1) 1 (by omega) _ hw [.msg .ack, .msg .ack, .msg .nack] rfl _ _ _
    (.acknowledged _) (.inl (by simp))
  have h2 := h _ _ _ _ hs hn _ hw [.ack, .ack] .nack [] rfl
  beta_reduce at h2
  rw [h1] at h2
  have h3 := (hn (World.after ⟨[], true, [.silence, .msg .ack, .msg .ack, .msg .nack], []⟩ [.msg .ack, .msg .nack]
    (List.replicate (1 + 1) (.sent (frame [Who.lighting.code, cs!"1", cs!"11"])) ++ [.got .ack]))).1 ⟨rfl, hc⟩ _ _ _ (.acknowledged _)
  rw [h3] at h2
  have h4 := h2 (by decide +kernel) rfl
  simp [verdict] at h4

/-- C141, what holds: if no attempt is given up, the next command reports the answer to it. -/
theorem C141_first_partial (cfg : Config) (cmd next : M Unit) (f g : Str) (hs : Sends cfg cmd f) (hn : Sends cfg next g) (n : Nat)
    (w : World) (hw : Ready cfg w) (a b : Msg) (rest : List InEv) (hi : w.inbox = .msg a :: .msg b :: rest) :
    (plainly cmd n w).1 = verdict a ∧ (next (plainly cmd n w).2).1 = verdict b ∧
    (plainly cmd n w).2 = w.after (.msg b :: rest) [.sent f, .got a] := by
  have answer : ∀ (x : Msg) (l : List InEv), Answer (.msg x :: l) (verdict x) l [.got x] := fun x l => by
    unfold verdict
    split
    · rename_i h; subst h; exact .acknowledged _
    · rename_i h; exact .refused _ _ h (by simp)
  have h1 := C141_attempts cfg cmd f hs n 0 (by omega) w hw _ hi _ _ _ (answer a _)
    (.inl (by unfold verdict; split <;> simp))
  rw [h1]
  refine ⟨rfl, ?_, rfl⟩
  exact congrArg Prod.fst ((hn (w.after (.msg b :: rest) (List.replicate (0 + 1) (.sent f) ++ [.got a]))).1 ⟨hw.1, hw.2⟩ _ _ _ (answer b rest))

/-- C141, what holds: with a new connection for every further attempt.  However many connections are slow, and whatever comes
on them too late, the attempt that is answered ends the program with its own answer, and leaves the connection to the next
command, which reports its own. -/
theorem C141_anew_partial (cfg : Config) (cmd : M Unit) (f : Str) (hs : Sends cfg cmd f) (n : Nat) (slow : List (Slow cfg))
    (hl : slow.length < n) (w : World) (hw : Ready cfg w) (late : List InEv) (hi : w.inbox = .silence :: late)
    (said : List Msg) (acts : List CAct) (hh : Handshake cfg said acts) (tail : List InEv) (net : List (Option (List InEv)))
    (hnet : w.network = slow.map Slow.arrives ++ some (said.map .msg ++ tail) :: net) (r : Except Err Unit) (rest : List InEv)
    (last : List CAct) (ha : Answer tail r rest last) (hr : r ≠ .error .timeoutError ∨ slow.length + 1 = n) :
    anew cfg cmd n w = (r, ⟨net, true, rest, w.trace ++ .sent f :: (slow.flatMap (Slow.does f) ++
      .connected :: (acts ++ .sent f :: last))⟩) := by
  unfold anew
  obtain ⟨n, rfl⟩ : ∃ m, n = m + 1 := ⟨n - 1, by omega⟩
  induction slow generalizing n w late with
  | nil =>
    rw [retry_step hs _ n hw (by rw [hi]; exact .silent _)]
    have h1 := start_opens (cfg := cfg) (w := w.after late [.sent f]) ⟨said, hnet, hh⟩
    rw [bind_ok h1, retry_end hs _ n (by exact ⟨rfl, hw.2⟩) (by exact ha) (hr.imp id (by simp))]
    simp [World.after, conversed]
  | cons s slow ih =>
    obtain ⟨n, rfl⟩ : ∃ m, n = m + 1 := ⟨n - 1, by simp at hl; omega⟩
    rw [retry_step hs _ (n + 1) hw (by rw [hi]; exact .silent _)]
    have h1 := start_opens (cfg := cfg) (w := w.after late [.sent f])
      (tail := .silence :: s.late) (net := slow.map Slow.arrives ++ some (said.map InEv.msg ++ tail) :: net)
      ⟨s.said, hnet, s.login⟩
    rw [bind_ok h1, ih (late := s.late) (w := _) (hw := ⟨rfl, hw.2⟩) (hi := rfl) (hnet := rfl) (n := n)
      (hl := by simp at hl; omega) (hr := hr.imp id (by simp))]
    simp [World.after, conversed, Slow.does]

/-- C141: and the command after it reports its own answer. -/
theorem C141_next_partial (cfg : Config) (cmd next : M Unit) (f g : Str) (hs : Sends cfg cmd f) (hn : Sends cfg next g) (n : Nat)
    (slow : List (Slow cfg)) (hl : slow.length < n) (w : World) (hw : Ready cfg w) (late : List InEv)
    (hi : w.inbox = .silence :: late) (said : List Msg) (acts : List CAct) (hh : Handshake cfg said acts) (a b : Msg)
    (rest : List InEv) (net : List (Option (List InEv)))
    (hnet : w.network = slow.map Slow.arrives ++ some (said.map .msg ++ .msg a :: .msg b :: rest) :: net) :
    (anew cfg cmd n w).1 = verdict a ∧ (next (anew cfg cmd n w).2).1 = verdict b := by
  have answer : ∀ (x : Msg) (l : List InEv), Answer (.msg x :: l) (verdict x) l [.got x] := fun x l => by
    unfold verdict
    split
    · rename_i h; subst h; exact .acknowledged _
    · rename_i h; exact .refused _ _ h (by simp)
  have h1 := C141_anew_partial cfg cmd f hs n slow hl w hw late hi said acts hh _ net hnet _ _ _ (answer a _)
    (.inl (by unfold verdict; split <;> simp))
  rw [h1]
  refine ⟨rfl, ?_⟩
  exact congrArg Prod.fst ((hn ⟨net, true, .msg b :: rest, w.trace ++ .sent f :: (slow.flatMap (Slow.does f) ++
    .connected :: (acts ++ .sent f :: [.got a]))⟩).1 ⟨rfl, hw.2⟩ _ _ _ (answer b rest))

/-- The first attempt is not answered in time, the second is: two frames, one answer. -/
example (cfg : Config) (hc : cfg.session = .command) :
    plainly (Cmd.lightTurnOn.run cfg ⟨.lighting, ⟨cs!"11"⟩⟩) 3 ⟨[], true, [.silence, .msg .ack], []⟩ =
      (.ok (), ⟨[], true, [], [.sent cs!"*1*1*11##", .sent cs!"*1*1*11##", .got .ack]⟩) :=
  C141_attempts cfg _ _ (sends_normal cfg (by decide +kernel) (by decide +kernel)) 3 1 (by omega) _ ⟨rfl, by simp [hc]⟩ _ rfl _ _
    _ (.acknowledged []) (.inl (by simp))

/-- Two connections are slow, and the ACK of the second comes too late; on the third the gateway refuses the command, and
acknowledges the next. -/
example (cfg : Config) (hc : cfg.session = .command) (said : List Msg) (acts : List CAct) (hh : Handshake cfg said acts) :
    (anew cfg (Cmd.lightTurnOn.run cfg ⟨.lighting, ⟨cs!"11"⟩⟩) 2
      ⟨[some (said.map .msg ++ [.silence, .msg .ack]), some (said.map .msg ++ [.msg .nack, .msg .ack])], true, [.silence], []⟩).1 =
      .error .responseError ∧
    (Cmd.lightTurnOn.run cfg ⟨.lighting, ⟨cs!"12"⟩⟩ (anew cfg (Cmd.lightTurnOn.run cfg ⟨.lighting, ⟨cs!"11"⟩⟩) 2
      ⟨[some (said.map .msg ++ [.silence, .msg .ack]), some (said.map .msg ++ [.msg .nack, .msg .ack])], true, [.silence],
        []⟩).2).1 = .ok () :=
  C141_next_partial cfg _ _ _ _ (sends_normal cfg (by decide +kernel) (by decide +kernel))
    (sends_normal cfg (by decide +kernel) (by decide +kernel)) 2 [⟨said, acts, [.msg .ack], hh⟩] (by simp) _ ⟨rfl, by simp [hc]⟩
    [] rfl said acts hh .nack .ack [] [] rfl
