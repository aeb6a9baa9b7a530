import Verif.Spec.Logs
import Verif.Proofs.Client

/-! # The logging coroutines against the silent ones -/

open Py HmacAuth Spec

namespace Logs
open L
variable {α β : Type}

/-- `x` does what `y` does. -/
def Sim (x : L α) (y : M α) : Prop := ∀ w, (x w).1 = y w

theorem Sim.quiet (y : M α) : Sim (quiet y) y := fun _ => rfl
theorem Sim.pure (a : α) : Sim (Pure.pure a : L α) (Pure.pure a) := fun _ => rfl

theorem bind_apply (x : L α) (f : α → L β) (w : World) :
    (x >>= f) w = match x w with
      | ((.ok a, w'), l) => ((f a w').1, l ++ (f a w').2)
      | ((.error e, w'), l) => ((.error e, w'), l) := rfl

theorem Sim.bind {x : L α} {y : M α} {f : α → L β} {g : α → M β} (h : Sim x y) (hf : ∀ a, Sim (f a) (g a)) :
    Sim (x >>= f) (y >>= g) := by
  intro w
  rw [bind_apply, M.bind_apply, ← h w]
  rcases x w with ⟨⟨a | a, w'⟩, l⟩
  · rfl
  · exact hf a w'

/-- A log call before changes nothing. -/
theorem Sim.log {r : Record} {f : Unit → L β} {g : M β} (h : Sim (f ()) g) : Sim (L.log r >>= f) g := fun w => h w

/-- A log call after changes nothing. -/
theorem Sim.log_after {x : L Unit} {r : Record} {y : M Unit} (h : Sim x y) : Sim (x >>= fun _ => L.log r) y := by
  intro w
  rw [bind_apply, ← h w]
  rcases x w with ⟨⟨a | a, w'⟩, l⟩ <;> rfl

theorem sim_connect : Sim connect Client.connect := by
  intro w
  unfold connect
  rw [bind_apply]
  unfold quiet
  rcases Client.connect w with ⟨a | a, w'⟩ <;> rfl

theorem sim_send (cfg : Config) (m : Msg) (f : Bool) : Sim (sendMessage cfg m f) (Client.sendMessage cfg m f) :=
  Sim.log_after (Sim.quiet _)

theorem sim_read : Sim readMessage Client.readMessage := by
  intro w
  unfold readMessage
  rw [bind_apply]
  unfold quiet
  rcases Client.readMessage w with ⟨a | a, w'⟩ <;> rfl

theorem Sim.ite {c : Prop} [Decidable c] {x x' : L α} {y y' : M α} (h : Sim x y) (h' : Sim x' y') :
    Sim (if c then x else x') (if c then y else y') := by
  split_ifs <;> assumption

theorem sim_open (cfg : Config) (nonce : Str) : Sim (authenticateOpen cfg nonce) (Client.authenticateOpen cfg nonce) :=
  Sim.bind (Sim.quiet _) fun _ => Sim.bind (sim_send _ _ _) fun _ => Sim.bind sim_read fun _ =>
    Sim.ite (Sim.quiet _) (Sim.pure _)

theorem sim_hmacWith (cfg : Config) (alg : Alg) : Sim (authenticateHmacWith cfg alg) (Client.authenticateHmacWith cfg alg) :=
  Sim.bind (sim_send _ _ _) fun _ => Sim.bind sim_read fun _ => Sim.bind (Sim.quiet _) fun _ => Sim.bind (Sim.quiet _) fun _ =>
  Sim.bind (Sim.quiet _) fun _ => Sim.bind (Sim.quiet _) fun _ => Sim.bind (Sim.quiet _) fun _ => Sim.bind (Sim.quiet _) fun _ =>
  Sim.bind (sim_send _ _ _) fun _ => Sim.bind sim_read fun _ => Sim.ite (Sim.quiet _)
    (Sim.bind (Sim.quiet _) fun _ => Sim.bind (Sim.quiet _) fun _ => Sim.bind (Sim.quiet _) fun _ =>
      Sim.ite (Sim.quiet _) (sim_send _ _ _))

theorem sim_hmac (cfg : Config) (tag : Str) : Sim (authenticateHmac cfg tag) (Client.authenticateHmac cfg tag) := by
  unfold authenticateHmac Client.authenticateHmac
  cases Alg.fromString tag
  · exact Sim.bind (sim_send _ _ _) fun _ => Sim.quiet _
  · exact sim_hmacWith _ _

/-- What the client does with the answer to the session request, without the log calls. -/
def choose (cfg : Config) (resp : Msg) : M Unit :=
  if resp.type = .ack then return ()
  else if resp.tags.length = 1 then do
    Client.authenticateOpen cfg (← M.lift (index resp.tags 0))
  else do
    let first ← M.lift (index resp.tags 0)
    if first = cs!"98" then do
      Client.authenticateHmac cfg (← M.lift (index resp.tags 1))
    else M.raise .invalidAuthentication

theorem sim_authenticate (cfg : Config) (resp : Msg) : Sim (authenticate cfg resp) (choose cfg resp) :=
  Sim.ite (fun _ => rfl) (Sim.ite (Sim.log (Sim.bind (Sim.quiet _) fun _ => sim_open _ _))
    (Sim.bind (Sim.quiet _) fun _ => Sim.ite (Sim.log (Sim.bind (Sim.quiet _) fun _ => sim_hmac _ _)) (Sim.quiet _)))

theorem sim_handshake (cfg : Config) : Sim (handshake cfg) (Client.handshake cfg) :=
  Sim.bind sim_read fun _ => Sim.ite (Sim.quiet _) (Sim.log (Sim.bind (Sim.quiet _) fun _ => Sim.bind (sim_send _ _ _) fun _ =>
    Sim.bind sim_read fun _ => Sim.log_after (sim_authenticate _ _)))

theorem sim_start (cfg : Config) : Sim (start cfg) (Client.start cfg) :=
  Sim.bind sim_connect fun _ => sim_handshake cfg

/-! ## Coroutines that log their traffic and nothing else -/

/-- Everything logged is traffic, and all traffic is logged. -/
def Plain (x : L α) : Prop := ∀ w, ∃ acts, (x w).1.2.trace = w.trace ++ acts ∧ (x w).2 = acts.filterMap noted ∧
  ∀ a ∈ acts, (noted a).isSome

theorem Plain.pure (a : α) : Plain (Pure.pure a : L α) := fun w => ⟨[], by simp [Pure.pure, L.pure], rfl, by simp⟩
theorem Plain.lift (e : Except Err α) : Plain (quiet (M.lift e)) := fun w => ⟨[], by simp [L.quiet, M.lift], rfl, by simp⟩
theorem Plain.raise (e : Err) : Plain (quiet (M.raise e) : L α) := fun w => ⟨[], by simp [L.quiet, M.raise], rfl, by simp⟩

theorem Plain.bind {x : L α} {f : α → L β} (h : Plain x) (hf : ∀ a, Plain (f a)) : Plain (x >>= f) := by
  intro w
  rw [bind_apply]
  obtain ⟨a1, h1, h2, h2'⟩ := h w
  rcases hx : x w with ⟨⟨a | a, w'⟩, l⟩
  · rw [hx] at h1 h2
    exact ⟨a1, h1, h2, h2'⟩
  · rw [hx] at h1 h2
    obtain ⟨a2, h3, h4, h4'⟩ := hf a w'
    refine ⟨a1 ++ a2, ?_, ?_, ?_⟩
    · simp only at h1 h3 ⊢
      rw [h3, h1, List.append_assoc]
    · simp only at h2 h4 ⊢
      rw [h4, h2, List.filterMap_append]
    · intro b hb
      rcases List.mem_append.1 hb with hb | hb
      · exact h2' b hb
      · exact h4' b hb

theorem Plain.ite {c : Prop} [Decidable c] {x x' : L α} (h : Plain x) (h' : Plain x') : Plain (if c then x else x') := by
  split_ifs <;> assumption

theorem plain_send (cfg : Config) (m : Msg) (f : Bool) : Plain (sendMessage cfg m f) := by
  intro w
  unfold sendMessage
  rw [bind_apply]
  unfold quiet Client.sendMessage
  split_ifs
  · exact ⟨[], by simp, rfl, by simp⟩
  · exact ⟨[], by simp, rfl, by simp⟩
  · cases m.bytes
    · exact ⟨[], by simp, rfl, by simp⟩
    · exact ⟨[.sent m.str], rfl, rfl, by simp [noted]⟩

theorem plain_read : Plain readMessage := by
  intro w
  unfold readMessage
  rw [bind_apply]
  unfold quiet Client.readMessage
  split_ifs
  · exact ⟨[], by simp, rfl, by simp⟩
  · rcases hi : w.inbox with _ | ⟨_ | _, rest⟩
    · exact ⟨[], by simp, rfl, by simp⟩
    · rename_i m
      exact ⟨[.got m], rfl, rfl, by simp [noted]⟩
    · exact ⟨[], by simp, rfl, by simp⟩

theorem plain_open (cfg : Config) (nonce : Str) : Plain (authenticateOpen cfg nonce) :=
  Plain.bind (Plain.lift _) fun _ => Plain.bind (plain_send _ _ _) fun _ => Plain.bind plain_read fun _ =>
    Plain.ite (Plain.raise _) (Plain.pure _)

theorem plain_hmacWith (cfg : Config) (alg : Alg) : Plain (authenticateHmacWith cfg alg) :=
  Plain.bind (plain_send _ _ _) fun _ => Plain.bind plain_read fun _ => Plain.bind (Plain.lift _) fun _ =>
  Plain.bind (Plain.lift _) fun _ => Plain.bind (Plain.lift _) fun _ => Plain.bind (Plain.lift _) fun _ =>
  Plain.bind (Plain.lift _) fun _ => Plain.bind (Plain.lift _) fun _ => Plain.bind (plain_send _ _ _) fun _ =>
  Plain.bind plain_read fun _ => Plain.ite (Plain.raise _)
    (Plain.bind (Plain.lift _) fun _ => Plain.bind (Plain.lift _) fun _ => Plain.bind (Plain.lift _) fun _ =>
      Plain.ite (Plain.raise _) (plain_send _ _ _))

theorem plain_hmac (cfg : Config) (tag : Str) : Plain (authenticateHmac cfg tag) := by
  unfold authenticateHmac
  split
  · exact Plain.bind (plain_send _ _ _) fun _ => Plain.raise _
  · exact plain_hmacWith _ _

theorem log_bind (r : Record) (f : Unit → L β) (w : World) : (L.log r >>= f) w = ((f () w).1, r :: (f () w).2) := rfl

theorem lift_bind (a : α) (f : α → L β) (w : World) : (quiet (M.lift (.ok a)) >>= f) w = f a w := rfl

/-- The records of the choice of authentication: what it is announced as, and the traffic. -/
theorem authenticate_log (cfg : Config) (resp : Msg) (w : World) :
    ∃ acts, (authenticate cfg resp w).1.2.trace = w.trace ++ acts ∧
      (authenticate cfg resp w).2 = announced resp ++ acts.filterMap noted ∧
      ∀ a ∈ acts, (noted a).isSome := by
  unfold authenticate announced
  simp only [Client.type_ack]
  split_ifs with h1 h2 h3
  · exact ⟨[], by simp [L.log], rfl, by simp⟩
  · rw [log_bind]
    obtain ⟨acts, ha, hb, hc⟩ := Plain.bind (Plain.lift (index resp.tags 0)) (fun a => plain_open cfg a) w
    exact ⟨acts, ha, by rw [hb]; rfl, hc⟩
  · have hi : index resp.tags 0 = .ok cs!"98" := by
      cases ht : resp.tags with
      | nil => simp [ht] at h3
      | cons a l => simp [ht] at h3; subst h3; rfl
    rw [hi, lift_bind, if_pos rfl, log_bind]
    obtain ⟨acts, ha, hb, hc⟩ := Plain.bind (Plain.lift (index resp.tags 1)) (fun a => plain_hmac cfg a) w
    exact ⟨acts, ha, by rw [hb]; rfl, hc⟩
  · have hp : Plain (do
        let first ← quiet (M.lift (index resp.tags 0))
        if first = cs!"98" then (do
          log .usingHmac
          authenticateHmac cfg (← quiet (M.lift (index resp.tags 1))))
        else quiet (M.raise .invalidAuthentication)) := by
      intro w
      rw [bind_apply]
      cases ht : resp.tags with
      | nil => exact ⟨[], by simp [quiet, M.lift, index], rfl, by simp⟩
      | cons a l =>
        have hne : a ≠ cs!"98" := by
          intro h; exact h3 (by rw [ht, h]; rfl)
        simp only [quiet, M.lift, index, List.getElem?_cons_zero, if_neg hne]
        exact ⟨[], by simp [M.raise], rfl, by simp⟩
    obtain ⟨acts, ha, hb, hc⟩ := hp w
    exact ⟨acts, ha, by rw [hb]; rfl, hc⟩

end Logs

namespace Logs
open L
variable {α β : Type}

theorem bind_of {x : L α} {f : α → L β} {w w' : World} {a : α} {l : List Record} (h : x w = ((.ok a, w'), l)) :
    (x >>= f) w = ((f a w').1, l ++ (f a w').2) := by rw [bind_apply, h]
theorem bind_err {x : L α} {f : α → L β} {w w' : World} {e : Err} {l : List Record} (h : x w = ((.error e, w'), l)) :
    (x >>= f) w = ((.error e, w'), l) := by rw [bind_apply, h]

theorem read_ok {w w' : World} {m : Msg} (h : Client.readMessage w = (.ok m, w')) :
    readMessage w = ((.ok m, w'), [.received m]) := by
  unfold readMessage
  rw [bind_apply]
  simp only [quiet, h]
  rfl

theorem read_err {w w' : World} {e : Err} (h : Client.readMessage w = (.error e, w')) :
    readMessage w = ((.error e, w'), []) := by
  unfold readMessage
  rw [bind_apply]
  simp only [quiet, h]

theorem send_ok {cfg : Config} {w w' : World} {m : Msg} (h : Client.sendMessage cfg m true w = (.ok (), w')) :
    sendMessage cfg m true w = ((.ok (), w'), [.sent m.str]) := by
  unfold sendMessage
  rw [bind_apply]
  simp only [quiet, h]
  rfl

theorem ready_after (x : L Unit) (w : World) :
    (x >>= fun _ => L.log .ready) w = ((x w).1, (x w).2 ++ (if (x w).1.1.isOk then [.ready] else [])) := by
  rw [bind_apply]
  rcases x w with ⟨⟨a | a, w'⟩, l⟩
  · simp [Except.isOk, Except.toBool]
  · simp [Except.isOk, Except.toBool, L.log]

theorem shown_noted (acts : List CAct) : shown (acts.filterMap noted) = [] := by
  unfold shown
  rw [List.filter_eq_nil_iff]
  intro r hr
  obtain ⟨a, _, ha⟩ := List.mem_filterMap.1 hr
  cases a <;> simp [noted] at ha <;> subst ha <;> simp [Record.level]

theorem shown_announced (resp : Msg) : shown (announced resp) = announced resp := by
  unfold announced
  split_ifs <;> rfl

theorem shown_append (a b : List Record) : shown (a ++ b) = shown a ++ shown b := List.filter_append ..

theorem shown_logOf (m c : Msg) (text : Str) (acts : List CAct) (b : Bool) :
    shown (logOf (.connected :: .got m :: .sent text :: .got c :: acts) b) =
      [.connectionMade] ++ announced c ++ (if b then [.ready] else []) := by
  have hb : shown (if b then [.ready] else []) = if b then [.ready] else [] := by cases b <;> rfl
  rw [show logOf (.connected :: .got m :: .sent text :: .got c :: acts) b =
    [.connectionMade, .connectionStarted, .received m, .startingHandshake, .sent text, .received c] ++ announced c ++
      acts.filterMap noted ++ (if b then [.ready] else []) from rfl, shown_append, shown_append, shown_append, shown_noted,
    shown_announced, hb, List.append_nil]
  rfl

theorem learnt_noted (acts : List CAct) (h : ∀ a ∈ acts, (noted a).isSome) : (acts.filterMap noted).filterMap learnt = acts := by
  induction acts with
  | nil => rfl
  | cons a acts ih =>
    have ha := h a (by simp)
    have := ih (fun b hb => h b (by simp [hb]))
    cases a <;> simp [noted] at ha <;> simp only [List.filterMap_cons, noted, learnt, this]

theorem learnt_logOf (m c : Msg) (text : Str) (acts : List CAct) (b : Bool) (h : ∀ a ∈ acts, (noted a).isSome) :
    (logOf (.connected :: .got m :: .sent text :: .got c :: acts) b).filterMap learnt =
      .got m :: .sent text :: .got c :: acts := by
  have h1 : (announced c).filterMap learnt = [] := by unfold announced; split_ifs <;> rfl
  have hb : (if b then [Record.ready] else []).filterMap learnt = [] := by cases b <;> rfl
  rw [show logOf (.connected :: .got m :: .sent text :: .got c :: acts) b =
    [.connectionMade, .connectionStarted, .received m, .startingHandshake, .sent text, .received c] ++ announced c ++
      acts.filterMap noted ++ (if b then [.ready] else []) from rfl]
  rw [List.filterMap_append, List.filterMap_append, List.filterMap_append, learnt_noted acts h, h1, hb]
  simp
  rfl

theorem and_iff_of_eq {l l' s : List Record} (h : l = l') {t : List CAct} (h' : shown l' = s)
    (h3 : l'.filterMap learnt = t) : l = l' ∧ shown l = s ∧ l.filterMap learnt = t := ⟨h, by rw [h, h'], by rw [h, h3]⟩

/-- The whole log of a call of `start`. -/
theorem start_log (cfg : Config) (w : World) :
    ∃ acts, (start cfg w).1.2.trace = w.trace ++ acts ∧ records cfg w = logOf acts (start cfg w).1.1.isOk ∧
      shown (records cfg w) = shownOf w.network (start cfg w).1.1.isOk ∧
      (records cfg w).filterMap learnt = acts.drop 1 := by
  unfold records start
  cases hn : w.network with
  | nil =>
    have hc : connect w = ((.error .timeoutError, w), []) := by
      unfold connect
      rw [bind_apply]
      simp [quiet, Client.connect, hn]
    rw [bind_err hc]
    exact ⟨[], by simp, rfl, rfl, rfl⟩
  | cons x net =>
    cases x with
    | none =>
      have hc : connect w = ((.error .timeoutError, { w with network := net }), []) := by
        unfold connect
        rw [bind_apply]
        simp [quiet, Client.connect, hn]
      rw [bind_err hc]
      exact ⟨[], by simp, rfl, rfl, rfl⟩
    | some inbox =>
      have hc : connect w = ((.ok (), ⟨net, true, inbox, w.trace ++ [.connected]⟩), [.connectionMade, .connectionStarted]) := by
        unfold connect
        rw [bind_apply]
        simp [quiet, Client.connect, hn]
        rfl
      rw [bind_of hc]
      unfold handshake
      rcases Client.read_cases (w := ⟨net, true, inbox, w.trace ++ [.connected]⟩) rfl with ⟨m, r1, g1, g2⟩ | ⟨g1, g2⟩
      · simp only at g1
        subst g1
        rw [bind_of (read_ok g2)]
        by_cases hm : m = .ack
        · subst hm
          rw [if_neg (by simp [Msg.type]), log_bind, Client.toMessage_eq, lift_bind]
          have hsend := Client.send_force (cfg := cfg) (w := ⟨net, true, r1, (w.trace ++ [.connected]) ++ [.got .ack]⟩)
            (m := .generic [cs!"99", cfg.session.value]) rfl (by
              intro t ht
              simp only [Msg.tags, List.mem_cons, List.not_mem_nil, or_false] at ht
              rcases ht with rfl | rfl
              · decide
              · cases cfg.session <;> decide)
          rw [bind_of (send_ok hsend)]
          simp only
          rcases Client.read_cases (w := ⟨net, true, r1, ((w.trace ++ [.connected]) ++ [.got .ack]) ++
            [.sent (Msg.generic [cs!"99", cfg.session.value]).str]⟩) rfl with ⟨c, r2, k1, k2⟩ | ⟨k1, k2⟩
          · simp only at k1
            subst k1
            rw [bind_of (read_ok k2), ready_after]
            obtain ⟨acts, h1, h2, h3⟩ := authenticate_log cfg c ⟨net, true, r2, (((w.trace ++ [.connected]) ++ [.got .ack]) ++
              [.sent (Msg.generic [cs!"99", cfg.session.value]).str]) ++ [.got c]⟩
            refine ⟨[.connected, .got .ack, .sent (Msg.generic [cs!"99", cfg.session.value]).str, .got c] ++ acts, ?_,
              and_iff_of_eq ?_ ?_ ?_⟩
            · simp only [h1]
              simp
            · simp only [h2]
              simp [logOf]
            · exact shown_logOf ..
            · exact learnt_logOf _ _ _ _ _ h3
          · rw [bind_err (read_err k2)]
            refine ⟨[.connected, .got .ack, .sent (Msg.generic [cs!"99", cfg.session.value]).str], ?_, rfl, ?_, rfl⟩
            · simp
            · rw [show shownOf (some (.msg .ack :: r1) :: net) _ = [.connectionMade] from ?_]
              · rfl
              · simp only at k1
                rcases r1 with _ | ⟨_ | _, _⟩
                · rfl
                · exact absurd rfl (k1 _ _)
                · rfl
        · rw [if_pos (by simpa [Client.type_ack] using hm)]
          refine ⟨[.connected, .got m], ?_, rfl, ?_, rfl⟩
          · simp [quiet, M.raise]
          · cases m with
            | ack => exact absurd rfl hm
            | _ => rfl
      · rw [bind_err (read_err g2)]
        simp only at g1
        refine ⟨[.connected], ?_, rfl, ?_, rfl⟩
        · rfl
        · rcases inbox with _ | ⟨_ | _, _⟩
          · rfl
          · exact absurd rfl (g1 _ _)
          · rfl

end Logs
