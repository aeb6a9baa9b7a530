import Verif.Proofs.Patient
import Verif.Spec.Queries

/-!
# Time limits (C106, C107 and the durations of C93)
-/

open Py Spec Timed M

/-! ## `read_message` -/

/-- C106: with a timeout, the next message is returned when it is there if it comes in time; otherwise `TimeoutError` is raised when
the time is over, and the message that came too late, if any, is still to be read. -/
theorem C106_read (t : TWorld) (hs : t.started = true) (d : Nat) :
    (∀ a m rest, t.arrivals = (a, m) :: rest → (a ≤ t.now ∨ a < t.now + d) →
      read (some d) t = some (.ok m, ⟨max t.now a, rest, true, t.trace ++ [.got m]⟩)) ∧
    ((∀ a m rest, t.arrivals = (a, m) :: rest → t.now < a ∧ t.now + d ≤ a) →
      read (some d) t = some (.error .timeoutError, ⟨t.now + d, t.arrivals, true, t.trace⟩)) := by
  obtain ⟨now, as, started, trace⟩ := t
  dsimp only at hs
  subst hs
  constructor
  · rintro a m rest rfl h
    unfold Timed.read
    dsimp only [Bool.not_true]
    rw [if_neg (by simp), if_pos h]
  · intro h
    unfold Timed.read
    dsimp only [Bool.not_true]
    rw [if_neg (by simp)]
    cases as with
    | nil => rfl
    | cons p as =>
      obtain ⟨a, m⟩ := p
      have := h a m as rfl
      dsimp only at this ⊢
      rw [if_neg (by omega)]

/-- C106: without a timeout, the next message is returned whenever it comes; the call ends only if one comes. -/
theorem C106_read_forever (t : TWorld) (hs : t.started = true) :
    (∀ a m rest, t.arrivals = (a, m) :: rest →
      read none t = some (.ok m, ⟨max t.now a, rest, true, t.trace ++ [.got m]⟩)) ∧
    (t.arrivals = [] → read none t = none) := by
  obtain ⟨now, as, started, trace⟩ := t
  dsimp only at hs
  subst hs
  constructor
  · rintro a m rest rfl; rfl
  · rintro rfl; rfl

/-- C106: on a client that is not started `InvalidSession` is raised at once. -/
theorem C106_read_closed (t : TWorld) (hs : t.started = false) (d : Option Nat) :
    read d t = some (.error .invalidSession, t) := by
  unfold Timed.read
  rw [hs]
  rfl

/-- C106: a read that times out can be repeated, and two short waits are one long wait. -/
theorem C106_again (t u : TWorld) (d d' : Nat) (hd : 0 < d') (h : read (some d) t = some (.error .timeoutError, u)) :
    read (some d') u = read (some (d + d')) t := by
  obtain ⟨now, as, started, trace⟩ := t
  cases started
  · rw [C106_read_closed _ rfl] at h; cases h
  · cases as with
    | nil =>
      have e := (C106_read ⟨now, [], true, trace⟩ rfl d).2 (by rintro a m rest ⟨⟩)
      rw [e] at h
      cases h
      rw [(C106_read _ rfl d').2 (by rintro a m rest ⟨⟩), (C106_read _ rfl (d + d')).2 (by rintro a m rest ⟨⟩)]
      dsimp only
      rw [Nat.add_assoc]
    | cons p as =>
      obtain ⟨a, m⟩ := p
      by_cases ha : a ≤ now ∨ a < now + d
      · rw [(C106_read _ rfl d).1 a m as rfl ha] at h; cases h
      · have late : now < a ∧ now + d ≤ a := by omega
        rw [(C106_read ⟨now, (a, m) :: as, true, trace⟩ rfl d).2 (by rintro a' m' rest ⟨⟩; exact late)] at h
        cases h
        by_cases hb : a ≤ now + d ∨ a < now + d + d'
        · rw [(C106_read _ rfl d').1 a m as rfl hb, (C106_read _ rfl (d + d')).1 a m as rfl (by dsimp only; omega)]
          dsimp only
          rw [show max (now + d) a = max now a by omega]
        · rw [(C106_read _ rfl d').2 (by rintro a' m' rest ⟨⟩; dsimp only; omega),
            (C106_read _ rfl (d + d')).2 (by rintro a' m' rest ⟨⟩; dsimp only; omega)]
          dsimp only
          rw [Nat.add_assoc]

namespace Spec

/-- What some calls of `read_message` one after the other, with the given timeouts and pauses before them, return; calls that
time out return nothing. -/
inductive Collects : List (Nat × Nat) → TWorld → List Msg → TWorld → Prop
  | done (t) : Collects [] t [] t
  | got (pause d ps t m u ms v) : read (some d) { t with now := t.now + pause } = some (.ok m, u) → Collects ps u ms v →
      Collects ((pause, d) :: ps) t (m :: ms) v
  | late (pause d ps t u ms v) : read (some d) { t with now := t.now + pause } = some (.error .timeoutError, u) →
      Collects ps u ms v → Collects ((pause, d) :: ps) t ms v

end Spec

/-- C106: whatever the timeouts and the pauses between the calls, the messages are returned in the order of arrival, and none is lost
or returned twice. -/
theorem C106_order (ps : List (Nat × Nat)) (t v : TWorld) (ms : List Msg) (hs : t.started = true) (h : Collects ps t ms v) :
    t.arrivals.map (·.2) = ms ++ v.arrivals.map (·.2) := by
  induction h with
  | done t => rfl
  | got pause d ps t m u ms v hr _ ih =>
    cases ha : t.arrivals with
    | nil =>
      rw [(C106_read _ (by exact hs) d).2 (by dsimp only; rw [ha]; rintro a m rest ⟨⟩)] at hr; cases hr
    | cons p as =>
      obtain ⟨a, m'⟩ := p
      by_cases hl : a ≤ t.now + pause ∨ a < t.now + pause + d
      · rw [(C106_read { t with now := t.now + pause } (by exact hs) d).1 a m' as (by exact ha) hl] at hr
        cases hr
        rw [List.map_cons, List.cons_append, ← ih rfl]
      · rw [(C106_read { t with now := t.now + pause } (by exact hs) d).2
          (by dsimp only; rw [ha]; rintro a m rest ⟨⟩; omega)] at hr
        cases hr
  | late pause d ps t u ms v hr _ ih =>
    cases ha : t.arrivals with
    | nil =>
      rw [(C106_read _ (by exact hs) d).2 (by dsimp only; rw [ha]; rintro a m rest ⟨⟩)] at hr
      cases hr
      rw [← ih rfl]
      dsimp only
      rw [ha]
    | cons p as =>
      obtain ⟨a, m'⟩ := p
      by_cases hl : a ≤ t.now + pause ∨ a < t.now + pause + d
      · rw [(C106_read { t with now := t.now + pause } (by exact hs) d).1 a m' as (by exact ha) hl] at hr
        cases hr
      · rw [(C106_read { t with now := t.now + pause } (by exact hs) d).2
          (by dsimp only; rw [ha]; rintro a m rest ⟨⟩; omega)] at hr
        cases hr
        rw [← ih rfl]
        dsimp only
        rw [ha]

/-- A message after three seconds: a read of one second fails, one of five seconds returns it. -/
example : read (some 1000) ⟨0, [(3000, .ack)], true, []⟩ = some (.error .timeoutError, ⟨1000, [(3000, .ack)], true, []⟩) ∧
    read (some 5000) ⟨1000, [(3000, .ack)], true, []⟩ = some (.ok .ack, ⟨3000, [], true, [.got .ack]⟩) ∧
    Collects [(0, 1000), (0, 5000)] ⟨0, [(3000, .ack)], true, []⟩ [.ack] ⟨3000, [], true, [.got .ack]⟩ :=
  ⟨rfl, rfl, .late _ _ _ _ _ _ _ rfl (.got _ _ _ _ _ _ _ _ rfl (.done _))⟩

/-- A read with timeout zero takes what is there. -/
example : read (some 0) ⟨7, [(7, .ack)], true, []⟩ = some (.ok .ack, ⟨7, [], true, [.got .ack]⟩) ∧
    read (some 0) ⟨7, [(8, .ack)], true, []⟩ = some (.error .timeoutError, ⟨7, [(8, .ack)], true, []⟩) := ⟨rfl, rfl⟩

/-! ## Calls -/

/-- C107: a `read_message()` inside a call is a `read_message()` on the clock. -/
theorem C107_read (t : TWorld) : some (call Client.readMessage t) = read (some 5000) t := by
  obtain ⟨now, as, started, trace⟩ := t
  cases started
  · rw [C106_read_closed _ rfl]
    unfold call
    simp [Client.readMessage, pass]
  · rcases Clock.quiet_or now as with hq | ⟨a, m, rest, rfl, ha⟩
    · rw [(C106_read _ rfl 5000).2 (fun a m rest h => by have := hq a m rest h; dsimp only; omega)]
      exact congrArg some (Clock.call_timeout (f := Client.readMessage) (t := ⟨now, as, true, trace⟩) (xs := []) (ys := as)
        rfl trivial hq rfl rfl)
    · rw [(C106_read _ rfl 5000).1 a m rest rfl (.inr ha)]
      exact congrArg some (Clock.call_taken (f := Client.readMessage) (t := ⟨now, (a, m) :: rest, true, trace⟩)
        (xs := [(a, m)]) (ys := rest) rfl ⟨ha, trivial⟩ rfl rfl)

/-- C107: the parts of a call follow each other on the clock, each with time limits of its own. -/
theorem C107_sequence {α β : Type} (f : M α) (g : α → M β) (hf : Patient raisedBy f) (hg : ∀ a, Patient raisedBy (g a))
    (hn : ∀ w, (f w).2.network = w.network) (t : TWorld) (hs : t.started = true) :
    call (f >>= g) t = match call f t with
      | (.ok a, u) => call (g a) u
      | (.error e, u) => (.error e, u) := by
  obtain ⟨taken, rest, acts, a, b, c, d, e⟩ := hf ⟨[], t.started, inboxOf t.now t.arrivals, t.trace⟩ hs
  dsimp only at a b
  obtain ⟨xs, ys, h1, h2, h3, h4⟩ := Clock.split_taken taken t.now t.arrivals rest a
  have hin : inboxOf t.now t.arrivals = xs.map (fun p => InEv.msg p.2) ++ inboxOf (lastAt t.now xs) ys := by
    rw [h1]; exact Clock.inboxOf_append _ _ _ h3
  have hn' := hn ⟨[], t.started, inboxOf t.now t.arrivals, t.trace⟩
  rw [hin] at hn' b d e
  rcases hr : f ⟨[], t.started, xs.map (fun p => InEv.msg p.2) ++ inboxOf (lastAt t.now xs) ys, t.trace⟩ with ⟨r, w⟩
  rw [hr] at b d e hn'
  dsimp only at b d e hn'
  cases r with
  | error err =>
    have hb : (f >>= g) ⟨[], t.started, xs.map (fun p => InEv.msg p.2) ++ inboxOf (lastAt t.now xs) ys, t.trace⟩ =
        (.error err, w) := bind_error hr
    unfold call
    dsimp only
    rw [hin, hr, hb]
  | ok x =>
    have hi : w.inbox = inboxOf (lastAt t.now xs) ys := by
      rcases e with ⟨e1, _⟩ | ⟨e1, _⟩
      · exact e1.trans h4
      · cases e1
    have hc := Clock.call_taken h1 h3 hr hi
    rw [hc]
    dsimp only
    have hw : w = ⟨[], w.started, inboxOf (lastAt t.now xs) ys, w.trace⟩ := by
      cases w; dsimp only at hi hn'; rw [hi, hn']
    have hb : (f >>= g) ⟨[], t.started, xs.map (fun p => InEv.msg p.2) ++ inboxOf (lastAt t.now xs) ys, t.trace⟩ =
        g x ⟨[], w.started, inboxOf (lastAt t.now xs) ys, w.trace⟩ := by rw [bind_ok hr, ← hw]
    unfold call
    dsimp only
    rw [hin, hb]
    obtain ⟨taken', rest', acts', a', b', c', d', e'⟩ := hg x ⟨[], w.started, inboxOf (lastAt t.now xs) ys, w.trace⟩ d
    rcases hq : g x ⟨[], w.started, inboxOf (lastAt t.now xs) ys, w.trace⟩ with ⟨r', w'⟩
    rw [hq] at e'
    dsimp only at a' e' ⊢
    have hlen : w'.inbox.length ≤ (inboxOf (lastAt t.now xs) ys).length := by
      rw [a', List.length_append]
      rcases e' with ⟨e', _⟩ | ⟨_, _, e'⟩
      · rw [e']; omega
      · rw [e', List.length_drop]; omega
    rw [List.length_append, List.length_map, Nat.add_sub_assoc hlen, h1, Clock.pass_append _ _ _ _ h3]

/-- C107: every call that stops at the first read that times out lasts until the last message it takes, or five seconds longer if it raises
`TimeoutError`. -/
theorem C107_calls {ρ : Type} {raised : ρ → Option Err} {f : World → ρ × World} (h : Patient raised f) : Punctual raised f :=
  Clock.punctual_of_patient h

/-- C107: the handshake of `start()`. -/
theorem C107_start (cfg : Config) : Punctual raisedBy (Client.handshake cfg) := C107_calls (Patient.handshake cfg)

/-- C107: every command. -/
theorem C107_commands (cfg : Config) (f : M Unit) (text : Str) (h : Sends cfg f text) : Punctual raisedBy f := by
  apply C107_calls
  intro w hs
  by_cases hr : Ready cfg w
  · rcases hi : w.inbox with _ | ⟨m | _, rest⟩
    · rw [(h w).1 hr _ _ _ (by rw [hi]; exact .nothing)]
      exact ⟨[], [], [.sent text], rfl, rfl, rfl, hs, .inr ⟨rfl, by simp, rfl⟩⟩
    · by_cases hm : m = .ack
      · subst hm
        rw [(h w).1 hr _ _ _ (by rw [hi]; exact .acknowledged rest)]
        exact ⟨[.ack], rest, [.sent text, .got .ack], rfl, rfl, rfl, hs, .inl ⟨rfl, by simp [raisedBy]⟩⟩
      · rw [(h w).1 hr _ _ _ (by rw [hi]; exact .refused m rest hm (fun h => h))]
        exact ⟨[m], rest, [.sent text, .got m], rfl, rfl, rfl, hs, .inl ⟨rfl, by simp [raisedBy]⟩⟩
    · rw [(h w).1 hr _ _ _ (by rw [hi]; exact .silent rest)]
      exact ⟨[], .silence :: rest, [.sent text], rfl, rfl, rfl, hs, .inr ⟨rfl, by simp, rfl⟩⟩
  · rw [(h w).2 hr]
    exact ⟨[], w.inbox, [], rfl, (List.append_nil _).symm, rfl, hs, .inl ⟨rfl, by simp [raisedBy]⟩⟩

/-- C107: every status query, whatever is done with the replies (unless that raises `TimeoutError` itself). -/
theorem C107_status {β : Type} (cfg : Config) (i : Item) (body : Msg → Except Err (List β))
    (hb : ∀ m, body m ≠ .error .timeoutError) : Punctual raisedByGen (Item.statusStream cfg i body) :=
  C107_calls (Patient.stream cfg _ _ body fun m _ _ he h => hb m (h ▸ he))

/-- C107: every dimension query. -/
theorem C107_dimension {β : Type} (cfg : Config) (i : Item) (dim : Tag) (body : Msg → Except Err (List β))
    (hb : ∀ m, body m ≠ .error .timeoutError) : Punctual raisedByGen (Item.dimStream cfg i dim body) :=
  C107_calls (Patient.stream cfg _ _ body fun m _ _ he h => hb m (h ▸ he))

/-- The inbox of a getter: responses, then an end. -/
theorem inbox_responses (inbox : List InEv) : ∃ (rs : List Msg) (tail : List InEv) (r : Except Err Unit) (rest : List InEv)
    (acts : List CAct), (∀ m ∈ rs, DimReply m) ∧ inbox = rs.map .msg ++ tail ∧ Ending DimReply tail r rest acts := by
  induction inbox with
  | nil => exact ⟨[], [], _, _, _, by simp, rfl, .nothing⟩
  | cons x inbox ih =>
    cases x with
    | silence => exact ⟨[], _, _, _, _, by simp, rfl, .silent inbox⟩
    | msg m =>
      by_cases hm : m = .ack
      · subst hm
        exact ⟨[], _, _, _, _, by simp, rfl, .acknowledged inbox⟩
      · by_cases hd : DimReply m
        · obtain ⟨rs, tail, r, rest, acts, h1, h2, h3⟩ := ih
          refine ⟨m :: rs, tail, r, rest, acts, ?_, by rw [h2]; rfl, h3⟩
          intro x hx
          rcases List.mem_cons.1 hx with rfl | hx
          · exact hd
          · exact h1 x hx
        · exact ⟨[], _, _, _, _, by simp, rfl, .refused m inbox hm hd⟩

theorem gotten_map (l : List Msg) (acts : List CAct) : gotten (l.map CAct.got ++ acts) = l ++ gotten acts := by
  induction l with
  | nil => rfl
  | cons x l ih => simp [gotten, ih]

/-- C107: every getter that asks for one value. -/
theorem C107_getters {α : Type} (cfg : Config) (getter : M α) (text : Str) (decode : List Tag → Except Err α)
    (hd : ∀ vs, decode vs ≠ .error .timeoutError) (h : Asks cfg getter text decode) : Punctual raisedBy getter := by
  apply C107_calls
  intro w hs
  by_cases hr : Ready cfg w
  · obtain ⟨rs, tail, r, rest, acts, h1, h2, h3⟩ := inbox_responses w.inbox
    rw [(h w).2 hr rs tail r rest acts h1 h2 h3]
    have hdec : ∀ r' : Except Err α, (rs = [] → r' = .error .responseError) →
        (∀ m l, rs = m :: l → r' = decode m.values) → raisedBy r' ≠ some .timeoutError := by
      intro r' e1 e2
      cases rs with
      | nil => rw [e1 rfl]; simp [raisedBy]
      | cons m rs =>
        rw [e2 m rs rfl]
        cases hm : decode m.values with
        | ok a => simp [raisedBy]
        | error e => intro h'; cases h'; exact hd _ hm
    cases h3 with
    | acknowledged rest =>
      refine ⟨rs ++ [.ack], rest, _, by rw [h2]; simp, rfl, ?_, hs, .inl ⟨rfl, hdec _ (by rintro rfl; rfl) (by rintro m l rfl; rfl)⟩⟩
      simp [gotten, gotten_map]
    | refused m rest hm hw =>
      refine ⟨rs ++ [m], rest, _, by rw [h2]; simp, rfl, ?_, hs, .inl ⟨rfl, by simp [raisedBy]⟩⟩
      simp [gotten, gotten_map]
    | silent rest =>
      refine ⟨rs, .silence :: rest, _, h2, rfl, ?_, hs, .inr ⟨rfl, by simp, rfl⟩⟩
      simpa [gotten] using gotten_map rs []
    | nothing =>
      refine ⟨rs, [], _, h2, rfl, ?_, hs, .inr ⟨rfl, by simp, rfl⟩⟩
      simpa [gotten] using gotten_map rs []
  · rw [(h w).1 hr]
    exact ⟨[], w.inbox, [], rfl, (List.append_nil _).symm, rfl, hs, .inl ⟨rfl, by simp [raisedBy]⟩⟩

/-- C107: a command on the clock.  An answer within five seconds ends it when it comes, with success if it is ACK and with
`ResponseError` if not; without one, `TimeoutError` is raised after five seconds, and what comes later is left in the queue. -/
theorem C107_command_exact (cfg : Config) (hc : cfg.session ≠ .event) (f : M Unit) (text : Str) (h : Sends cfg f text) (t : TWorld)
    (hs : t.started = true) :
    (∀ a m rest, t.arrivals = (a, m) :: rest → a < t.now + 5000 →
      call f t = (if m = .ack then .ok () else .error .responseError,
        ⟨max t.now a, rest, true, t.trace ++ [.sent text, .got m]⟩)) ∧
    (Quiet t.now t.arrivals →
      call f t = (.error .timeoutError, ⟨t.now + 5000, t.arrivals, true, t.trace ++ [.sent text]⟩)) := by
  obtain ⟨now, as, started, trace⟩ := t
  dsimp only at hs
  subst hs
  constructor
  · rintro a m rest rfl ha
    have hw : f ⟨[], true, [(a, m)].map (fun p => InEv.msg p.2) ++ inboxOf (lastAt now [(a, m)]) rest, trace⟩ =
        (if m = .ack then .ok () else .error .responseError,
          ⟨[], true, inboxOf (lastAt now [(a, m)]) rest, trace ++ [.sent text, .got m]⟩) := by
      split_ifs with hm
      · subst hm
        exact (h _).1 ⟨rfl, hc⟩ _ _ _ (.acknowledged _)
      · exact (h _).1 ⟨rfl, hc⟩ _ _ _ (.refused m _ hm (fun h => h))
    exact Clock.call_taken (t := ⟨now, (a, m) :: rest, true, trace⟩) (xs := [(a, m)]) rfl ⟨ha, trivial⟩ hw rfl
  · intro hq
    have hw : f ⟨[], true, ([] : Arrivals).map (fun p => InEv.msg p.2) ++ [.silence], trace⟩ =
        (.error .timeoutError, ⟨[], true, [], trace ++ [.sent text]⟩) := (h _).1 ⟨rfl, hc⟩ _ _ _ (.silent _)
    exact Clock.call_timeout (t := ⟨now, as, true, trace⟩) (xs := []) rfl trivial hq hw rfl

/-- C107: a query on the clock.  The replies that come without a gap of five seconds are read; an ACK (or a refusal) within five seconds
ends the query when it comes, without one it raises `TimeoutError` five seconds after the last reply. -/
theorem C107_query_exact {β : Type} (cfg : Config) (hc : cfg.session ≠ .event) (query : World → (List β × Except Err Unit) × World)
    (text : Str) (wanted : Msg → Prop) (reads : Msg → Except Err (List β) → Prop) (h : Queries cfg query text wanted reads)
    (t : TWorld) (hs : t.started = true) (good tail : Arrivals) (ha : t.arrivals = good ++ tail) (hst : Steady t.now good)
    (hw : ∀ p ∈ good, wanted p.2) (yss : List (List β)) (hy : List.Forall₂ (fun m ys => reads m (.ok ys)) (good.map (·.2)) yss) :
    (∀ a rest, tail = (a, .ack) :: rest → a < lastAt t.now good + 5000 →
      call query t = ((yss.flatten, .ok ()), ⟨max (lastAt t.now good) a, rest, true,
        t.trace ++ .sent text :: (good.map (fun p => CAct.got p.2) ++ [.got .ack])⟩)) ∧
    (∀ a m rest, tail = (a, m) :: rest → a < lastAt t.now good + 5000 → m ≠ .ack → ¬ wanted m →
      call query t = ((yss.flatten, .error .responseError), ⟨max (lastAt t.now good) a, rest, true,
        t.trace ++ .sent text :: (good.map (fun p => CAct.got p.2) ++ [.got m])⟩)) ∧
    (Quiet (lastAt t.now good) tail →
      call query t = ((yss.flatten, .error .timeoutError), ⟨lastAt t.now good + 5000, tail, true,
        t.trace ++ .sent text :: good.map (fun p => CAct.got p.2)⟩)) := by
  obtain ⟨now, as, started, trace⟩ := t
  dsimp only at hs ha hst ⊢
  subst hs
  have hw' : ∀ m ∈ good.map (·.2), wanted m := by
    intro m hm
    obtain ⟨p, hp, rfl⟩ := List.mem_map.1 hm
    exact hw p hp
  have run : ∀ (tl : List InEv) r rest acts, Ending wanted tl r rest acts →
      query ⟨[], true, good.map (fun p => InEv.msg p.2) ++ tl, trace⟩ =
        ((yss.flatten, r), ⟨[], true, rest, trace ++ .sent text :: (good.map (fun p => CAct.got p.2) ++ acts)⟩) := by
    intro tl r rest acts he
    have := ((h ⟨[], true, good.map (fun p => InEv.msg p.2) ++ tl, trace⟩).2 ⟨rfl, hc⟩ (good.map (·.2)) tl yss hw'
      (by simp [List.map_map, Function.comp_def]) hy).1 r rest acts he
    rw [this]
    simp [World.after, List.map_map, Function.comp_def]
  have steady : ∀ a m, a < lastAt now good + 5000 → Steady now (good ++ [(a, m)]) ∧ lastAt now (good ++ [(a, m)]) = max (lastAt now good) a := by
    intro a m hlt
    refine ⟨?_, by simp [lastAt]⟩
    clear run hy hw hw' ha
    induction good generalizing now with
    | nil => exact ⟨hlt, trivial⟩
    | cons p good ih => exact ⟨hst.1, ih _ hst.2 hlt⟩
  refine ⟨?_, ?_, ?_⟩
  · rintro a rest rfl hlt
    obtain ⟨s1, s2⟩ := steady a .ack hlt
    have := Clock.call_taken (f := query) (t := ⟨now, as, true, trace⟩) (xs := good ++ [(a, .ack)]) (ys := rest)
      (r := (yss.flatten, .ok ())) (w := ⟨[], true, inboxOf (max (lastAt now good) a) rest,
        trace ++ .sent text :: (good.map (fun p => CAct.got p.2) ++ [.got .ack])⟩) (by simp [ha]) s1
      (by
        dsimp only
        rw [s2, List.map_append, List.append_assoc]
        exact run _ _ _ _ (.acknowledged _)) (by dsimp only; rw [s2])
    rw [this]
    dsimp only
    rw [s2]
  · rintro a m rest rfl hlt hm hnw
    obtain ⟨s1, s2⟩ := steady a m hlt
    have := Clock.call_taken (f := query) (t := ⟨now, as, true, trace⟩) (xs := good ++ [(a, m)]) (ys := rest)
      (r := (yss.flatten, .error .responseError)) (w := ⟨[], true, inboxOf (max (lastAt now good) a) rest,
        trace ++ .sent text :: (good.map (fun p => CAct.got p.2) ++ [.got m])⟩) (by simp [ha]) s1
      (by
        dsimp only
        rw [s2, List.map_append, List.append_assoc]
        exact run _ _ _ _ (.refused m _ hm hnw)) (by dsimp only; rw [s2])
    rw [this]
    dsimp only
    rw [s2]
  · intro hq
    have hr := run [.silence] _ _ _ (.silent [])
    rw [List.append_nil] at hr
    exact Clock.call_timeout (f := query) (t := ⟨now, as, true, trace⟩) (xs := good) (ys := tail) ha hst hq hr rfl

/-! ## Durations -/

/-- C93: a call that takes at most `k` messages lasts at most `k` read timeouts. -/
theorem C93_duration {α : Type} (k : Nat) (f : M α) (h : Takes k f) (t : TWorld) (hs : t.started = true) :
    (call f t).2.now ≤ t.now + 5000 * k := by
  obtain ⟨taken, rest, acts, a, b, c, d, e, hh⟩ := h ⟨[], t.started, inboxOf t.now t.arrivals, t.trace⟩ hs
  dsimp only at a
  obtain ⟨xs, ys, h1, h2, h3, h4⟩ := Clock.split_taken taken t.now t.arrivals rest a
  have hlen : xs.length = taken.length := by rw [← h2, List.length_map]
  have hb := Clock.steady_bound xs t.now h3
  have hk : 5000 * xs.length ≤ 5000 * k := Nat.mul_le_mul_left _ (by omega)
  have hin : inboxOf t.now t.arrivals = xs.map (fun p => InEv.msg p.2) ++ inboxOf (lastAt t.now xs) ys := by
    rw [h1]; exact Clock.inboxOf_append _ _ _ h3
  rw [hin] at hh
  rcases hf : f ⟨[], t.started, xs.map (fun p => InEv.msg p.2) ++ inboxOf (lastAt t.now xs) ys, t.trace⟩ with ⟨r, w⟩
  rw [hf] at hh
  dsimp only at hh
  rcases hh with hh | ⟨g1, g2, g3, g4⟩
  · rw [Clock.call_taken h1 h3 hf (hh.trans h4)]
    dsimp only
    omega
  · have hq : Quiet (lastAt t.now xs) ys := by
      rcases Clock.quiet_or (lastAt t.now xs) ys with hq | ⟨a', m', as', rfl, ha'⟩
      · exact hq
      · exfalso
        rw [inboxOf, if_pos (by exact ha')] at h4
        exact g3 _ _ h4
    rw [Clock.inboxOf_quiet hq] at hf h4
    rw [Clock.call_timeout h1 h3 hq hf (by rw [g4, h4]; rfl)]
    dsimp only
    omega

/-- C93: the handshake of `start()` lasts at most twenty seconds. -/
theorem C93_start_duration (cfg : Config) (t : TWorld) (hs : t.started = true) :
    (call (Client.handshake cfg) t).2.now ≤ t.now + 20000 := C93_duration 4 _ (Takes.handshake cfg) t hs

/-- C93: a command lasts at most five seconds. -/
theorem C93_command_duration (cfg : Config) (m : Msg) (t : TWorld) (hs : t.started = true) :
    (call (Item.command cfg m) t).2.now ≤ t.now + 5000 := C93_duration 1 _ (C93_command cfg m) t hs

namespace Spec

/-- A gateway that sends the same message every four seconds, `n` times. -/
def trickle (m : Msg) : Nat → Nat → Arrivals
  | _, 0 => []
  | now, n + 1 => (now + 4000, m) :: trickle m (now + 4000) n

end Spec

theorem trickle_steady (m : Msg) (n : Nat) : ∀ now, Steady now (trickle m now n) ∧ lastAt now (trickle m now n) = now + 4000 * n ∧
    ∀ p ∈ trickle m now n, p.2 = m := by
  induction n with
  | zero => intro now; exact ⟨trivial, rfl, by simp [trickle]⟩
  | succ n ih =>
    intro now
    obtain ⟨h1, h2, h3⟩ := ih (now + 4000)
    have hm : max now (now + 4000) = now + 4000 := by omega
    refine ⟨⟨by omega, by rw [hm]; exact h1⟩, ?_, ?_⟩
    · rw [trickle, Clock.lastAt_cons, hm, h2]
      omega
    · intro p hp
      rcases List.mem_cons.1 hp with rfl | hp
      · rfl
      · exact h3 p hp

/-- C93 is refuted in time, too: a getter that returns one value can be kept waiting longer than any time given. -/
theorem C93_single_duration_refuted (cfg : Config) (hs : cfg.session ≠ .event) (i : Item) (hi : TagText i.wher.string) (dim : Tag)
    (hd : TagText dim.string) (limit : Nat) :
    ∃ t : TWorld, t.started = true ∧ t.now = 0 ∧ limit < (call (Item.singleDimReq cfg i dim) t).2.now := by
  let m : Msg := .dimResp i.who i.wher dim []
  refine ⟨⟨0, trickle m 0 (limit + 1), true, []⟩, rfl, rfl, ?_⟩
  obtain ⟨h1, h2, h3⟩ := trickle_steady m (limit + 1) 0
  have hq : Quiet (lastAt 0 (trickle m 0 (limit + 1))) [] := fun _ _ _ h => by cases h
  have hmsgs : (trickle m 0 (limit + 1)).map (fun p => InEv.msg p.2) ++ [.silence] =
      ((trickle m 0 (limit + 1)).map (·.2)).map InEv.msg ++ [.silence] := by simp [List.map_map, Function.comp_def]
  have hf := C37_single cfg i hi dim hd
    ⟨[], true, (trickle m 0 (limit + 1)).map (fun p => InEv.msg p.2) ++ [.silence], []⟩ ⟨rfl, hs⟩
    ((trickle m 0 (limit + 1)).map (·.2))
    (fun x hx => by
      obtain ⟨p, hp, rfl⟩ := List.mem_map.1 hx
      exact ⟨_, _, _, _, h3 p hp⟩) [.silence] hmsgs _ _ _ (.silent [])
  have := Clock.call_timeout (f := Item.singleDimReq cfg i dim) (t := ⟨0, trickle m 0 (limit + 1), true, []⟩)
    (xs := trickle m 0 (limit + 1)) (ys := []) (by simp) h1 hq hf rfl
  rw [this]
  dsimp only
  rw [h2]
  omega

/-- A light that answers after two seconds, and one that does not: the second call lasts five seconds and leaves the late answer. -/
example (lib : HmacAuth.Lib) :
    call (Item.command ⟨[], .command, lib, []⟩ (.normal .lighting ⟨cs!"1"⟩ ⟨cs!"12"⟩)) ⟨100, [(2100, .ack)], true, []⟩ =
      (.ok (), ⟨2100, [], true, [.sent cs!"*1*1*12##", .got .ack]⟩) ∧
    call (Item.command ⟨[], .command, lib, []⟩ (.normal .lighting ⟨cs!"1"⟩ ⟨cs!"12"⟩)) ⟨100, [(7000, .ack)], true, []⟩ =
      (.error .timeoutError, ⟨5100, [(7000, .ack)], true, [.sent cs!"*1*1*12##"]⟩) := ⟨rfl, rfl⟩
