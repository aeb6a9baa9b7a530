import Verif.Proofs.Examples

/-! # C103: programs that ask and print -/

open Py Spec Client M Examples Item

/-- C103: when every question is answered, the answers are printed in order and the connection is closed. -/
theorem C103_report (cfg : Config) (hc : cfg.session ≠ .event) (gs : List (M Line)) (w : World) (acts : List CAct)
    (tail rest : List InEv) (net : List (Option (List InEv))) (ho : Opens cfg w acts tail net) (ls : List Line)
    (acts' : List CAct) (ha : Answered cfg gs tail rest ls acts') :
    report cfg gs w = ((ls, .ok ()), conversed w net false [] (acts ++ (acts' ++ [.closed]))) := by
  unfold report
  rw [await_ok (start_opens ho)]
  have h := tell_answered hc ha (more := []) (w := conversed w net true tail acts) rfl rfl
  rw [List.append_nil] at h
  rw [h]
  have h2 : tell [] ((conversed w net true tail acts).after rest acts') = _ := finish_run rfl
  rw [h2]
  simp [conversed, World.after]

/-- C103: a question that goes wrong ends the program with its error: the lines before it are printed, nothing is asked after
it, and the connection is left open. -/
theorem C103_stops (cfg : Config) (hc : cfg.session ≠ .event) (before : List (M Line)) (g : M Line) (later : List (M Line))
    (w : World) (acts : List CAct) (tail : List InEv) (net : List (Option (List InEv))) (ho : Opens cfg w acts tail net)
    (ls : List Line) (acts' : List CAct) (rs : List Msg) (inbox : List InEv)
    (ha : Answered cfg before tail (rs.map .msg ++ inbox) ls acts') (text : Str) (decode : List Tag → Except Err Line)
    (hg : Asks cfg g text decode) (hr : ∀ m ∈ rs, DimReply m) (r : Except Err Unit) (rest : List InEv) (last : List CAct)
    (he : Ending DimReply inbox r rest last) (e : Err)
    (hbad : r = .error e ∨ (r = .ok () ∧ rs = [] ∧ e = .responseError) ∨
      (r = .ok () ∧ ∃ m others, rs = m :: others ∧ decode m.values = .error e)) :
    report cfg (before ++ g :: later) w =
      ((ls, .error e), conversed w net true rest (acts ++ (acts' ++ .sent text :: (rs.map .got ++ last)))) := by
  unfold report
  rw [await_ok (start_opens ho)]
  have h := tell_answered hc ha (more := g :: later) (w := conversed w net true tail acts) rfl rfl
  have h1 := (hg ((conversed w net true tail acts).after (rs.map .msg ++ inbox) acts')).2 ⟨rfl, hc⟩ rs inbox r rest last hr rfl he
  have h2 : g ((conversed w net true tail acts).after (rs.map .msg ++ inbox) acts') = (.error e,
      ((conversed w net true tail acts).after (rs.map .msg ++ inbox) acts').after rest (.sent text :: (rs.map .got ++ last))) := by
    rw [h1]
    rcases hbad with rfl | ⟨rfl, rfl, rfl⟩ | ⟨rfl, m, others, rfl, hd⟩
    · rfl
    · rfl
    · dsimp only
      rw [hd]
  have h3 : tell (g :: later) _ = _ := await_error h2
  rw [h, h3]
  simp [conversed, World.after]

/-- C103: if the session does not open, the program ends as `start` does. -/
theorem C103_not_open (cfg : Config) (gs : List (M Line)) (w : World) (e : Err) (h : (start cfg w).1 = .error e) :
    report cfg gs w = (([], .error e), (start cfg w).2) := by
  generalize hs : start cfg w = s at h
  obtain ⟨r, w'⟩ := s
  have : r = .error e := h
  subst this
  exact await_error hs

/-- C103: the program `gateway_01` asks for the address, the model, the date and time and the kernel, in this order. -/
theorem C103_gateway (cfg : Config) : ∃ gs, gateway01 cfg = report cfg gs ∧
    List.Forall₂ (fun g (q : Str × (List Tag → Except Err Line)) => Asks cfg g q.1 q.2) gs
      [(cs!"*#13**10##", fun vs => (Gateway.dotted vs >>= ipv4).map .ip),
       (cs!"*#13**15##", fun vs => ((Gateway.valueAt vs 0).map GatewayModel.ofStr).map .model),
       (cs!"*#13**22##", fun vs => (Gateway.decodeDateTime vs).map .datetime),
       (cs!"*#13**23##", fun vs => (Gateway.decodeVersion vs).map .version)] := by
  refine ⟨[do let a ← Gateway.getIp cfg none; return .ip a, do let a ← Gateway.getModel cfg none; return .model a,
    do let a ← Gateway.getDateTime cfg none; return .datetime a, do let a ← Gateway.getKernelVersion cfg none; return .version a],
    ?_, ?_⟩
  · unfold gateway01 report
    congr 1
    funext _
    refine (await_print _ _ _).trans ?_
    unfold tell
    congr 1
    funext l
    congr 1
    refine (await_print _ _ _).trans ?_
    unfold tell
    congr 1
    funext l
    congr 1
    refine (await_print _ _ _).trans ?_
    unfold tell
    congr 1
    funext l
    congr 1
    exact await_print _ _ _
  · exact .cons (asks_map (reads_asks (C58_getters cfg).1) _) (.cons (asks_map (reads_asks (C60_get_model cfg).1) _)
      (.cons (asks_map (reads_asks (C57_get_datetime cfg)) _)
      (.cons (asks_map (reads_asks (C61_getters cfg).2.2.1) _) .nil)))

/-- C103: the program `energy_management_01` asks the meter at 51 for its active power. -/
theorem C103_meter (cfg : Config) : ∃ g, energyManagement01 cfg = report cfg [g] ∧
    Asks cfg g cs!"*#18*51*113##" (fun vs => (EnergyManagement.decodeFloat vs).map .power) := by
  refine ⟨do let a ← EnergyManagement.getActivePower cfg ⟨.energyManagement, ⟨cs!"51"⟩⟩; return .power a, ?_, ?_⟩
  · unfold energyManagement01 report tell
    have : Construct.new .energyManagement (.text cs!"51") none = .ok ⟨.energyManagement, ⟨cs!"51"⟩⟩ := by decide +kernel
    rw [this]
    have e : ∀ (i : Item) (k : Item → Gen Line), await (lift (.ok i)) k = k i := fun i k => rfl
    congr 1
    funext _
    rw [e]
    exact await_print _ _ _
  · exact asks_map (C73_getters cfg ⟨.energyManagement, ⟨cs!"51"⟩⟩ (by decide +kernel)).1 _

/-- C103: the program `light_01` switches the light on and prints a line for every reply ON or OFF; it closes the connection
exactly when the stream of replies ends with an ACK. -/
theorem C103_light (cfg : Config) (hc : cfg.session ≠ .event) (w : World) (acts : List CAct) (good : List Msg)
    (tail : List InEv) (net : List (Option (List InEv)))
    (ho : Opens cfg w acts (.msg .ack :: (good.map .msg ++ tail)) net) (hg : ∀ m ∈ good, StatusReply m)
    (yss : List (List (Tag × Bool))) (hy : List.Forall₂ (fun m ys => LightReply m (.ok ys)) good yss)
    (r : Except Err Unit) (rest : List InEv) (last : List CAct) (he : Ending StatusReply tail r rest last) :
    light01 cfg w = ((yss.flatten.map fun p => .light p.1.string p.2, r),
      match r with
      | .ok () => conversed w net false []
          (acts ++ [.sent cs!"*1*11*32##", .got .ack, .sent cs!"*#1*32##"] ++ good.map .got ++ last ++ [.closed])
      | .error _ => conversed w net true rest
          (acts ++ [.sent cs!"*1*11*32##", .got .ack, .sent cs!"*#1*32##"] ++ good.map .got ++ last)) := by
  have ht : TagText (cs!"32") := by decide +kernel
  obtain ⟨_, e1, c1⟩ := C39_command_table_partial cfg .baseTurnOn1Min (by simp) ⟨cs!"32"⟩ ht
  cases e1
  unfold light01
  rw [await_ok (start_opens ho)]
  have h1 := (c1 (conversed w net true (.msg .ack :: (good.map .msg ++ tail)) acts)).1 ⟨rfl, hc⟩ _ _ _ (.acknowledged _)
  have h1' : BaseLight.turnOn1Min cfg ⟨.lighting, ⟨cs!"32"⟩⟩ (conversed w net true (.msg .ack :: (good.map .msg ++ tail)) acts) = _ := h1
  rw [await_ok h1']
  have h2 := ((C68_light cfg ⟨.lighting, ⟨cs!"32"⟩⟩ ht
    ((conversed w net true (.msg .ack :: (good.map .msg ++ tail)) acts).after (good.map .msg ++ tail)
      (.sent (frame [cs!"1", cs!"11", cs!"32"]) :: [.got .ack]))).2 ⟨rfl, hc⟩ good tail yss hg rfl hy).1 r rest last he
  unfold forEach
  have h2' := h2
  dsimp only at h2'
  rw [h2']
  rcases r with e | ⟨⟩
  · dsimp only
    congr 1
    simp [conversed, World.after]
    exact ⟨rfl, rfl⟩
  · dsimp only
    rw [finish_run (by rfl)]
    simp [conversed, World.after]
    exact ⟨rfl, rfl⟩

/-- The request of `custom_message_01`. -/
theorem custom1_sent {cfg : Config} (hc : cfg.session ≠ .event) {w : World} (hw : w.started = true) :
    sendMessage cfg (.dimReq .gateway ⟨[]⟩ ⟨cs!"10"⟩) false w = (.ok (), w.after w.inbox [.sent cs!"*#13**10##"]) :=
  send_allowed hw hc (by simp [Msg.tags]; decide +kernel)

/-- C103: the program `custom_message_01` prints the last four tags of a reply that is followed by an ACK. -/
theorem C103_custom1 (cfg : Config) (hc : cfg.session ≠ .event) (w : World) (acts : List CAct) (m : Msg) (rest : List InEv)
    (net : List (Option (List InEv))) (ho : Opens cfg w acts (.msg m :: .msg .ack :: rest) net) (hm : m ≠ .nack)
    (pre : List Str) (a b c d : Str) (ht : m.tags = pre ++ [a, b, c, d]) :
    customMessage01 cfg w = (([.address a b c d], .ok ()),
      conversed w net false [] (acts ++ [.sent cs!"*#13**10##", .got m, .got .ack, .closed])) := by
  unfold customMessage01
  rw [await_ok (start_opens ho), await_ok (custom1_sent hc (by rfl)), await_ok (orTimeout_msg (by rfl) (by rfl))]
  dsimp only
  rw [if_neg (by rw [pyEq_nack]; exact hm), await_ok (orTimeout_msg (by rfl) (by rfl))]
  dsimp only
  rw [if_pos ((pyEq_ack _).2 rfl), ht, lastFour_ok]
  rw [await_ok (x := lift (.ok _)) (lift_apply _ _), print_run (finish_run (by rfl))]
  simp [conversed, World.after]

/-- C103: a reply of fewer than four tags, followed by an ACK, makes it raise `IndexError` and leave the connection open. -/
theorem C103_custom1_short (cfg : Config) (hc : cfg.session ≠ .event) (w : World) (acts : List CAct) (m : Msg)
    (rest : List InEv) (net : List (Option (List InEv))) (ho : Opens cfg w acts (.msg m :: .msg .ack :: rest) net)
    (hm : m ≠ .nack) (ht : m.tags.length < 4) :
    customMessage01 cfg w = (([], .error .indexError),
      conversed w net true rest (acts ++ [.sent cs!"*#13**10##", .got m, .got .ack])) := by
  unfold customMessage01
  rw [await_ok (start_opens ho), await_ok (custom1_sent hc (by rfl)), await_ok (orTimeout_msg (by rfl) (by rfl))]
  dsimp only
  rw [if_neg (by rw [pyEq_nack]; exact hm), await_ok (orTimeout_msg (by rfl) (by rfl))]
  dsimp only
  rw [if_pos ((pyEq_ack _).2 rfl), lastFour_short _ ht]
  rw [await_error (x := lift (.error _)) (lift_apply _ _)]
  simp [conversed, World.after]

/-- C103: otherwise it prints nothing and closes the connection. -/
theorem C103_custom1_quiet (cfg : Config) (hc : cfg.session ≠ .event) (w : World) (acts : List CAct) (tail : List InEv)
    (net : List (Option (List InEv))) (ho : Opens cfg w acts tail net) (ms : List Msg) (hg : GivesUp tail ms) :
    customMessage01 cfg w = (([], .ok ()),
      conversed w net false [] (acts ++ .sent cs!"*#13**10##" :: (ms.map .got ++ [.closed]))) := by
  unfold customMessage01
  rw [await_ok (start_opens ho), await_ok (custom1_sent hc (by rfl))]
  cases hg with
  | nothing =>
    rw [await_ok (orTimeout_quiet (by rfl) (.inl rfl))]
    dsimp only
    rw [finish_run (by rfl)]
    simp [conversed, World.after]
  | silent rest =>
    rw [await_ok (orTimeout_quiet (by rfl) (.inr ⟨rest, rfl⟩))]
    dsimp only
    rw [finish_run (by rfl)]
    simp [conversed, World.after]
  | refused rest =>
    rw [await_ok (orTimeout_msg (by rfl) (by rfl))]
    dsimp only
    rw [if_pos ((pyEq_nack _).2 rfl), finish_run (by rfl)]
    simp [conversed, World.after]
  | alone m hm =>
    rw [await_ok (orTimeout_msg (by rfl) (by rfl))]
    dsimp only
    rw [if_neg (by rw [pyEq_nack]; exact hm), await_ok (orTimeout_quiet (by rfl) (.inl rfl))]
    dsimp only
    rw [finish_run (by rfl)]
    simp [conversed, World.after]
  | unfinished m rest hm =>
    rw [await_ok (orTimeout_msg (by rfl) (by rfl))]
    dsimp only
    rw [if_neg (by rw [pyEq_nack]; exact hm), await_ok (orTimeout_quiet (by rfl) (.inr ⟨rest, rfl⟩))]
    dsimp only
    rw [finish_run (by rfl)]
    simp [conversed, World.after]
  | other m s rest hm hs =>
    rw [await_ok (orTimeout_msg (by rfl) (by rfl))]
    dsimp only
    rw [if_neg (by rw [pyEq_nack]; exact hm), await_ok (orTimeout_msg (by rfl) (by rfl))]
    dsimp only
    rw [if_neg (by rw [pyEq_ack]; exact hs), finish_run (by rfl)]
    simp [conversed, World.after]

/-- C103: these are all the replies there can be. -/
theorem C103_custom1_cases (tail : List InEv) :
    (∃ m rest, tail = .msg m :: .msg .ack :: rest ∧ m ≠ .nack ∧
      ((∃ pre a b c d, m.tags = pre ++ [a, b, c, d]) ∨ m.tags.length < 4)) ∨ ∃ ms, GivesUp tail ms := by
  rcases tail with _ | ⟨m | _, t⟩
  · exact .inr ⟨_, .nothing⟩
  · by_cases hm : m = .nack
    · subst hm; exact .inr ⟨_, .refused _⟩
    · rcases t with _ | ⟨s | _, t⟩
      · exact .inr ⟨_, .alone m hm⟩
      · by_cases hs : s = .ack
        · subst hs
          refine .inl ⟨m, t, rfl, hm, ?_⟩
          by_cases hl : m.tags.length < 4
          · exact .inr hl
          · left
            have hd : (m.tags.drop (m.tags.length - 4)).length = 4 := by simp; omega
            match hx : m.tags.drop (m.tags.length - 4), hd with
            | [a, b, c, d], _ => exact ⟨m.tags.take (m.tags.length - 4), a, b, c, d, by rw [← hx, List.take_append_drop]⟩
        · exact .inr ⟨_, .other m s t hm hs⟩
      · exact .inr ⟨_, .unfinished m t hm⟩
  · exact .inr ⟨_, .silent _⟩

/-- C103: what it prints is the address when the reply is a response with four values, as documented. -/
theorem C103_custom1_address (cfg : Config) (hc : cfg.session ≠ .event) (w : World) (acts : List CAct) (wo : Who) (we dim : Tag)
    (a b c d : Tag) (rest : List InEv) (net : List (Option (List InEv)))
    (ho : Opens cfg w acts (.msg (.dimResp wo we dim [a, b, c, d]) :: .msg .ack :: rest) net) :
    (customMessage01 cfg w).1 = ([.address a.string b.string c.string d.string], .ok ()) := by
  rw [C103_custom1 cfg hc w acts _ rest net ho (by simp) [wo.code, we.string, dim.string] a.string b.string c.string
    d.string (by simp [Msg.tags])]

/-- The request of `custom_message_02`. -/
theorem custom2_sent {cfg : Config} (hc : cfg.session ≠ .event) {w : World} (hw : w.started = true) :
    sendMessage cfg (.dimReq .energyManagement ⟨cs!"52"⟩ ⟨cs!"511#10#7"⟩) false w =
      (.ok (), w.after w.inbox [.sent cs!"*#18*52*511#10#7##"]) :=
  send_allowed hw hc (by simp [Msg.tags]; decide +kernel)

/-- C103: the program `custom_message_02` shows month, day, number and value of every response up to an ACK or silence, passes
over the other messages, also a NACK, and closes the connection. -/
theorem C103_custom2 (cfg : Config) (hc : cfg.session ≠ .event) (w : World) (acts : List CAct) (ms : List Msg)
    (tail : List InEv) (net : List (Option (List InEv))) (ho : Opens cfg w acts (ms.map .msg ++ tail) net)
    (lss : List (List Line)) (hs : List.Forall₂ Shown ms lss) (rest : List InEv) (last : List CAct)
    (he : Ceases tail rest last) :
    customMessage02 cfg w = ((lss.flatten, .ok ()),
      conversed w net false [] (acts ++ .sent cs!"*#18*52*511#10#7##" :: (ms.map .got ++ last ++ [.closed]))) := by
  unfold customMessage02
  rw [await_ok (start_opens ho), await_ok (custom2_sent hc (by rfl))]
  unfold forEach
  rw [measures_run hs (by rfl) (tail := tail) (by rfl), measures_ceases (by rfl) (by exact he)]
  dsimp only
  rw [finish_run (by rfl)]
  simp [conversed, World.after]

/-- C103: a response without month and day, or with fewer than two values, makes it raise `IndexError` and leave the connection
open. -/
theorem C103_custom2_bad (cfg : Config) (hc : cfg.session ≠ .event) (w : World) (acts : List CAct) (ms : List Msg)
    (wo : Who) (we d : Tag) (vs : List Tag) (rest : List InEv) (net : List (Option (List InEv)))
    (ho : Opens cfg w acts (ms.map .msg ++ .msg (.dimResp wo we d vs) :: rest) net)
    (lss : List (List Line)) (hs : List.Forall₂ Shown ms lss)
    (hbad : ∀ month day tag value, ¬ Measure d vs month day tag value) :
    customMessage02 cfg w = ((lss.flatten, .error .indexError),
      conversed w net true rest (acts ++ .sent cs!"*#18*52*511#10#7##" :: (ms.map .got ++ [.got (.dimResp wo we d vs)]))) := by
  unfold customMessage02
  rw [await_ok (start_opens ho), await_ok (custom2_sent hc (by rfl))]
  unfold forEach
  rw [measures_run hs (by rfl) (tail := .msg (.dimResp wo we d vs) :: rest) (by rfl), measures_bad (by rfl) hbad (by rfl)]
  simp [conversed, World.after]

/-- C103: these are all the replies there can be. -/
theorem C103_custom2_cases (tail : List InEv) : ∃ ms t lss, tail = ms.map .msg ++ t ∧ List.Forall₂ Shown ms lss ∧
    ((∃ rest last, Ceases t rest last) ∨ ∃ wo we d vs rest, t = .msg (.dimResp wo we d vs) :: rest ∧
      ∀ month day tag value, ¬ Measure d vs month day tag value) := by
  induction tail with
  | nil => exact ⟨[], [], [], rfl, .nil, .inl ⟨_, _, .nothing⟩⟩
  | cons x t ih =>
    obtain ⟨ms, t', lss, h1, h2, h3⟩ := ih
    cases x with
    | silence => exact ⟨[], _, [], rfl, .nil, .inl ⟨_, _, .silent _⟩⟩
    | msg m =>
      by_cases ha : m = .ack
      · subst ha; exact ⟨[], _, [], rfl, .nil, .inl ⟨_, _, .acknowledged _⟩⟩
      · by_cases hd : DimReply m
        · obtain ⟨wo, we, d, vs, rfl⟩ := hd
          by_cases hb : ∃ month day tag value, Measure d vs month day tag value
          · obtain ⟨month, day, tag, value, hb⟩ := hb
            exact ⟨_ :: ms, t', _ :: lss, by rw [h1]; rfl, .cons (.measure wo we d vs _ _ _ _ hb) h2, h3⟩
          · exact ⟨[], _, [], rfl, .nil, .inr ⟨wo, we, d, vs, t, rfl, fun a b c e h => hb ⟨a, b, c, e, h⟩⟩⟩
        · exact ⟨m :: ms, t', [] :: lss, by rw [h1]; rfl, .cons (.other m ha hd) h2, h3⟩

/-- The hypotheses are met: a gateway that tells two answers and refuses the third. -/
example (cfg : Config) (h : cfg.session = .command) (w : World) (hw : w = ⟨[some ([.ack, .ack,
      .dimResp .gateway ⟨[]⟩ ⟨cs!"10"⟩ [⟨cs!"192"⟩, ⟨cs!"168"⟩, ⟨cs!"1"⟩, ⟨cs!"35"⟩], .ack,
      .dimResp .gateway ⟨[]⟩ ⟨cs!"15"⟩ [⟨cs!"200"⟩], .ack, .nack].map .msg)], false, [], []⟩) :
    (gateway01 cfg w).1 = ([.ip 3232235811, .model .mh202], .error .responseError) ∧
    (gateway01 cfg w).2.started = true := by
  obtain ⟨gs, h1, h2⟩ := C103_gateway cfg
  rw [h1]
  rcases h2 with _ | @⟨g1, _, gs, _, a, _ | @⟨g2, _, gs, _, b, _ | @⟨g3, _, gs, _, c, h2⟩⟩⟩
  have := C103_stops cfg (by rw [h]; decide) [g1, g2] g3 gs w [.got .ack, .sent (frame [cs!"99", cfg.session.value]), .got .ack] _ []
    ⟨[.ack, .ack], by rw [hw]; rfl, .free⟩ _ _ [] [.msg .nack]
    (.cons (others := []) (l := .ip 3232235811) a (by simp [DimReply]) (by decide +kernel)
      (.cons (others := []) (l := .model .mh202) b (by simp [DimReply]) (by decide +kernel) (.nil _))) _ _ c (by simp) _ _ _
    (.refused .nack [] (by decide) (by simp [DimReply])) _ (.inl rfl)
  have e : g1 :: g2 :: g3 :: gs = [g1, g2] ++ g3 :: gs := rfl
  rw [e, this]
  exact ⟨rfl, rfl⟩

/-- The hypotheses are met: a light that reports itself on. -/
example (cfg : Config) (h : cfg.session = .command) :
    (light01 cfg ⟨[some ([.ack, .ack, .ack, .normal .lighting ⟨cs!"1"⟩ ⟨cs!"32"⟩, .ack].map .msg)], false, [], []⟩).1 =
      ([.light cs!"32" true], .ok ()) := by
  rw [C103_light cfg (by rw [h]; decide) _ [.got .ack, .sent (frame [cs!"99", cfg.session.value]), .got .ack]
    [.normal .lighting ⟨cs!"1"⟩ ⟨cs!"32"⟩] [.msg .ack] [] ⟨[.ack, .ack], rfl, .free⟩ (by simp [StatusReply])
    [[(⟨cs!"32"⟩, true)]] (.cons (.on _ _) .nil) (.ok ()) [] _ (.acknowledged _)]
  rfl

/-- The hypotheses are met: two measures, a NACK between them, and silence. -/
example (cfg : Config) (h : cfg.session = .command) :
    (customMessage02 cfg ⟨[some ([.msg .ack, .msg .ack, .msg (.dimResp .energyManagement ⟨cs!"52"⟩ ⟨cs!"511#10#7"⟩ [⟨cs!"1"⟩, ⟨cs!"125"⟩]),
      .msg .nack, .msg (.dimResp .energyManagement ⟨cs!"52"⟩ ⟨cs!"511#10#7"⟩ [⟨cs!"2"⟩, ⟨cs!"99"⟩]), .silence])], false, [], []⟩).1 =
      ([.measure cs!"10" cs!"7" cs!"1" cs!"125", .measure cs!"10" cs!"7" cs!"2" cs!"99"], .ok ()) := by
  have hm : ∀ t v : Tag, Measure ⟨cs!"511#10#7"⟩ [t, v] cs!"10" cs!"7" t.string v.string := fun t v =>
    .mk cs!"511" cs!"10" cs!"7" [] t v [] (by decide) (by decide) (by decide) (.inl rfl)
  rw [C103_custom2 cfg (by rw [h]; decide) _ [.got .ack, .sent (frame [cs!"99", cfg.session.value]), .got .ack]
    [.dimResp .energyManagement ⟨cs!"52"⟩ ⟨cs!"511#10#7"⟩ [⟨cs!"1"⟩, ⟨cs!"125"⟩], .nack,
      .dimResp .energyManagement ⟨cs!"52"⟩ ⟨cs!"511#10#7"⟩ [⟨cs!"2"⟩, ⟨cs!"99"⟩]] [.silence] []
    ⟨[.ack, .ack], rfl, .free⟩ _ (.cons (.measure _ _ _ _ _ _ _ _ (hm _ _)) (.cons (.other _ (by decide) (by simp [DimReply]))
      (.cons (.measure _ _ _ _ _ _ _ _ (hm _ _)) .nil))) [] [] (.silent [])]
  rfl

/-- The hypotheses are met: a gateway that tells its address. -/
example (cfg : Config) (h : cfg.session = .command) :
    (customMessage01 cfg ⟨[some ([.ack, .ack, .dimResp .gateway ⟨[]⟩ ⟨cs!"10"⟩ [⟨cs!"192"⟩, ⟨cs!"168"⟩, ⟨cs!"1"⟩, ⟨cs!"35"⟩],
      .ack].map .msg)], false, [], []⟩).1 = ([.address cs!"192" cs!"168" cs!"1" cs!"35"], .ok ()) :=
  C103_custom1_address cfg (by rw [h]; decide) _ [.got .ack, .sent (frame [cs!"99", cfg.session.value]), .got .ack] _ _ _ _ _ _ _
    [] [] ⟨[.ack, .ack], rfl, .free⟩

/-- The hypotheses are met: a meter that reports 1250 W in two responses. -/
example (cfg : Config) (h : cfg.session = .command) :
    (energyManagement01 cfg ⟨[some ([.ack, .ack, .dimResp .energyManagement ⟨cs!"51"⟩ ⟨cs!"113"⟩ [⟨cs!"1250"⟩],
      .dimResp .energyManagement ⟨cs!"51"⟩ ⟨cs!"113"⟩ [⟨cs!"7"⟩], .ack].map .msg)], false, [], []⟩).1 =
      ([.power (.nat 1250)], .ok ()) := by
  obtain ⟨g, h1, h2⟩ := C103_meter cfg
  rw [h1, C103_report cfg (by rw [h]; decide) [g] _ [.got .ack, .sent (frame [cs!"99", cfg.session.value]), .got .ack] _ [] []
    ⟨[.ack, .ack], rfl, .free⟩ [.power (.nat 1250)] _
    (.cons (others := [.dimResp .energyManagement ⟨cs!"51"⟩ ⟨cs!"113"⟩ [⟨cs!"7"⟩]]) h2 (by simp [DimReply]) (by decide +kernel) (.nil []))]
