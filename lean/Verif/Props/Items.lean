import Verif.Proofs.Items
import Verif.Props.Tags

/-!
# Properties of commands and queries (C35–C38)
-/

open Py Spec M Client Item

/-- Every inbox has exactly one ending for a command. -/
theorem C35_answer_total (inbox : List InEv) :
    ∃ r rest acts, Answer inbox r rest acts ∧
      ∀ r' rest' acts', Answer inbox r' rest' acts' → r' = r ∧ rest' = rest ∧ acts' = acts := by
  rcases inbox with _ | ⟨m | _, l⟩
  · exact ⟨_, _, _, .nothing, by intro r' rest' acts' h; cases h; simp⟩
  · by_cases h : m = .ack
    · subst h
      refine ⟨_, _, _, .acknowledged l, ?_⟩
      intro r' rest' acts' h'
      cases h' <;> simp_all
    · refine ⟨_, _, _, .refused m l h (by simp), ?_⟩
      intro r' rest' acts' h'
      cases h' <;> simp_all
  · exact ⟨_, _, _, .silent l, by intro r' rest' acts' h; cases h; simp⟩

/-- A command, whatever message it carries. -/
theorem C35_command {cfg : Config} {w : World} (hw : Ready cfg w) (m : Msg) (hm : ∀ t ∈ m.tags, TagText t)
    {r : Except Err Unit} {rest : List InEv} {acts : List CAct} (h : Answer w.inbox r rest acts) :
    command cfg m w = (r, w.after rest (.sent m.str :: acts)) := by
  obtain ⟨h1, h2⟩ := command_run hw.1 hw.2 hm
  generalize hi : w.inbox = inbox at h
  cases h with
  | acknowledged => rw [h1 _ _ hi]; simp
  | refused m' rest hne _ => rw [h1 _ _ hi]; simp [hne]
  | silent rest => rw [h2 (by rw [hi]; simp [Quiet])]; simp [hi]
  | nothing => rw [h2 (by rw [hi]; simp [Quiet])]; simp [hi]

/-- C35, `send_normal_message`: one frame `*WHO*WHAT*WHERE##`, one reply, success exactly on ACK. -/
theorem C35_normal (cfg : Config) (i : Item) (hi : TagText i.wher.string) (what : Str) (hwhat : TagText what)
    (w : World) (hw : Ready cfg w) (r : Except Err Unit) (rest : List InEv) (acts : List CAct)
    (h : Answer w.inbox r rest acts) :
    sendNormal cfg i what w =
      (r, w.after rest (.sent (frame [i.who.code, what, i.wher.string]) :: acts)) := by
  unfold sendNormal normalMessage
  rw [ofStr_ok hwhat, ok_bind]
  change (lift (.ok (i.normalMessageTag ⟨what⟩)) >>= fun m => command cfg m) w = _
  rw [lift_bind_ok, C35_command hw _ (tags_normal hi (by exact hwhat)) h, str_normal]

/-- C35, `send_normal_message` with a `What` object. -/
theorem C35_normal_tag (cfg : Config) (i : Item) (hi : TagText i.wher.string) (what : Tag) (hwhat : TagText what.string)
    (w : World) (hw : Ready cfg w) (r : Except Err Unit) (rest : List InEv) (acts : List CAct)
    (h : Answer w.inbox r rest acts) :
    sendNormalTag cfg i what w =
      (r, w.after rest (.sent (frame [i.who.code, what.string, i.wher.string]) :: acts)) := by
  unfold sendNormalTag
  rw [C35_command hw _ (tags_normal hi hwhat) h, str_normal]

/-- C35, `send_dimension_writing`: one frame `*#WHO*WHERE*#DIM*V₁*…*Vₙ##`. -/
theorem C35_writing (cfg : Config) (i : Item) (hi : TagText i.wher.string) (dim : Str) (hd : TagText dim) (vs : List Tag)
    (hne : vs ≠ []) (hv : ∀ v ∈ vs, TagText v.string)
    (w : World) (hw : Ready cfg w) (r : Except Err Unit) (rest : List InEv) (acts : List CAct)
    (h : Answer w.inbox r rest acts) :
    sendWriting cfg i dim vs w =
      (r, w.after rest (.sent (frame (('#' :: i.who.code) :: i.wher.string :: ('#' :: dim) :: vs.map (·.string))) :: acts)) := by
  unfold sendWriting
  rw [ofStr_ok hd, lift_bind_ok, C35_command hw _ (tags_writing hi (by exact hd) hv) h, str_writing _ _ _ hne]

/-- C35, `send_dimension_writing` without values leaves an empty one: `*#WHO*WHERE*#DIM*##`. -/
theorem C35_writing_empty (cfg : Config) (i : Item) (hi : TagText i.wher.string) (dim : Str) (hd : TagText dim)
    (w : World) (hw : Ready cfg w) (r : Except Err Unit) (rest : List InEv) (acts : List CAct)
    (h : Answer w.inbox r rest acts) :
    sendWriting cfg i dim [] w =
      (r, w.after rest (.sent (frame ['#' :: i.who.code, i.wher.string, '#' :: dim, []]) :: acts)) := by
  unfold sendWriting
  rw [ofStr_ok hd, lift_bind_ok, C35_command hw _ (tags_writing hi (by exact hd) (by simp)) h]
  simp [writingMessage, Msg.str, frame, body, join]

/-- C35: text that is not a tag is refused before anything is sent. -/
theorem C35_bad_text (cfg : Config) (i : Item) (bad : Str) (hb : ¬ TagText bad) (vs : List Tag) (w : World) :
    sendNormal cfg i bad w = (.error (.invalidTag bad), w) ∧
    sendWriting cfg i bad vs w = (.error (.invalidTag bad), w) := by
  rcases C01_tag_str bad with ⟨h, _⟩ | ⟨_, h⟩
  · exact absurd h hb
  · constructor
    · unfold sendNormal normalMessage; rw [h]; rfl
    · unfold sendWriting; rw [h]; rfl

/-- C35: outside a connected command session a command raises `InvalidSession` and sends and reads nothing. -/
theorem C35_no_session (cfg : Config) (m : Msg) (w : World) (h : ¬ Ready cfg w) :
    command cfg m w = (.error .invalidSession, w) := by
  unfold command
  rw [bind_error (send_denied ?_)]
  unfold Ready at h
  by_cases hs : w.started = true
  · exact .inr (by simpa [hs] using h)
  · exact .inl (by simpa using hs)

/-- The hypotheses are met: a light at 12 is switched on, and something else is left in the queue. -/
example (cfg : Config) (h : cfg.session = .command) (net : List (Option (List InEv))) :
    sendNormal cfg ⟨.lighting, ⟨cs!"12"⟩⟩ cs!"1" ⟨net, true, [.msg .ack, .msg .nack], []⟩ =
      (.ok (), ⟨net, true, [.msg .nack], [.sent cs!"*1*1*12##", .got .ack]⟩) := by
  rw [C35_normal cfg _ (by decide +kernel) _ (by decide +kernel) _ ⟨rfl, by simp [h]⟩ _ _ _ (Ending.acknowledged _)]
  rfl

/-! ## C36: status requests -/

/-- C36: a status request writes `*#WHO*WHERE##` and yields the normal messages up to the closing ACK, in order; anything
else that is not an ACK ends it with `ResponseError`, silence with `TimeoutError`; nothing beyond the end is read. -/
theorem C36_status_stream (cfg : Config) (i : Item) (hi : TagText i.wher.string) (w : World) (hw : Ready cfg w)
    (rs : List Msg) (hrs : ∀ m ∈ rs, ∃ wo wa we, m = .normal wo wa we) (tail : List InEv)
    (hin : w.inbox = rs.map .msg ++ tail) (r : Except Err Unit) (rest : List InEv) (acts : List CAct)
    (he : Ending (fun m => ∃ wo wa we, m = .normal wo wa we) tail r rest acts) :
    statusStream cfg i (fun m => .ok [m]) w =
      ((rs, r), w.after rest (.sent (frame ['#' :: i.who.code, i.wher.string]) :: (rs.map .got ++ acts))) := by
  have hk : ∀ m : Msg, m.isNormal = true ↔ ∃ wo wa we, m = .normal wo wa we := by
    intro m; cases m <;> simp [Msg.isNormal]
  unfold statusStream stream
  rw [send_allowed hw.1 hw.2 (tags_status hi)]
  dsimp only
  rw [drain_replies normal_ends rs (rs.map fun m => [m]) _ (by exact hw.1) tail (by exact hin)
    (fun m hm => (hk m).2 (hrs m hm)) (mapM_ok _ _)]
  simp only [← hk] at he
  rw [drain_ending normal_ends (by exact hw.1) (by exact he)]
  simp [str_status, flatten_singles]

/-- C36: outside a connected command session a status request raises `InvalidSession` before it yields anything,
and sends and reads nothing. -/
theorem C36_no_session {β : Type} (cfg : Config) (i : Item) (body : Msg → Except Err (List β)) (w : World)
    (h : ¬ Ready cfg w) : statusStream cfg i body w = (([], .error .invalidSession), w) := by
  unfold statusStream stream
  rw [send_denied ?_]
  unfold Ready at h
  by_cases hs : w.started = true
  · exact .inr (by simpa [hs] using h)
  · exact .inl (by simpa using hs)

/-- The hypothesis is met by an event session that is connected, with a reply in its queue. -/
example (cfg : Config) (h : cfg.session = .event) (m : Msg) :
    ¬ Ready cfg ⟨[], true, [.msg m], []⟩ := by simp [Ready, h]

/-- C36: every inbox is covered by the previous theorem. -/
theorem C36_every_inbox (inbox : List InEv) :
    ∃ (rs : List Msg) (tail : List InEv) (r : Except Err Unit) (rest : List InEv) (acts : List CAct),
      inbox = rs.map .msg ++ tail ∧ (∀ m ∈ rs, ∃ wo wa we, m = .normal wo wa we) ∧
      Ending (fun m => ∃ wo wa we, m = .normal wo wa we) tail r rest acts := by
  have hk : ∀ m : Msg, m.isNormal = true ↔ ∃ wo wa we, m = .normal wo wa we := by
    intro m; cases m <;> simp [Msg.isNormal]
  obtain ⟨rs, tail, r, rest, acts, h1, h2, h3⟩ := split_inbox Msg.isNormal inbox
  exact ⟨rs, tail, r, rest, acts, h1, fun m hm => (hk m).1 (h2 m hm), by simpa only [hk] using h3⟩

/-- The hypotheses are met: two replies, an ACK, and something that is not read. -/
example (cfg : Config) (h : cfg.session = .command) (net : List (Option (List InEv))) :
    statusStream cfg ⟨.lighting, ⟨cs!"0"⟩⟩ (fun m => .ok [m])
      ⟨net, true, [.msg (.normal .lighting ⟨cs!"1"⟩ ⟨cs!"11"⟩), .msg (.normal .lighting ⟨cs!"0"⟩ ⟨cs!"12"⟩),
        .msg .ack, .msg .nack], []⟩ =
      (([.normal .lighting ⟨cs!"1"⟩ ⟨cs!"11"⟩, .normal .lighting ⟨cs!"0"⟩ ⟨cs!"12"⟩], .ok ()),
        ⟨net, true, [.msg .nack], [.sent cs!"*#1*0##", .got (.normal .lighting ⟨cs!"1"⟩ ⟨cs!"11"⟩),
          .got (.normal .lighting ⟨cs!"0"⟩ ⟨cs!"12"⟩), .got .ack]⟩) := by
  rw [C36_status_stream cfg _ (by decide +kernel) _ ⟨rfl, by simp [h]⟩
    [.normal .lighting ⟨cs!"1"⟩ ⟨cs!"11"⟩, .normal .lighting ⟨cs!"0"⟩ ⟨cs!"12"⟩] (by simp) _ rfl _ _ _ (Ending.acknowledged _)]
  rfl

/-- The first `n` values a consumer takes from a generator whose request has been sent. -/
def Item.take (want : Msg → Bool) : Nat → M (List Msg)
  | 0 => return []
  | n + 1 => do
    match ← nextReply want with
    | none => return []
    | some m => return m :: (← Item.take want n)

/-- C36: the generator is lazy.  A consumer that takes `n` of at least `n` replies reads exactly these; the others and
the ACK stay in the queue, for whoever reads next. -/
theorem C36_lazy (want : Msg → Bool) (h : want .ack = false ∧ want .nack = false) (rs : List Msg)
    (hrs : ∀ m ∈ rs, want m = true) (rest : List InEv) (w : World) (hs : w.started = true)
    (hin : w.inbox = rs.map .msg ++ rest) :
    Item.take want rs.length w = (.ok rs, w.after rest (rs.map .got)) := by
  induction rs generalizing w with
  | nil =>
    simp only [List.map_nil, List.nil_append] at hin
    rw [← hin]
    simp [Item.take]
  | cons m rs ih =>
    rcases nextReply_run h hs with ⟨m', rest', h1, h2, h3⟩ | ⟨r', rest', acts', h1, h2⟩
    · rw [hin] at h1
      simp only [List.map_cons, List.cons_append, List.cons.injEq, InEv.msg.injEq] at h1
      obtain ⟨rfl, rfl⟩ := h1
      rw [List.length_cons, Item.take, bind_ok h3]
      dsimp only
      have := ih (fun m hm => hrs m (by simp [hm])) (w.after (rs.map .msg ++ rest) [.got m]) hs rfl
      refine (bind_ok this).trans ?_
      simp
    · rw [hin] at h1
      have hm := hrs m (by simp)
      cases h1 with
      | acknowledged => simp [h.1] at hm
      | refused _ _ _ h' => exact absurd hm h'

/-! ## C37: dimension requests -/

/-- C37: a dimension request writes `*#WHO*WHERE*DIM##` and yields the dimension responses up to the closing ACK. -/
theorem C37_dimension_stream (cfg : Config) (i : Item) (hi : TagText i.wher.string) (dim : Tag) (hd : TagText dim.string)
    (w : World) (hw : Ready cfg w)
    (rs : List Msg) (hrs : ∀ m ∈ rs, ∃ wo we d vs, m = .dimResp wo we d vs) (tail : List InEv)
    (hin : w.inbox = rs.map .msg ++ tail) (r : Except Err Unit) (rest : List InEv) (acts : List CAct)
    (he : Ending (fun m => ∃ wo we d vs, m = .dimResp wo we d vs) tail r rest acts) :
    dimStream cfg i dim (fun m => .ok [m]) w =
      ((rs, r), w.after rest (.sent (frame ['#' :: i.who.code, i.wher.string, dim.string]) :: (rs.map .got ++ acts))) := by
  have hk : ∀ m : Msg, m.isDimResp = true ↔ ∃ wo we d vs, m = .dimResp wo we d vs := by
    intro m; cases m <;> simp [Msg.isDimResp]
  unfold dimStream stream
  rw [send_allowed hw.1 hw.2 (tags_request hi hd)]
  dsimp only
  rw [drain_replies dimResp_ends rs (rs.map fun m => [m]) _ (by exact hw.1) tail (by exact hin)
    (fun m hm => (hk m).2 (hrs m hm)) (mapM_ok _ _)]
  simp only [← hk] at he
  rw [drain_ending dimResp_ends (by exact hw.1) (by exact he)]
  simp [str_request, flatten_singles]

/-- C37: outside a connected command session dimension requests raise `InvalidSession`, and send and read nothing. -/
theorem C37_no_session {β : Type} (cfg : Config) (i : Item) (dim : Tag) (body : Msg → Except Err (List β)) (w : World)
    (h : ¬ Ready cfg w) :
    dimStream cfg i dim body w = (([], .error .invalidSession), w) ∧
      singleDimReq cfg i dim w = (.error .invalidSession, w) := by
  have hd : w.started = false ∨ cfg.session = .event := by
    unfold Ready at h
    by_cases hs : w.started = true
    · exact .inr (by simpa [hs] using h)
    · exact .inl (by simpa using hs)
  have hg : ∀ {γ : Type} (b : Msg → Except Err (List γ)),
      dimStream cfg i dim b w = (([], .error .invalidSession), w) := by
    intro γ b
    unfold dimStream stream
    rw [send_denied hd]
  refine ⟨hg body, ?_⟩
  unfold singleDimReq
  rw [hg]

/-- The hypothesis is met by a command session that was closed. -/
example (cfg : Config) (m : Msg) : ¬ Ready cfg ⟨[], false, [.msg m], [.closed]⟩ := by simp [Ready]

/-- C37: every inbox is covered by the previous theorem. -/
theorem C37_every_inbox (inbox : List InEv) :
    ∃ (rs : List Msg) (tail : List InEv) (r : Except Err Unit) (rest : List InEv) (acts : List CAct),
      inbox = rs.map .msg ++ tail ∧ (∀ m ∈ rs, ∃ wo we d vs, m = .dimResp wo we d vs) ∧
      Ending (fun m => ∃ wo we d vs, m = .dimResp wo we d vs) tail r rest acts := by
  have hk : ∀ m : Msg, m.isDimResp = true ↔ ∃ wo we d vs, m = .dimResp wo we d vs := by
    intro m; cases m <;> simp [Msg.isDimResp]
  obtain ⟨rs, tail, r, rest, acts, h1, h2, h3⟩ := split_inbox Msg.isDimResp inbox
  exact ⟨rs, tail, r, rest, acts, h1, fun m hm => (hk m).1 (h2 m hm), by simpa only [hk] using h3⟩

/-- C37: a single request consumes the whole stream, fails if the stream does, returns the first reply, and raises
`ResponseError` when there was none. -/
theorem C37_single (cfg : Config) (i : Item) (hi : TagText i.wher.string) (dim : Tag) (hd : TagText dim.string)
    (w : World) (hw : Ready cfg w)
    (rs : List Msg) (hrs : ∀ m ∈ rs, ∃ wo we d vs, m = .dimResp wo we d vs) (tail : List InEv)
    (hin : w.inbox = rs.map .msg ++ tail) (r : Except Err Unit) (rest : List InEv) (acts : List CAct)
    (he : Ending (fun m => ∃ wo we d vs, m = .dimResp wo we d vs) tail r rest acts) :
    singleDimReq cfg i dim w =
      (match r, rs with
        | .error e, _ => .error e
        | .ok (), [] => .error .responseError
        | .ok (), m :: _ => .ok m,
       w.after rest (.sent (frame ['#' :: i.who.code, i.wher.string, dim.string]) :: (rs.map .got ++ acts))) := by
  unfold singleDimReq
  rw [C37_dimension_stream cfg i hi dim hd w hw rs hrs tail hin r rest acts he]
  rcases r with e | ⟨⟩
  · rfl
  · cases rs <;> rfl

/-- The hypotheses are met: the second reply is consumed and ignored. -/
example (cfg : Config) (h : cfg.session = .command) (net : List (Option (List InEv))) :
    singleDimReq cfg ⟨.gateway, ⟨[]⟩⟩ ⟨cs!"15"⟩
      ⟨net, true, [.msg (.dimResp .gateway ⟨[]⟩ ⟨cs!"15"⟩ [⟨cs!"2"⟩]), .msg (.dimResp .gateway ⟨[]⟩ ⟨cs!"15"⟩ [⟨cs!"4"⟩]),
        .msg .ack, .msg .nack], []⟩ =
      (.ok (.dimResp .gateway ⟨[]⟩ ⟨cs!"15"⟩ [⟨cs!"2"⟩]),
        ⟨net, true, [.msg .nack], [.sent cs!"*#13**15##", .got (.dimResp .gateway ⟨[]⟩ ⟨cs!"15"⟩ [⟨cs!"2"⟩]),
          .got (.dimResp .gateway ⟨[]⟩ ⟨cs!"15"⟩ [⟨cs!"4"⟩]), .got .ack]⟩) := by
  rw [C37_single cfg _ (by decide +kernel) _ (by decide +kernel) _ ⟨rfl, by simp [h]⟩
    [.dimResp .gateway ⟨[]⟩ ⟨cs!"15"⟩ [⟨cs!"2"⟩], .dimResp .gateway ⟨[]⟩ ⟨cs!"15"⟩ [⟨cs!"4"⟩]] (by simp) _ rfl
    _ _ _ (Ending.acknowledged _)]
  rfl

/-! ## C38: whose answer is it? -/

/-- Commands issued one after the other, each after the previous one ended; exceptions are caught by the user. -/
def Item.commands (cfg : Config) : List Msg → World → List (Except Err Unit) × World
  | [], w => ([], w)
  | m :: ms, w =>
    let (r, w') := command cfg m w
    let (rs, w'') := Item.commands cfg ms w'
    (r :: rs, w'')

namespace Spec

/-- What the gateway does about one command. -/
inductive Verdict where
  /-- it answers in time -/
  | prompt (answer : Msg)
  /-- it answers after the client has given up -/
  | late (answer : Msg)
  /-- it does not answer -/
  | lost

/-- What the client's queue sees of it. -/
def Verdict.arrivals : Verdict → List InEv
  | prompt m => [.msg m]
  | late m => [.silence, .msg m]
  | lost => [.silence]

/-- The gateway acknowledged the command. -/
def Verdict.acknowledged : Verdict → Prop
  | prompt m => m = .ack
  | late m => m = .ack
  | lost => False

def Verdict.inTime : Verdict → Prop
  | late _ => False
  | _ => True

end Spec

/-- C38: a command that reads a late answer to an earlier one takes it as its own.  After a command whose ACK came late,
the next command succeeds whatever the gateway says about it. -/
theorem C38_late_answer_refuted (cfg : Config) (w : World) (hw : Ready cfg w) (a b : Msg)
    (ha : ∀ t ∈ a.tags, TagText t) (hb : ∀ t ∈ b.tags, TagText t) (v : Verdict) (rest : List InEv)
    (hin : w.inbox = (Verdict.late .ack).arrivals ++ v.arrivals ++ rest) :
    (Item.commands cfg [a, b] w).1 = [.error .timeoutError, .ok ()] := by
  simp only [Verdict.arrivals, List.cons_append, List.nil_append] at hin
  simp only [Item.commands]
  rw [C35_command hw a ha (by rw [hin]; exact .silent _)]
  dsimp only
  rw [C35_command (by exact hw) b hb (by exact .acknowledged _)]

/-- A NACK to the second command is reported as success. -/
example (cfg : Config) (h : cfg.session = .command) :
    (Item.commands cfg [.normal .lighting ⟨cs!"1"⟩ ⟨cs!"11"⟩, .normal .lighting ⟨cs!"1"⟩ ⟨cs!"12"⟩]
      ⟨[], true, (Verdict.late .ack).arrivals ++ (Verdict.prompt .nack).arrivals ++ [], []⟩).1 =
      [.error .timeoutError, .ok ()] :=
  C38_late_answer_refuted cfg _ ⟨rfl, by simp [h]⟩ _ _ (by decide +kernel) (by decide +kernel) (.prompt .nack) [] rfl

/-- C38 as far as it holds: if every answer comes in time or not at all, each command succeeds exactly when it was
acknowledged, and it reads exactly its own answer. -/
theorem C38_in_time_partial (cfg : Config) (cmds : List (Msg × Verdict))
    (hc : ∀ c ∈ cmds, (∀ t ∈ c.1.tags, TagText t) ∧ c.2.inTime) (rest : List InEv)
    (w : World) (hw : Ready cfg w) (hin : w.inbox = cmds.flatMap (·.2.arrivals) ++ rest) :
    List.Forall₂ (fun c r => r = .ok () ↔ c.2.acknowledged) cmds (Item.commands cfg (cmds.map (·.1)) w).1 ∧
    (Item.commands cfg (cmds.map (·.1)) w).2.inbox = rest := by
  induction cmds generalizing w with
  | nil => simpa [Item.commands] using hin
  | cons c cs ih =>
    obtain ⟨m, v⟩ := c
    obtain ⟨h1, h2⟩ := hc (m, v) (by simp)
    have key : ∃ r acts, Answer w.inbox r (cs.flatMap (·.2.arrivals) ++ rest) acts ∧ (r = .ok () ↔ v.acknowledged) := by
      rw [hin]
      cases v with
      | late => exact absurd h2 (by simp [Verdict.inTime])
      | lost => exact ⟨_, _, .silent _, by simp [Verdict.acknowledged]⟩
      | prompt a =>
        by_cases ha : a = .ack
        · subst ha; exact ⟨_, _, .acknowledged _, by simp [Verdict.acknowledged]⟩
        · exact ⟨_, _, .refused a _ ha (by simp), by simp [Verdict.acknowledged, ha]⟩
    obtain ⟨r, acts, ha, hr⟩ := key
    simp only [List.map_cons, Item.commands]
    rw [C35_command hw m h1 ha]
    dsimp only
    obtain ⟨h3, h4⟩ := ih (fun c hc' => hc c (by simp [hc']))
      (w.after (cs.flatMap (·.2.arrivals) ++ rest) (.sent m.str :: acts)) hw rfl
    exact ⟨.cons hr h3, h4⟩

/-- C38, what holds in general: the `k`-th command reports what the `k`-th event of the queue says, whomever it was
meant for. -/
theorem C38_positional (cfg : Config) (ms : List Msg) (hm : ∀ m ∈ ms, ∀ t ∈ m.tags, TagText t)
    (w : World) (hw : Ready cfg w) :
    (Item.commands cfg ms w).1 = (List.range ms.length).map (fun k =>
      match w.inbox[k]? with
      | some (.msg m) => if m = .ack then .ok () else .error .responseError
      | some .silence => .error .timeoutError
      | none => .error .timeoutError) := by
  induction ms generalizing w with
  | nil => rfl
  | cons m ms ih =>
    obtain ⟨r, rest, acts, ha, _⟩ := C35_answer_total w.inbox
    simp only [Item.commands, List.length_cons, List.range_succ_eq_map, List.map_cons, List.map_map]
    rw [C35_command hw m (hm m (by simp)) ha]
    dsimp only
    rw [ih (fun m h => hm m (by simp [h])) _ (by exact hw)]
    generalize w.inbox = inbox at *
    cases ha with
    | acknowledged => simp [Function.comp_def]
    | refused m' _ h _ => simp [Function.comp_def, h]
    | silent => simp [Function.comp_def]
    | nothing => simp [Function.comp_def]

/-- The hypotheses are met. -/
example (cfg : Config) (h : cfg.session = .command) :
    (Item.commands cfg [.normal .lighting ⟨cs!"1"⟩ ⟨cs!"11"⟩, .normal .lighting ⟨cs!"1"⟩ ⟨cs!"12"⟩,
        .normal .automation ⟨cs!"0"⟩ ⟨cs!"3"⟩] ⟨[], true, [.msg .nack, .silence, .msg .ack], []⟩).1 =
      [.error .responseError, .error .timeoutError, .ok ()] := by
  rw [C38_positional cfg _ (by decide +kernel) _ ⟨rfl, by simp [h]⟩]
  rfl
