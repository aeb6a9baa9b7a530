import Verif.Props.Items
import Verif.Props.Queries

/-! # Properties of queries that are given up: C84 -/

open Py Spec M Client Item

/-! ## C84: a query and the command after it

The full claim: whatever happens in a query that the gateway answers properly - it is read to its end, left early, or ended by
a reply that cannot be decoded - the next command reports the gateway's answer to that command. -/

/-- C84 is false: `Automation.get_status` raises `ValueError` on a state it does not know and leaves the closing ACK in the
queue; the next command takes that ACK for its own and succeeds, although the gateway refuses it. -/
theorem C84_after_query_refuted (cfg : Config) (hs : cfg.session ≠ .event) :
    ¬ ∀ (i : Item) (rs : List Msg) (m a : Msg) (net : List (Option (List InEv))), TagText i.wher.string →
      (∀ t ∈ m.tags, TagText t) → (∀ r ∈ rs, StatusReply r) →
      (command cfg m (Automation.getStatus cfg i ⟨net, true, rs.map .msg ++ [.msg .ack, .msg a], []⟩).2).1 =
        if a = .ack then .ok () else .error .responseError := by
  intro h
  have hi : TagText (cs!"12") := by decide +kernel
  have h1 := h ⟨.automation, ⟨cs!"12"⟩⟩ [.normal .automation ⟨cs!"10"⟩ ⟨cs!"12"⟩]
    (.normal .automation ⟨cs!"1"⟩ ⟨cs!"12"⟩) .nack [] hi (by decide +kernel) (by simp [StatusReply])
  have hq := ((C68_automation cfg ⟨.automation, ⟨cs!"12"⟩⟩ hi
    ⟨[], true, [.msg (.normal .automation ⟨cs!"10"⟩ ⟨cs!"12"⟩), .msg .ack, .msg .nack], []⟩).2 ⟨rfl, hs⟩ [] _ [] (by simp) rfl
    .nil).2 (.normal .automation ⟨cs!"10"⟩ ⟨cs!"12"⟩) [.msg .ack, .msg .nack] .valueError rfl (by simp [StatusReply])
    (.bad _ _ _ (by decide))
  rw [show ([.normal .automation ⟨cs!"10"⟩ ⟨cs!"12"⟩] : List Msg).map InEv.msg ++ [.msg .ack, .msg .nack] =
    [.msg (.normal .automation ⟨cs!"10"⟩ ⟨cs!"12"⟩), .msg .ack, .msg .nack] from rfl, hq] at h1
  rw [C35_command (by exact ⟨rfl, hs⟩) _ (by decide +kernel) (.acknowledged _)] at h1
  simp at h1

/-- C84, what holds: after a query all of whose replies can be decoded, and which is read to its end, the next command reports
its own answer. -/
theorem C84_after_query_partial {β : Type} (cfg : Config) (query : World → (List β × Except Err Unit) × World) (text : Str)
    (wanted : Msg → Prop) (reads : Msg → Except Err (List β) → Prop) (hq : Spec.Queries cfg query text wanted reads)
    (w : World) (hw : Ready cfg w) (rs : List Msg) (yss : List (List β)) (hrs : ∀ r ∈ rs, wanted r)
    (hy : List.Forall₂ (fun r ys => reads r (.ok ys)) rs yss) (last a : Msg) (rest : List InEv) (hl : ¬ wanted last)
    (hin : w.inbox = rs.map .msg ++ .msg last :: .msg a :: rest) (m : Msg) (hm : ∀ t ∈ m.tags, TagText t) :
    (command cfg m (query w).2).1 = (if a = .ack then .ok () else .error .responseError) ∧
    (command cfg m (query w).2).2.inbox = rest := by
  have key : ∃ r acts, Ending wanted (.msg last :: .msg a :: rest) r (.msg a :: rest) acts := by
    by_cases h : last = .ack
    · subst h; exact ⟨_, _, .acknowledged _⟩
    · exact ⟨_, _, .refused _ _ h hl⟩
  obtain ⟨r, acts, he⟩ := key
  rw [((hq w).2 hw rs _ yss hrs hin hy).1 r _ acts he]
  by_cases h : a = .ack
  · subst h
    rw [C35_command (by exact hw) m hm (.acknowledged _)]
    simp
  · rw [C35_command (by exact hw) m hm (.refused _ _ h (by simp))]
    simp [h]

/-- C84, in general: after a query that raised on a reply it could not decode, the next command reports on whatever message
came after that reply. -/
theorem C84_after_bad_reply {β : Type} (cfg : Config) (query : World → (List β × Except Err Unit) × World) (text : Str)
    (wanted : Msg → Prop) (reads : Msg → Except Err (List β) → Prop) (hq : Spec.Queries cfg query text wanted reads)
    (w : World) (hw : Ready cfg w) (rs : List Msg) (yss : List (List β)) (hrs : ∀ r ∈ rs, wanted r)
    (hy : List.Forall₂ (fun r ys => reads r (.ok ys)) rs yss) (bad x : Msg) (e : Err) (rest : List InEv) (hb : wanted bad)
    (he : reads bad (.error e)) (hin : w.inbox = rs.map .msg ++ .msg bad :: .msg x :: rest) (m : Msg)
    (hm : ∀ t ∈ m.tags, TagText t) :
    (query w).1 = (yss.flatten, .error e) ∧
    (command cfg m (query w).2).1 = (if x = .ack then .ok () else .error .responseError) ∧
    (command cfg m (query w).2).2.inbox = rest := by
  rw [((hq w).2 hw rs _ yss hrs hin hy).2 bad _ e rfl hb he]
  refine ⟨rfl, ?_⟩
  by_cases h : x = .ack
  · subst h
    rw [C35_command (by exact hw) m hm (.acknowledged _)]
    simp
  · rw [C35_command (by exact hw) m hm (.refused _ _ h (by simp))]
    simp [h]

/-- C84: the same for a consumer that leaves the loop after taking some replies: the next command reports on the message after
those.  It succeeds exactly when only the closing ACK was left. -/
theorem C84_after_break (cfg : Config) (want : Msg → Bool) (h : want .ack = false ∧ want .nack = false) (rs : List Msg)
    (hrs : ∀ m ∈ rs, want m = true) (x : Msg) (rest : List InEv) (w : World) (hw : Ready cfg w)
    (hin : w.inbox = rs.map .msg ++ .msg x :: rest) (m : Msg) (hm : ∀ t ∈ m.tags, TagText t) :
    (command cfg m (Item.take want rs.length w).2).1 = (if x = .ack then .ok () else .error .responseError) ∧
    (command cfg m (Item.take want rs.length w).2).2.inbox = rest := by
  rw [C36_lazy want h rs hrs _ w hw.1 hin]
  by_cases h : x = .ack
  · subst h
    rw [C35_command (by exact hw) m hm (.acknowledged _)]
    simp
  · rw [C35_command (by exact hw) m hm (.refused _ _ h (by simp))]
    simp [h]

/-- The hypotheses of `C84_after_query_partial` are met by a light that reports twice. -/
example (cfg : Config) (h : cfg.session = .command) :
    (command cfg (.normal .lighting ⟨cs!"1"⟩ ⟨cs!"12"⟩) (Light.getStatus cfg ⟨.lighting, ⟨cs!"1"⟩⟩
      ⟨[], true, [.msg (.normal .lighting ⟨cs!"1"⟩ ⟨cs!"11"⟩), .msg (.normal .lighting ⟨cs!"0"⟩ ⟨cs!"12"⟩), .msg .ack,
        .msg .nack], []⟩).2).1 = .error .responseError :=
  (C84_after_query_partial cfg _ _ _ _ (C68_light cfg ⟨.lighting, ⟨cs!"1"⟩⟩ (by decide +kernel)) _ ⟨rfl, by simp [h]⟩
    [.normal .lighting ⟨cs!"1"⟩ ⟨cs!"11"⟩, .normal .lighting ⟨cs!"0"⟩ ⟨cs!"12"⟩] _ (by simp [StatusReply])
    (.cons (.on _ _) (.cons (.off _ _) .nil)) .ack .nack [] (by simp [StatusReply]) rfl _ (by decide +kernel)).1

/-- A reader who breaks out after the first of two reports: the next command, acknowledged by the gateway, raises. -/
example (cfg : Config) (h : cfg.session = .command) :
    (command cfg (.normal .lighting ⟨cs!"1"⟩ ⟨cs!"12"⟩) (Item.take Msg.isNormal 1
      ⟨[], true, [.msg (.normal .lighting ⟨cs!"1"⟩ ⟨cs!"11"⟩), .msg (.normal .lighting ⟨cs!"0"⟩ ⟨cs!"12"⟩), .msg .ack,
        .msg .ack], []⟩).2).1 = .error .responseError :=
  (C84_after_break cfg Msg.isNormal ⟨rfl, rfl⟩ [.normal .lighting ⟨cs!"1"⟩ ⟨cs!"11"⟩] (by simp [Msg.isNormal])
    (.normal .lighting ⟨cs!"0"⟩ ⟨cs!"12"⟩) [.msg .ack, .msg .ack] _ ⟨rfl, by simp [h]⟩ rfl _ (by decide +kernel)).1
