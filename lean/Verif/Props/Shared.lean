import Verif.Props.House
import Verif.Spec.Shared

/-!
# Programs that share a house (C136)
-/

open Py Spec M Client Item Spec.House

namespace Spec.House

/-- The same devices, in whatever state. -/
def Similar (h h' : House) : Prop := h'.reach = h.reach ∧ h'.lamps = h.lamps ∧ h'.shutters = h.shutters ∧ h'.dimmer = h.dimmer

theorem Similar.fits {h h' : House} (hs : Similar h h') {d : Deed} (hd : d.Fits h) : d.Fits h' := by
  obtain ⟨e1, e2, e3, e4⟩ := hs
  cases d with
  | order c t => exact hd
  | light t => unfold Deed.Fits lampsAt at *; rw [e1, e2, e4]; exact hd
  | dimmer t => unfold Deed.Fits lampsAt at *; rw [e1, e2, e4]; exact hd
  | automation t => exact hd

theorem hears_keeps {h h' : House} {text : Str} {more : List Str} (hs : h.Sound) (hh : h.Hears text h' more) :
    h'.Sound ∧ Similar h h' ∧ more ≠ [] := by
  cases hh with
  | order hw ha ht =>
    obtain ⟨e1, e2, e3, e4⟩ := does_fields h ‹_› ‹_›
    exact ⟨sound_does hs hw _, ⟨e1, e2, e3, e4⟩, by simp⟩
  | lamps ha => exact ⟨hs, ⟨rfl, rfl, rfl, rfl⟩, by simp⟩
  | shutters ha => exact ⟨hs, ⟨rfl, rfl, rfl, rfl⟩, by simp⟩

theorem Similar.trans {a b c : House} (h : Similar a b) (k : Similar b c) : Similar a c :=
  ⟨k.1.trans h.1, k.2.1.trans h.2.1, k.2.2.1.trans h.2.2.1, k.2.2.2.trans h.2.2.2⟩

end Spec.House

/-- A frame carried out in a house like `h`. -/
def Spec.Handled.Good (h : House) (g : Handled) : Prop :=
  g.before.Sound ∧ Similar h g.before ∧ g.before.Hears g.text g.after g.replies

theorem chain_good {h0 h : House} (hs : h.Sound) (hm : Similar h0 h) {G : List Handled} (hc : Chain h G) : ∀ g ∈ G, g.Good h0 := by
  induction G generalizing h with
  | nil => simp
  | cons g G ih =>
    obtain ⟨rfl, h1, h2⟩ := hc
    obtain ⟨k1, k2, _⟩ := hears_keeps hs h1
    intro x hx
    rcases List.mem_cons.1 hx with rfl | hx
    · exact ⟨hs, hm, h1⟩
    · exact ih k1 (hm.trans k2) h2 x hx

theorem plan_mono (cfg : Config) (h : House) (hs : h.Sound) (p : Plan) (w : World) (hr : Ready cfg w)
    (hf : ∀ x ∈ (p.run cfg w).1, x.1.Fits h) : ∃ acts, (p.run cfg w).2.trace = w.trace ++ acts := by
  induction p generalizing w with
  | stop => exact ⟨[], by simp [Plan.run]⟩
  | call d next ih =>
    simp only [Plan.run] at hf ⊢
    obtain ⟨text, more, _, rest, acts, e1, _, _⟩ := call_step cfg h hs d (hf (d, (d.run cfg w).1) List.mem_cons_self) w hr
    obtain ⟨acts', e⟩ := ih (d.run cfg w).1 (d.run cfg w).2 (by rw [e1]; exact hr) (fun x hx => hf x (List.mem_cons_of_mem _ hx))
    refine ⟨.sent text :: acts ++ acts', ?_⟩
    rw [e, e1]
    simp [World.after]

/-- One client of a house in which others are at work. -/
theorem plan_served (cfg : Config) (h : House) (hs : h.Sound) (p : Plan) (w : World) (hr : Ready cfg w) (G : List Handled)
    (hG : ∀ g ∈ G, g.Good h) (acts : List CAct) (ht : (p.run cfg w).2.trace = w.trace ++ acts) (hserve : ServedBy G acts)
    (hf : ∀ x ∈ (p.run cfg w).1, x.1.Fits h) (hin : ∀ x ∈ (p.run cfg w).1, ¬ x.2.late) :
    List.Forall₂ (fun x g => x.2 = x.1.expected g.before ∧ g.after = x.1.effect g.before) (p.run cfg w).1 G := by
  induction p generalizing w G acts with
  | stop =>
    simp only [Plan.run] at ht ⊢
    have : acts = [] := by simpa using ht.symm
    subst this
    have := hserve.1
    simp only [written, List.prefix_nil, List.map_eq_nil_iff] at this
    subst this
    exact .nil
  | call d next ih =>
    simp only [Plan.run] at ht hf hin ⊢
    have hfd : d.Fits h := hf (d, (d.run cfg w).1) List.mem_cons_self
    have hlate := hin (d, (d.run cfg w).1) (by simp)
    obtain ⟨text, more, hh, rest, acts1, e1, e2, e3⟩ := call_step cfg h hs d hfd w hr
    have hr' : Ready cfg (d.run cfg w).2 := by rw [e1]; exact hr
    obtain ⟨acts2, m⟩ := plan_mono cfg h hs (next (d.run cfg w).1) (d.run cfg w).2 hr' (fun x hx => hf x (List.mem_cons_of_mem _ hx))
    have hacts : acts = .sent text :: acts1 ++ acts2 := by
      rw [m, e1] at ht
      simpa [World.after] using ht.symm
    subst hacts
    have hw1 : written (CAct.sent text :: acts1) = [text] := by simp [written, e2]
    obtain ⟨said, l1, l2⟩ := hserve.2 (.sent text :: acts1) (List.prefix_append _ _)
    rw [hw1] at l1
    cases G with
    | nil =>
      simp only [List.take_nil, List.map_nil, List.flatten_nil, List.prefix_nil] at l1
      subst l1
      have := (e3 [] List.nil_prefix (by simpa [gotten] using l2) hlate).2
      have hg : gotten acts1 = [] := by simpa [gotten] using l2
      rw [hg] at this
      exact absurd (List.forall₂_nil_right_iff.1 this) (hears_keeps hs hh).2.2
    | cons g G =>
      obtain ⟨gs, gm, gh⟩ := hG g (by simp)
      obtain ⟨text', more', hh', rest', acts1', e1', e2', e3'⟩ := call_step cfg g.before gs d (gm.fits hfd) w hr
      have heq : CAct.sent text' :: acts1' = .sent text :: acts1 := by
        have := e1'.symm.trans e1
        have := congrArg World.trace this
        simpa [World.after] using this
      obtain ⟨rfl, rfl⟩ : text' = text ∧ acts1' = acts1 := by
        injection heq with a b
        injection a with a
        exact ⟨a, b⟩
      have htext : g.text = text' := by
        have := hserve.1
        rw [written_append, hw1] at this
        simp only [List.map_cons, List.cons_append, List.nil_append, List.cons_prefix_cons] at this
        exact this.1
      rw [htext] at gh
      obtain ⟨q1, q2⟩ := hears_unique hh' gh
      have l1 : said <+: g.replies := by simpa using l1
      rw [← q2] at l1
      obtain ⟨r1, r2⟩ := e3' said l1 (by simpa [gotten] using l2) hlate
      refine .cons ⟨r1, q1.symm⟩ ?_
      refine ih (d.run cfg w).1 (d.run cfg w).2 hr' G (fun x hx => hG x (List.mem_cons_of_mem _ hx)) acts2 m ⟨?_, ?_⟩
        (fun x hx => hf x (List.mem_cons_of_mem _ hx)) (fun x hx => hin x (List.mem_cons_of_mem _ hx))
      · have := hserve.1
        rw [written_append, hw1] at this
        simp only [List.map_cons, List.cons_append, List.nil_append, List.cons_prefix_cons] at this
        exact this.2
      · intro pre hpre
        obtain ⟨said', k1, k2⟩ := hserve.2 (.sent text' :: acts1' ++ pre) (by
          simpa using hpre)
        rw [written_append, hw1, gotten_append] at *
        simp only [List.length_append, List.length_cons, List.length_nil, Nat.zero_add, Nat.add_comm 1, List.take_succ_cons,
          List.map_cons, List.flatten_cons, ← q2] at k1
        have hg : gotten (CAct.sent text' :: acts1') = gotten acts1' := rfl
        rw [hg] at k2
        have hlen := k2.length_eq
        rw [List.length_append, ← r2.length_eq] at hlen
        obtain ⟨said'', rfl⟩ : more' <+: said' :=
          List.prefix_of_prefix_length_le (List.prefix_append _ _) k1 (by omega)
        refine ⟨said'', (List.prefix_append_right_inj _).1 k1, ?_⟩
        have := forall₂_drop k2 more'.length
        rwa [List.drop_left, r2.length_eq, List.drop_left] at this

/-- What the clients did, put into the order of the house. -/
theorem merge {R : Deed × Outcome → Handled → Prop} (G : List Handled) (conv : Nat → List (Deed × Outcome))
    (h : ∀ c, List.Forall₂ R (conv c) (G.filter (·.client = c))) :
    ∃ L, List.Forall₂ (fun l g => l.1 = g.client ∧ R l.2 g) L G ∧ ∀ c, ofClient c L = conv c := by
  induction G generalizing conv with
  | nil => exact ⟨[], .nil, fun c => by have := h c; simp at this; simp [this, ofClient]⟩
  | cons g G ih =>
    have hg := h g.client
    rw [List.filter_cons_of_pos (by simp)] at hg
    generalize hx : conv g.client = xs at hg
    cases hg with
    | @cons x _ xs _ h1 h2 =>
      obtain ⟨L, k1, k2⟩ := ih (fun c => if c = g.client then xs else conv c) (fun c => by
        by_cases hc : c = g.client
        · subst hc; simpa using h2
        · have := h c
          rw [List.filter_cons_of_neg (by simpa using fun e => hc e.symm)] at this
          simpa [hc] using this)
      refine ⟨(g.client, x) :: L, .cons ⟨rfl, h1⟩ k1, fun c => ?_⟩
      have hk := k2 c
      by_cases hc : c = g.client
      · subst hc
        simp only [if_true] at hk
        rw [hx, ← hk]
        simp [ofClient]
      · simp only [hc, if_false] at hk
        rw [← hk]
        simp [ofClient, Ne.symm hc]

theorem legal_of_chain {h : House} {G : List Handled} {L : List (Nat × Deed × Outcome)} (hc : Chain h G)
    (hL : List.Forall₂ (fun l g => l.1 = g.client ∧ l.2.2 = l.2.1.expected g.before ∧ g.after = l.2.1.effect g.before) L G) :
    Legal h L := by
  induction hL generalizing h with
  | nil => trivial
  | @cons l g L G h1 _ ih =>
    obtain ⟨rfl, _, c2⟩ := hc
    obtain ⟨c, d, o⟩ := l
    obtain ⟨_, h2, h3⟩ := h1
    exact ⟨h2, ih (by rw [← h3]; exact c2)⟩

/-- C136: any number of programs, each with its own client, use one house at the same time, and each decides what to do by what it
was told.  If the gateway carries out the frames one at a time, whatever the order, and no call times out, then the calls of all
programs can be put into one order - the order in which the gateway got them - that contains the calls of every program in their
order, and in which every call gives what the calls before it call for. -/
theorem C136_one_order (cfg : Nat → Config) (w : Nat → World) (p : Nat → Plan) (h : House) (hs : h.Sound)
    (hr : ∀ c, Ready (cfg c) (w c)) (G : List Handled) (hG : Chain h G) (acts : Nat → List CAct)
    (ht : ∀ c, ((p c).run (cfg c) (w c)).2.trace = (w c).trace ++ acts c)
    (hserve : ∀ c, ServedBy (G.filter (·.client = c)) (acts c))
    (hf : ∀ c, ∀ x ∈ ((p c).run (cfg c) (w c)).1, x.1.Fits h) (hin : ∀ c, ∀ x ∈ ((p c).run (cfg c) (w c)).1, ¬ x.2.late) :
    ∃ L, Legal h L ∧ L.map (·.1) = G.map (·.client) ∧ ∀ c, ofClient c L = ((p c).run (cfg c) (w c)).1 := by
  have hgood := chain_good hs ⟨rfl, rfl, rfl, rfl⟩ hG
  obtain ⟨L, k1, k2⟩ := merge G (fun c => ((p c).run (cfg c) (w c)).1) fun c =>
    plan_served (cfg c) h hs (p c) (w c) (hr c) _ (fun g hg => hgood g (List.mem_filter.1 hg).1) (acts c) (ht c) (hserve c) (hf c)
      (hin c)
  refine ⟨L, legal_of_chain hG k1, ?_, k2⟩
  clear k2 hgood hserve hG
  induction k1 with
  | nil => rfl
  | cons h1 _ ih => simp [h1.1, ih]

/-- The connection of a client that was answered a call, and goes on. -/
theorem served_cons {g : Handled} {G : List Handled} {ms : List Msg} {acts : List CAct} (hm : List.Forall₂ Says g.replies ms)
    (hs : ServedBy G acts) : ServedBy (g :: G) (.sent g.text :: ms.map .got ++ acts) := by
  constructor
  · rw [written_append]
    simpa [written, written_got] using hs.1
  · intro pre hpre
    rcases pre with _ | ⟨x, pre⟩
    · exact ⟨[], List.nil_prefix, .nil⟩
    · rw [List.cons_append, List.cons_prefix_cons] at hpre
      obtain ⟨rfl, hpre⟩ := hpre
      rcases List.prefix_or_prefix_of_prefix hpre (List.prefix_append _ _) with h | ⟨t, rfl⟩
      · obtain ⟨k, rfl⟩ := prefix_got h
        refine ⟨g.replies.take k, ?_, ?_⟩
        · simp only [written, written_got, List.length_cons, List.length_nil, List.take_succ_cons, List.take_zero, List.map_cons,
            List.map_nil, List.flatten_cons, List.flatten_nil, List.append_nil]
          exact List.take_prefix _ _
        · simp only [gotten, gotten_got]
          exact forall₂_take hm k
      · obtain ⟨said, k1, k2⟩ := hs.2 t ((List.prefix_append_right_inj _).1 hpre)
        refine ⟨g.replies ++ said, ?_, ?_⟩
        · simp only [written, written_append, written_got, List.nil_append, List.length_cons, List.take_succ_cons, List.map_cons,
            List.flatten_cons]
          exact (List.prefix_append_right_inj _).2 k1
        · simp only [gotten, gotten_append, gotten_got]
          exact List.rel_append hm k2

/-- C136 the other way round: whatever programs take turns in a house, in whatever order, until they have come to their ends, can
happen with the library. -/
theorem C136_every_order (cfg : Nat → Config) (hcmd : ∀ c, (cfg c).session ≠ .event) (p : Nat → Plan) (h : House) (hs : h.Sound)
    (order : List Nat) (hend : ∀ c, (turns p h order).2 c = .stop) (hf : ∀ x ∈ (turns p h order).1, x.2.1.Fits h) :
    ∃ (G : List Handled) (w : Nat → World) (acts : Nat → List CAct), Chain h G ∧ (∀ c, Ready (cfg c) (w c)) ∧
      (∀ c, ((p c).run (cfg c) (w c)).2.trace = (w c).trace ++ acts c) ∧ (∀ c, ServedBy (G.filter (·.client = c)) (acts c)) ∧
      ∀ c, ((p c).run (cfg c) (w c)).1 = ofClient c (turns p h order).1 := by
  suffices key : ∃ (G : List Handled) (inbox : Nat → List InEv) (acts : Nat → List CAct), Chain h G ∧
      (∀ c, ServedBy (G.filter (·.client = c)) (acts c)) ∧
      ∀ c w rest, Ready (cfg c) w → w.inbox = inbox c ++ rest →
        (p c).run (cfg c) w = (ofClient c (turns p h order).1, w.after rest (acts c)) by
    obtain ⟨G, inbox, acts, k1, k2, k3⟩ := key
    refine ⟨G, fun c => ⟨[], true, inbox c, []⟩, acts, k1, fun c => ⟨rfl, hcmd c⟩, fun c => ?_, k2, fun c => ?_⟩
    · rw [k3 c _ [] ⟨rfl, hcmd c⟩ (by simp)]; simp [World.after]
    · rw [k3 c _ [] ⟨rfl, hcmd c⟩ (by simp)]
  induction order generalizing p h with
  | nil =>
    refine ⟨[], fun _ => [], fun _ => [], trivial, fun c => ⟨by simp [written], fun pre hp => ?_⟩, fun c w rest hr hw => ?_⟩
    · rw [List.prefix_nil.1 hp]
      exact ⟨[], by simp [written], .nil⟩
    · have : p c = .stop := hend c
      rw [this]
      simp only [Plan.run, turns, ofClient, List.filter_nil, List.map_nil, World.after]
      simp only [List.nil_append] at hw
      subst hw
      simp
  | cons k order ih =>
    rcases hk : p k with _ | ⟨d, next⟩
    · simp only [turns, hk] at hend hf ⊢
      exact ih p h hs hend hf
    · simp only [turns, hk] at hend hf ⊢
      have hfd : d.Fits h := hf (k, d, d.expected h) List.mem_cons_self
      obtain ⟨text, more, ms, hh, hm, hrun⟩ := call_serve (cfg k) h hs d hfd
      obtain ⟨G, inbox, acts, k1, k2, k3⟩ := ih (fun c => if c = k then next (d.expected h) else p c) (d.effect h)
        (sound_effect hs hfd) hend (fun x hx => fits_effect (hf x (List.mem_cons_of_mem _ hx)))
      refine ⟨⟨k, h, text, d.effect h, more⟩ :: G, fun c => if c = k then ms.map .msg ++ inbox c else inbox c,
        fun c => if c = k then .sent text :: ms.map .got ++ acts c else acts c, ⟨rfl, hh, k1⟩, fun c => ?_, fun c w rest hr hw => ?_⟩
      · by_cases hc : c = k
        · subst hc
          dsimp only
          rw [List.filter_cons_of_pos (by simp), if_pos rfl]
          exact served_cons (g := ⟨c, h, text, d.effect h, more⟩) hm (k2 c)
        · dsimp only
          rw [List.filter_cons_of_neg (by simpa using fun e => hc e.symm), if_neg hc]
          exact k2 c
      · by_cases hc : c = k
        · subst hc
          simp only [if_true, List.append_assoc] at hw ⊢
          have e1 := hrun w (inbox c ++ rest) hr hw
          have e2 := k3 c (w.after (inbox c ++ rest) (.sent text :: ms.map .got)) rest hr rfl
          simp only [if_true] at e2
          rw [hk]
          simp only [Plan.run]
          rw [e1, e2]
          simp [ofClient, World.after]
        · simp only [hc, if_false] at hw ⊢
          have := k3 c w rest hr hw
          simp only [hc, if_false] at this
          rw [this]
          simp [ofClient, Ne.symm hc]

/-- A program that turns a lamp on and, if the lamp says that it is on, moves a shutter. -/
def samplePlan : Plan :=
  .call (.order .lightTurnOn cs!"12") fun _ => .call (.light cs!"12") fun o =>
    match o with
    | .light [(_, true)] _ => .call (.order .automationUp cs!"31") fun _ => .stop
    | _ => .stop

/-- A program that turns the lamp off. -/
def otherPlan : Plan := .call (.order .lightTurnOff cs!"12") fun _ => .stop

/-- What the first program does depends on when the other one has its turn. -/
example :
    ofClient 0 (turns (fun c => if c = 0 then samplePlan else if c = 1 then otherPlan else .stop) sampleHouse [0, 0, 1, 0]).1 =
      [(.order .lightTurnOn cs!"12", .order (.ok ())), (.light cs!"12", .light [(⟨cs!"12"⟩, true)] (.ok ())),
        (.order .automationUp cs!"31", .order (.ok ()))] ∧
    ofClient 0 (turns (fun c => if c = 0 then samplePlan else if c = 1 then otherPlan else .stop) sampleHouse [0, 1, 0]).1 =
      [(.order .lightTurnOn cs!"12", .order (.ok ())), (.light cs!"12", .light [(⟨cs!"12"⟩, false)] (.ok ()))] := ⟨rfl, rfl⟩

/-- The hypotheses of both theorems are met: the two programs take turns, the first one ends with the shutter. -/
example (cfg : Nat → Config) (hcmd : ∀ c, (cfg c).session ≠ .event) :
    ∃ (G : List Handled) (w : Nat → World) (acts : Nat → List CAct), Chain sampleHouse G ∧ (∀ c, Ready (cfg c) (w c)) ∧
      (∀ c, ((if c = 0 then samplePlan else if c = 1 then otherPlan else Plan.stop).run (cfg c) (w c)).2.trace =
        (w c).trace ++ acts c) ∧ (∀ c, ServedBy (G.filter (·.client = c)) (acts c)) ∧
      ((if (0 : Nat) = 0 then samplePlan else if (0 : Nat) = 1 then otherPlan else Plan.stop).run (cfg 0) (w 0)).1.length = 3 :=
  have h := sampleHouse_sound
  have a12 := h.lamps cs!"12" (by simp [sampleHouse])
  have a31 := h.shutters cs!"31" (by simp [sampleHouse])
  have ⟨G, w, acts, h1, h2, h3, h4, h5⟩ := C136_every_order cfg hcmd
    (fun c => if c = 0 then samplePlan else if c = 1 then otherPlan else .stop) sampleHouse h [0, 0, 1, 0]
    (by
      intro c
      rcases c with _ | _ | c
      · rfl
      · rfl
      · rfl)
    (by
      intro x hx
      have hx : x ∈ [(0, .order .lightTurnOn cs!"12", .order (.ok ())), (0, .light cs!"12", .light [(⟨cs!"12"⟩, true)] (.ok ())),
        (1, .order .lightTurnOff cs!"12", .order (.ok ())), (0, .order .automationUp cs!"31", .order (.ok ()))] := hx
      simp only [List.mem_cons, List.not_mem_nil, or_false] at hx
      rcases hx with rfl | rfl | rfl | rfl
      · exact ⟨.inl (.inr (.inl rfl)), a12⟩
      · exact ⟨a12, by decide⟩
      · exact ⟨.inl (.inl rfl), a12⟩
      · exact ⟨.inr (.inr (.inl rfl)), a31⟩)
  ⟨G, w, acts, h1, h2, h3, h4, by rw [h5 0]; rfl⟩
