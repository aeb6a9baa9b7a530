import Verif.Proofs.House

/-!
# Devices report the state they were set to (C89)
-/

open Py Spec M Client Item Spec.House

theorem runs_mono (cfg : Config) (h : House) (hs : h.Sound) (calls : List Deed) (hc : ∀ c ∈ calls, c.Fits h) (w : World)
    (hr : Ready cfg w) : ∃ acts, (Deed.runs cfg calls w).2.trace = w.trace ++ acts := by
  induction calls generalizing w with
  | nil => exact ⟨[], by simp [Deed.runs]⟩
  | cons c cs ih =>
    obtain ⟨text, more, _, rest, acts, e1, _, _⟩ := call_step cfg h hs c (hc c (by simp)) w hr
    obtain ⟨acts', e⟩ := ih (fun d hd => hc d (by simp [hd])) (c.run cfg w).2 (by rw [e1]; exact hr)
    refine ⟨.sent text :: acts ++ acts', ?_⟩
    simp only [Deed.runs]
    rw [e, e1]
    simp [World.after]

/-- The general form: after any history in which all replies were taken. -/
theorem runs_expected (cfg : Config) (h0 h : House) (hs : h.Sound) (calls : List Deed) (hc : ∀ c ∈ calls, c.Fits h) (w : World)
    (hr : Ready cfg w) (before acts : List CAct) (hi : Even h0 before h)
    (ht : (Deed.runs cfg calls w).2.trace = w.trace ++ acts) (hserve : Serves h0 (before ++ acts))
    (hin : ∀ o ∈ (Deed.runs cfg calls w).1, ¬ o.late) : (Deed.runs cfg calls w).1 = Deed.expecteds h calls := by
  induction calls generalizing h w before acts with
  | nil => rfl
  | cons c cs ih =>
    obtain ⟨text, more, hh, rest, acts1, e1, e2, e3⟩ := call_step cfg h hs c (hc c (by simp)) w hr
    have hr' : Ready cfg (c.run cfg w).2 := by rw [e1]; exact hr
    have hc' : ∀ d ∈ cs, d.Fits (c.effect h) := fun d hd => fits_effect (hc d (by simp [hd]))
    have hs' := sound_effect hs (hc c (by simp))
    obtain ⟨acts2, m⟩ := runs_mono cfg _ hs' cs hc' (c.run cfg w).2 hr'
    have hacts : acts = .sent text :: acts1 ++ acts2 := by
      simp only [Deed.runs] at ht
      rw [m, e1] at ht
      simpa [World.after] using ht.symm
    have hpre : before ++ .sent text :: acts1 <+: before ++ acts := ⟨acts2, by rw [hacts]; simp⟩
    obtain ⟨h', replies', said, l1, l2, l3⟩ := hserve _ hpre
    obtain ⟨replies, a, b⟩ := hi
    have hw : written (before ++ .sent text :: acts1) = written before ++ [text] := by
      rw [written_append]; simp [written, e2]
    rw [hw] at l1
    obtain ⟨h1, r, more', k1, k2, rfl⟩ := lives_snoc l1
    obtain ⟨rfl, rfl⟩ := lives_unique a k1
    obtain ⟨rfl, rfl⟩ := hears_unique hh k2
    rw [gotten_append] at l3
    have hlen := l3.length_eq
    rw [List.length_append, ← b.length_eq] at hlen
    obtain ⟨said', rfl⟩ : replies <+: said := by
      refine List.prefix_of_prefix_length_le (List.prefix_append _ _) l2 (by omega)
    have l2' : said' <+: more := (List.prefix_append_right_inj _).1 l2
    have l3' : List.Forall₂ Says said' (gotten acts1) := by
      have := forall₂_drop l3 replies.length
      rwa [List.drop_left, b.length_eq, List.drop_left] at this
    obtain ⟨g1, g2⟩ := e3 said' l2' l3' (hin _ (by simp [Deed.runs]))
    simp only [Deed.runs, Deed.expecteds]
    rw [g1]
    congr 1
    refine ih (c.effect h) hs' hc' (c.run cfg w).2 hr' (before ++ .sent text :: acts1) acts2
      (even_serve ⟨replies, a, b⟩ hh e2 g2) m ?_ fun o ho => hin o (by simp [Deed.runs, ho])
    rw [List.append_assoc]
    rw [hacts] at hserve
    simpa using hserve

/-- C89: any program of orders and status queries, to any addresses of a house that answers in time, gets the answers that
the orders given so far call for. -/
theorem C89_states (cfg : Config) (w : World) (hr : Ready cfg w) (h : House) (hs : h.Sound) (calls : List Deed)
    (hc : ∀ c ∈ calls, c.Fits h) (acts : List CAct) (ht : (Deed.runs cfg calls w).2.trace = w.trace ++ acts)
    (hserve : Serves h acts) (hin : ∀ o ∈ (Deed.runs cfg calls w).1, ¬ o.late) :
    (Deed.runs cfg calls w).1 = Deed.expecteds h calls :=
  runs_expected cfg h h hs calls hc w hr [] acts (even_nil h) ht (by simpa using hserve) hin

theorem runs_served (cfg : Config) (h0 h : House) (hs : h.Sound) (calls : List Deed) (hc : ∀ c ∈ calls, c.Fits h)
    (before : List CAct) (hi : Even h0 before h) (hserve : Serves h0 before) :
    ∃ inbox acts, Serves h0 (before ++ acts) ∧ ∀ w rest, Ready cfg w → w.inbox = inbox ++ rest →
      Deed.runs cfg calls w = (Deed.expecteds h calls, w.after rest acts) := by
  induction calls generalizing h before with
  | nil => exact ⟨[], [], by simpa using hserve, fun w rest _ e => by
      simp only [List.nil_append] at e; subst e; simp [Deed.runs, Deed.expecteds, World.after]⟩
  | cons c cs ih =>
    obtain ⟨text, more, ms, hh, hm, hrun⟩ := call_serve cfg h hs c (hc c (by simp))
    have hc' : ∀ d ∈ cs, d.Fits (c.effect h) := fun d hd => fits_effect (hc d (by simp [hd]))
    obtain ⟨inbox, acts, h1, h2⟩ := ih (c.effect h) (sound_effect hs (hc c (by simp))) hc' (before ++ .sent text :: ms.map .got)
      (even_serve hi hh (written_got ms) (by rw [gotten_got]; exact hm)) (serves_next hserve hi hh hm)
    refine ⟨ms.map .msg ++ inbox, .sent text :: ms.map .got ++ acts, by simpa using h1, fun w rest hr e => ?_⟩
    have e1 := hrun w (inbox ++ rest) hr (by rw [e]; simp)
    simp only [Deed.runs, Deed.expecteds]
    rw [e1]
    rw [h2 (w.after (inbox ++ rest) (.sent text :: ms.map .got)) rest hr rfl]
    simp [World.after]

/-- C89 is not about nothing: every program has a run in every house, and no call times out in it. -/
theorem C89_served (cfg : Config) (hcmd : cfg.session ≠ .event) (h : House) (hs : h.Sound) (calls : List Deed)
    (hc : ∀ c ∈ calls, c.Fits h) :
    ∃ w acts, Ready cfg w ∧ (Deed.runs cfg calls w).2.trace = w.trace ++ acts ∧ Serves h acts ∧
      ∀ o ∈ (Deed.runs cfg calls w).1, ¬ o.late := by
  obtain ⟨inbox, acts, h1, h2⟩ := runs_served cfg h h hs calls hc [] (even_nil h)
    (fun pre hp => by rw [List.prefix_nil.1 hp]; exact ⟨h, [], [], .start, by simp, .nil⟩)
  have e := h2 ⟨[], true, inbox, []⟩ [] ⟨rfl, hcmd⟩ (by simp)
  refine ⟨⟨[], true, inbox, []⟩, acts, ⟨rfl, hcmd⟩, by rw [e]; simp [World.after], by simpa using h1, ?_⟩
  rw [e]
  clear e h1 h2 hcmd
  intro o ho
  suffices key : ∀ (h : House) (o : Outcome), o ∈ Deed.expecteds h calls → ¬ o.late from key h o ho
  clear ho hc hs
  induction calls with
  | nil => intro h o ho; cases ho
  | cons c cs ih =>
    intro h o ho
    simp only [Deed.expecteds, List.mem_cons] at ho
    rcases ho with rfl | ho
    · cases c <;> simp [Deed.expected, Outcome.late]
    · exact ih _ _ ho

/-- A lamp that was turned on through any address that reaches it says so, whatever happened in between to devices not
reached. -/
theorem C89_last_order (h : House) (p target : Str) (hp : h.reach target p = true) (c : Cmd)
    (hw : Lamp (wish c)) (between : List Deed)
    (hb : ∀ d ∈ between, ∀ e t, d = .order e t → h.reach t p = false) :
    (between.foldl Deed.effect (h.does (wish c) target)).lamp p = settle (h.dimmer p) (wish c) := by
  have key : ∀ (cs : List Deed) (g : House), g.reach = h.reach →
      (∀ d ∈ cs, ∀ e t, d = .order e t → h.reach t p = false) → (cs.foldl Deed.effect g).lamp p = g.lamp p := by
    intro cs
    induction cs with
    | nil => intro g _ _; rfl
    | cons d cs ih =>
      intro g hg hb
      rw [List.foldl_cons]
      have hd : (d.effect g).reach = h.reach ∧ (d.effect g).lamp p = g.lamp p := by
        cases d with
        | order e t =>
          refine ⟨by rw [← hg]; exact (does_fields g _ _).1, ?_⟩
          have := hb _ (by simp) e t rfl
          simp only [Deed.effect, does]
          split <;> simp [hg, this]
        | light t => exact ⟨hg, rfl⟩
        | dimmer t => exact ⟨hg, rfl⟩
        | automation t => exact ⟨hg, rfl⟩
      rw [ih _ hd.1 fun d' hd' => hb d' (by simp [hd']), hd.2]
  rw [key between _ (does_fields h _ _).1 hb]
  rcases hw with e | e | ⟨n, _, _, e⟩ <;> rw [e] <;> simp [does, hp]

/-- A house with two lamps, a dimmer and a shutter; `0` reaches everything. -/
def sampleHouse : House where
  reach := fun t p => t = p || t = cs!"0"
  lamps := [cs!"11", cs!"12", cs!"21"]
  shutters := [cs!"31"]
  dimmer := fun p => p = cs!"21"
  lamp := fun _ => .off
  shutter := fun _ => .stop

theorem sampleHouse_sound : sampleHouse.Sound where
  lamps := by
    intro p hp
    have hh : ∀ a b : Char, a ≠ '#' → b ≠ '#' → ¬ HasHH [a, b] := by
      rintro a b h1 h2 ⟨u, v, h⟩
      rcases u with _ | ⟨_, u⟩
      · simp at h; exact h1 h.1
      · have := congrArg List.length h; simp at this; omega
    simp only [sampleHouse, List.mem_cons, List.not_mem_nil, or_false] at hp
    rcases hp with rfl | rfl | rfl <;>
      exact ⟨by simp [TagText, TagChar], hh _ _ (by decide) (by decide), by simp⟩
  shutters := by
    intro p hp
    simp only [sampleHouse, List.mem_cons, List.not_mem_nil, or_false] at hp
    subst hp
    refine ⟨by simp [TagText, TagChar], ?_, by simp⟩
    rintro ⟨u, v, h⟩
    have : '#' ∈ cs!"31" := by rw [h]; simp
    simp at this
  lamp := fun p => .inl rfl
  dimmer := fun p _ => by simp [sampleHouse]
  plain := fun p _ => .inr rfl
  shutter := fun p => .inl rfl

/-- The expected answers are not constant: a lamp is off, then everything is turned on, and the dimmer is set to half. -/
example : Deed.expecteds sampleHouse
    [.light cs!"12", .order .lightTurnOn cs!"0", .light cs!"12", .dimmer cs!"21", .order .dimmerSet50Percent cs!"21",
      .dimmer cs!"21", .order .automationUp cs!"31", .automation cs!"0"] =
    [.light [(⟨cs!"12"⟩, false)] (.ok ()), .order (.ok ()), .light [(⟨cs!"12"⟩, true)] (.ok ()),
      .dimmer [(⟨cs!"21"⟩, 100)] (.ok ()), .order (.ok ()), .dimmer [(⟨cs!"21"⟩, 50)] (.ok ()), .order (.ok ()),
      .automation [(⟨cs!"31"⟩, cs!"1")] (.ok ())] := rfl

/-- The hypotheses are met by a concrete run. -/
example (cfg : Config) (hcmd : cfg.session ≠ .event) :
    ∃ w acts, Ready cfg w ∧ (Deed.runs cfg [.order .lightTurnOn cs!"12", .order .automationDown cs!"31", .automation cs!"31"] w).2.trace =
      w.trace ++ acts ∧ Serves sampleHouse acts :=
  have h := sampleHouse_sound
  have a12 := h.lamps cs!"12" (by simp [sampleHouse])
  have a31 := h.shutters cs!"31" (by simp [sampleHouse])
  have ⟨w, acts, h1, h2, h3, _⟩ := C89_served cfg hcmd sampleHouse h
    [.order .lightTurnOn cs!"12", .order .automationDown cs!"31", .automation cs!"31"] (by
      intro c hc
      simp only [List.mem_cons, List.not_mem_nil, or_false] at hc
      rcases hc with rfl | rfl | rfl
      · exact ⟨.inl (.inr (.inl rfl)), a12⟩
      · exact ⟨.inr (.inr (.inr rfl)), a31⟩
      · exact a31)
  ⟨w, acts, h1, h2, h3⟩
