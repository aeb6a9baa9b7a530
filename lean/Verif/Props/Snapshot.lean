import Verif.Proofs.Snapshot

/-!
# C145: how several lamps are at one moment

The full claim: a program that asks lamps, one after the other or all at once, is told how they were at one moment.
-/

open Py Spec Spec.House

/-- The full claim of C145, for a program that asks one after the other. -/
def C145_full (cfg : Nat → Config) : Prop :=
  ∀ (w : Nat → World) (p : Nat → Plan) (h : House) (G : List Handled) (c : Nat) (ts : List Str),
    Together cfg w p h G → p c = asksEach ts → (∀ t ∈ ts, OneLamp h t) →
    ∃ m ∈ moments h G, ((p c).run (cfg c) (w c)).1 = shows m ts

/-- C145, what holds: whatever programs use the house, each call of each is answered as of one moment, also for an address of many
lamps; and later calls of a program as of later moments. -/
theorem C145_at_once_partial (cfg : Nat → Config) (w : Nat → World) (p : Nat → Plan) (h : House) (G : List Handled) (c : Nat)
    (ht : Together cfg w p h G) :
    ∃ ms : List House, ms.Sublist (moments h G) ∧
      List.Forall₂ (fun x m => x.2 = x.1.expected m) ((p c).run (cfg c) (w c)).1 ms := by
  have hgood := chain_good ht.sound ⟨rfl, rfl, rfl, rfl⟩ ht.chain
  obtain ⟨acts, h1, h2⟩ := ht.served c
  have := plan_served (cfg c) h ht.sound (p c) (w c) (ht.ready c) _ (fun g hg => hgood g (List.mem_filter.1 hg).1) acts h1 h2
    (ht.fits c) (ht.inTime c)
  refine ⟨(G.filter (·.client = c)).map (·.before), (List.filter_sublist.map _).trans (befores_moments ht.chain), ?_⟩
  rw [List.forall₂_map_right_iff]
  exact this.imp fun _ _ hx => hx.1

/-- C145, what holds: lamps that no other program switches may be asked one after the other. -/
theorem C145_still_partial (cfg : Nat → Config) (w : Nat → World) (p : Nat → Plan) (h : House) (G : List Handled) (c : Nat)
    (ts : List Str) (ht : Together cfg w p h G) (hp : p c = asksEach ts) (ho : ∀ t ∈ ts, OneLamp h t)
    (hq : ∀ k ≠ c, ∀ x ∈ ((p k).run (cfg k) (w k)).1, ∀ t ∈ ts, LeavesAlone h t x.1) :
    ((p c).run (cfg c) (w c)).1 = shows h ts := by
  obtain ⟨L, h1, h2⟩ := together_order ht
  rw [← h2]
  refine asks_still c ts G h h ht.chain L h1 ?_ ⟨rfl, rfl, rfl, rfl⟩ (fun t h => ⟨ho t h, rfl⟩) fun l hl hne => ?_
  · rw [h2, hp]
    exact run_follows _ _ _
  · refine hq l.1 hne l.2 ?_
    rw [← h2]
    exact List.mem_map.2 ⟨l, List.mem_filter.2 ⟨hl, by simp⟩, rfl⟩

/-- One program asks two lamps, the other turns on one, turns it off, and turns on the other. -/
def askTwo : Nat → Plan
  | 0 => asksEach [cs!"11", cs!"12"]
  | 1 => .call (.order .lightTurnOn cs!"11") fun _ => .call (.order .lightTurnOff cs!"11") fun _ =>
      .call (.order .lightTurnOn cs!"12") fun _ => .stop
  | _ => .stop

/-- Both lamps are found on. -/
theorem ask_two (cfg : Nat → Config) (hcmd : ∀ c, (cfg c).session ≠ .event) :
    ∃ G w, Together cfg w askTwo sampleHouse G ∧
      ((askTwo 0).run (cfg 0) (w 0)).1 = [(.light cs!"11", .light [(⟨cs!"11"⟩, true)] (.ok ())),
        (.light cs!"12", .light [(⟨cs!"12"⟩, true)] (.ok ()))] ∧
      ((askTwo 1).run (cfg 1) (w 1)).1.map (·.1) =
        [.order .lightTurnOn cs!"11", .order .lightTurnOff cs!"11", .order .lightTurnOn cs!"12"] := by
  have hs := sampleHouse_sound
  have a11 := hs.lamps cs!"11" (by simp [sampleHouse])
  have a12 := hs.lamps cs!"12" (by simp [sampleHouse])
  have hturns : (turns askTwo sampleHouse [1, 0, 1, 1, 0]).1 =
      [(1, .order .lightTurnOn cs!"11", .order (.ok ())), (0, .light cs!"11", .light [(⟨cs!"11"⟩, true)] (.ok ())),
        (1, .order .lightTurnOff cs!"11", .order (.ok ())), (1, .order .lightTurnOn cs!"12", .order (.ok ())),
        (0, .light cs!"12", .light [(⟨cs!"12"⟩, true)] (.ok ()))] := rfl
  obtain ⟨G, w, ht, h5⟩ := turns_together cfg hcmd askTwo sampleHouse hs [1, 0, 1, 1, 0]
    (fun c => by rcases c with _ | _ | c <;> rfl) (by
      rw [hturns]
      intro x hx
      simp only [List.mem_cons, List.not_mem_nil, or_false] at hx
      rcases hx with rfl | rfl | rfl | rfl | rfl
      · exact ⟨.inl (.inr (.inl rfl)), a11⟩
      · exact ⟨a11, by decide⟩
      · exact ⟨.inl (.inl rfl), a11⟩
      · exact ⟨.inl (.inr (.inl rfl)), a12⟩
      · exact ⟨a12, by decide⟩)
  exact ⟨G, w, ht, h5 0, by rw [h5 1]; rfl⟩

/-- C145 fails: a program that asks two lamps one after the other may find both on, though they were never on together. -/
theorem C145_each_refuted (cfg : Nat → Config) (hcmd : ∀ c, (cfg c).session ≠ .event) : ¬ C145_full cfg := by
  intro hfull
  obtain ⟨G, w, ht, h0, h1⟩ := ask_two cfg hcmd
  have hs := sampleHouse_sound
  have a11 := hs.lamps cs!"11" (by simp [sampleHouse])
  have a12 := hs.lamps cs!"12" (by simp [sampleHouse])
  have o11 : OneLamp sampleHouse cs!"11" := ⟨a11, by decide, by decide⟩
  have o12 : OneLamp sampleHouse cs!"12" := ⟨a12, by decide, by decide⟩
  obtain ⟨m, hm, e⟩ := hfull w askTwo sampleHouse G 0 [cs!"11", cs!"12"] ht rfl (by
    intro t ht
    simp only [List.mem_cons, List.not_mem_nil, or_false] at ht
    rcases ht with rfl | rfl
    · exact o11
    · exact o12)
  obtain ⟨L, l1, l2⟩ := together_order ht
  refine one_at_a_time (a := cs!"11") (b := cs!"12") G sampleHouse ht.chain L l1 _ o11 (by decide) (by decide)
    (.inl ⟨rfl, by decide, by decide⟩) ?_ (by rw [l2]; exact h1) (fun k => by rw [l2]; rfl) m hm ?_
  · rw [l2, h0]
    intro x hx
    simp only [List.mem_cons, List.not_mem_nil, or_false] at hx
    rcases hx with rfl | rfl
    · exact ⟨_, rfl⟩
    · exact ⟨_, rfl⟩
  · rw [h0] at e
    simp only [shows, List.map_cons, List.map_nil, List.cons.injEq, Prod.mk.injEq, Outcome.light.injEq, true_and, and_true] at e
    exact ⟨e.1.symm, e.2.symm⟩

/-- The hypotheses of what holds are met by the same two programs. -/
example (cfg : Nat → Config) (hcmd : ∀ c, (cfg c).session ≠ .event) : ∃ G w, Together cfg w askTwo sampleHouse G :=
  have ⟨G, w, h, _⟩ := ask_two cfg hcmd
  ⟨G, w, h⟩

/-- One program asks a lamp, the other turns on another. -/
def askOne : Nat → Plan
  | 0 => asksEach [cs!"11"]
  | 1 => .call (.order .lightTurnOn cs!"12") fun _ => .stop
  | _ => .stop

/-- Those of C145_still_partial are met too. -/
example (cfg : Nat → Config) (hcmd : ∀ c, (cfg c).session ≠ .event) :
    ∃ G w, Together cfg w askOne sampleHouse G ∧ OneLamp sampleHouse cs!"11" ∧
      ∀ k ≠ 0, ∀ x ∈ ((askOne k).run (cfg k) (w k)).1, LeavesAlone sampleHouse cs!"11" x.1 := by
  have hs := sampleHouse_sound
  have a11 := hs.lamps cs!"11" (by simp [sampleHouse])
  have a12 := hs.lamps cs!"12" (by simp [sampleHouse])
  obtain ⟨G, w, ht, h5⟩ := turns_together cfg hcmd askOne sampleHouse hs [1, 0]
    (fun c => by rcases c with _ | _ | c <;> rfl) (by
      intro x hx
      have hx : x ∈ [(1, .order .lightTurnOn cs!"12", .order (.ok ())), (0, .light cs!"11", .light [(⟨cs!"11"⟩, false)] (.ok ()))] := hx
      simp only [List.mem_cons, List.not_mem_nil, or_false] at hx
      rcases hx with rfl | rfl
      · exact ⟨.inl (.inr (.inl rfl)), a12⟩
      · exact ⟨a11, by decide⟩)
  refine ⟨G, w, ht, ⟨a11, by decide, by decide⟩, ?_⟩
  rintro (_ | _ | k) hk x hx
  · exact absurd rfl hk
  · have hx : x ∈ [(Deed.order .lightTurnOn cs!"12", (askOne 1).run (cfg 1) (w 1) |>.1.map (·.2) |>.headD (.order (.ok ())))] := hx
    rw [List.mem_singleton.1 hx]
    show sampleHouse.reach _ _ = _
    decide
  · cases hx
