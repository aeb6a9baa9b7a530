import Verif.Proofs.Toggle

/-!
# C142: switching a lamp to what it is not

The full claim: programs that ask a lamp whether it is on and then switch it to the opposite leave it, when all have ended, as the
number of times says: as it was after an even number, and the other way after an odd one.
-/

open Py Spec Spec.House

/-- Two programs that do it once. -/
def twoSwitches (t : Str) : Nat → Plan
  | 0 => toggles t 1
  | 1 => toggles t 1
  | _ => .stop

/-- The full claim, for two programs that do it once. -/
def C142_full (cfg : Nat → Config) : Prop :=
  ∀ (w : Nat → World) (h : House) (t : Str) (G : List Handled), OneLamp h t →
    Together cfg w (twoSwitches t) h G →
    lit ((ending h G).lamp t) = lit (h.lamp t)

/-- C142, what holds: a program that switches a lamp `n` times, while other programs do anything but switch that lamp, leaves it as
`n` says. -/
theorem C142_alone_partial (cfg : Nat → Config) (w : Nat → World) (p : Nat → Plan) (h : House) (G : List Handled) (c : Nat)
    (t : Str) (n : Nat) (ho : OneLamp h t) (ht : Together cfg w p h G) (hp : p c = toggles t n)
    (hq : ∀ k ≠ c, ∀ x ∈ ((p k).run (cfg k) (w k)).1, LeavesAlone h t x.1) :
    lit ((ending h G).lamp t) = not^[n] (lit (h.lamp t)) := by
  obtain ⟨L, h1, h2⟩ := together_order ht
  refine (toggles_inv c t G h ho ht.chain L h1 (fun l hl hne => ?_) n).1 ?_
  · refine hq l.1 hne l.2 ?_
    rw [← h2]
    exact List.mem_map.2 ⟨l, List.mem_filter.2 ⟨hl, by simp⟩, rfl⟩
  · rw [h2, hp]
    exact run_follows _ _ _

/-- C142, what holds: any number of programs that switch the lamp any number of times leave it as the number of all times says, if
the gateway gets the order of each next after its question, as under a lock around both. -/
theorem C142_turns_partial (cfg : Nat → Config) (w : Nat → World) (h : House) (G : List Handled) (t : Str) (n : Nat → Nat)
    (ho : OneLamp h t) (ht : Together cfg w (fun c => toggles t (n c)) h G) (cs : List Nat)
    (hG : G.map (·.client) = cs.flatMap fun c => [c, c]) :
    lit ((ending h G).lamp t) = not^[cs.length] (lit (h.lamp t)) := by
  obtain ⟨L, h1, h2⟩ := together_order ht
  exact pairs_inv t cs G h ho ht.chain L h1 n (fun c => by rw [h2]; exact run_follows _ _ _) hG

/-- Frames that turn the lamp on, and none that turns it off. -/
theorem only_on (t : Str) (G : List Handled) (h : House) (ho : OneLamp h t) (hc : Chain h G) (L : List (Nat × Deed × Outcome))
    (hL : List.Forall₂ Matched L G) (hd : ∀ l ∈ L, l.2.1 = .light t ∨ l.2.1 = .order .lightTurnOn t)
    (hon : lit (h.lamp t) = true ∨ ∃ l ∈ L, l.2.1 = .order .lightTurnOn t) : lit ((ending h G).lamp t) = true := by
  induction hL generalizing h with
  | nil => simpa [ending] using hon
  | @cons l g L G hm _ ih =>
    obtain ⟨rfl, _, hc⟩ := hc
    obtain ⟨_, _, he⟩ := hm
    have hd' : ∀ l ∈ L, l.2.1 = .light t ∨ l.2.1 = .order .lightTurnOn t := fun x hx => hd x (List.mem_cons_of_mem _ hx)
    show lit ((ending g.after G).lamp t) = true
    rcases hd l List.mem_cons_self with e | e <;> rw [e] at he
    · have he : g.after = g.before := he
      rw [he] at hc ⊢
      refine ih _ ho hc hd' (hon.imp id ?_)
      rintro ⟨x, hx, k⟩
      rcases List.mem_cons.1 hx with rfl | hx
      · rw [e] at k; cases k
      · exact ⟨x, hx, k⟩
    · have he : g.after = g.before.does .on t := he
      have sim : Similar g.before g.after := by rw [he]; exact does_fields _ _ _
      refine ih _ (sim.lamps ho) hc hd' (.inl ?_)
      rw [he]
      exact ho.on

/-- C142 is false: two programs ask a lamp that is off, one after the other, and then both turn it on; neither is told. -/
theorem C142_lost_refuted (cfg : Nat → Config) (hcmd : ∀ c, (cfg c).session ≠ .event) : ¬ C142_full cfg := by
  intro hfull
  have hs := sampleHouse_sound
  have a11 := hs.lamps cs!"11" (by simp [sampleHouse])
  have ho : OneLamp sampleHouse cs!"11" := ⟨a11, by decide, by decide⟩
  have hturns : (turns (twoSwitches cs!"11") sampleHouse [0, 1, 0, 1]).1 =
      [(0, .light cs!"11", .light [(⟨cs!"11"⟩, false)] (.ok ())), (1, .light cs!"11", .light [(⟨cs!"11"⟩, false)] (.ok ())),
        (0, .order .lightTurnOn cs!"11", .order (.ok ())), (1, .order .lightTurnOn cs!"11", .order (.ok ()))] := rfl
  have hmem : ∀ x ∈ (turns (twoSwitches cs!"11") sampleHouse [0, 1, 0, 1]).1,
      x.2.1 = .light cs!"11" ∨ x.2.1 = .order .lightTurnOn cs!"11" := by
    rw [hturns]
    intro x hx
    simp only [List.mem_cons, List.not_mem_nil, or_false] at hx
    rcases hx with rfl | rfl | rfl | rfl <;> simp
  obtain ⟨G, w, ht, h5⟩ := turns_together cfg hcmd (twoSwitches cs!"11") sampleHouse hs [0, 1, 0, 1]
    (by
      intro c
      rcases c with _ | _ | c
      · rfl
      · rfl
      · rfl)
    (by
      intro x hx
      rcases hmem x hx with e | e <;> rw [e]
      · exact ⟨a11, by decide⟩
      · exact ⟨.inl (.inr (.inl rfl)), a11⟩)
  have hend := hfull w sampleHouse cs!"11" G ho ht
  obtain ⟨L, k1, k2⟩ := together_order ht
  rw [only_on cs!"11" G sampleHouse ho ht.chain L k1] at hend
  · exact absurd hend (by decide)
  · intro l hl
    have hx : l.2 ∈ ofClient l.1 L := List.mem_map.2 ⟨l, List.mem_filter.2 ⟨hl, by simp⟩, rfl⟩
    rw [k2, h5] at hx
    obtain ⟨l', hl', e⟩ := List.mem_map.1 hx
    rw [← e]
    exact hmem l' (List.mem_filter.1 hl').1
  · right
    have : ((.order .lightTurnOn cs!"11", .order (.ok ())) : Deed × Outcome) ∈ ofClient 0 L := by
      rw [k2, h5, hturns]
      simp [ofClient]
    obtain ⟨l, hl, e⟩ := List.mem_map.1 this
    exact ⟨l, (List.mem_filter.1 hl).1, by rw [e]⟩

/-- One program switches a lamp twice while another turns a second lamp off: the hypotheses are met, and the lamp is as it was. -/
example (cfg : Nat → Config) (hcmd : ∀ c, (cfg c).session ≠ .event) :
    ∃ G w, Together cfg w (fun c => if c = 0 then toggles cs!"11" 2 else if c = 1 then otherPlan else .stop) sampleHouse G ∧
      lit ((ending sampleHouse G).lamp cs!"11") = lit (sampleHouse.lamp cs!"11") := by
  have hs := sampleHouse_sound
  have a11 := hs.lamps cs!"11" (by simp [sampleHouse])
  have a12 := hs.lamps cs!"12" (by simp [sampleHouse])
  have hturns : (turns (fun c => if c = 0 then toggles cs!"11" 2 else if c = 1 then otherPlan else .stop) sampleHouse
      [0, 1, 0, 0, 0]).1 =
      [(0, .light cs!"11", .light [(⟨cs!"11"⟩, false)] (.ok ())), (1, .order .lightTurnOff cs!"12", .order (.ok ())),
        (0, .order .lightTurnOn cs!"11", .order (.ok ())), (0, .light cs!"11", .light [(⟨cs!"11"⟩, true)] (.ok ())),
        (0, .order .lightTurnOff cs!"11", .order (.ok ()))] := rfl
  obtain ⟨G, w, ht, h5⟩ := turns_together cfg hcmd
    (fun c => if c = 0 then toggles cs!"11" 2 else if c = 1 then otherPlan else .stop) sampleHouse hs [0, 1, 0, 0, 0]
    (by
      intro c
      rcases c with _ | _ | c
      · rfl
      · rfl
      · rfl)
    (by
      rw [hturns]
      intro x hx
      simp only [List.mem_cons, List.not_mem_nil, or_false] at hx
      rcases hx with rfl | rfl | rfl | rfl | rfl
      · exact ⟨a11, by decide⟩
      · exact ⟨.inl (.inl rfl), a12⟩
      · exact ⟨.inl (.inr (.inl rfl)), a11⟩
      · exact ⟨a11, by decide⟩
      · exact ⟨.inl (.inl rfl), a11⟩)
  refine ⟨G, w, ht, C142_alone_partial cfg w _ sampleHouse G 0 cs!"11" 2 ⟨a11, by decide, by decide⟩ ht rfl ?_⟩
  intro k hk x hx
  rw [h5, hturns] at hx
  obtain ⟨l, hl, rfl⟩ := List.mem_map.1 hx
  obtain ⟨h1, h2⟩ := List.mem_filter.1 hl
  simp only [List.mem_cons, List.not_mem_nil, or_false] at h1
  rcases h1 with rfl | rfl | rfl | rfl | rfl <;> simp at h2 <;> first
    | exact absurd h2.symm hk
    | exact (by decide : sampleHouse.reach cs!"12" cs!"11" = false)

/-- Two programs, one after the other: the question and the order of the first, then those of the second; the frames come from the
clients in that order. -/
example : (turns (twoSwitches cs!"11") sampleHouse [0, 0, 1, 1]).1.map (·.1) = [0, 1].flatMap (fun c => [c, c]) ∧
    (turns (twoSwitches cs!"11") sampleHouse [0, 0, 1, 1]).1.map (·.2.1) =
      [.light cs!"11", .order .lightTurnOn cs!"11", .light cs!"11", .order .lightTurnOff cs!"11"] := ⟨rfl, rfl⟩
