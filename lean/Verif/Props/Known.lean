import Verif.Proofs.Known
import Verif.Props.Toggle

/-!
# C143: a program that knows which lamps are on

The full claim: a program that listens to the events, asks once for the lamps at an address and keeps both in a table knows in
the end of every one of these lamps whether it is on, whatever other programs do meanwhile.  `later` are the reports that it
handles after the answer; those before it are overwritten by the answer, or were missed.
-/

open Py Spec Spec.House Events

/-- The full claim: whenever the answer comes among the reports. -/
def C143_full (cfg : Nat → Config) : Prop :=
  ∀ (w : Nat → World) (p : Nat → Plan) (h : House) (G : List Handled) (a : Str) (earlier later : List (Str × Bool)),
    Together cfg w p h G → p 0 = asks a → Broadcasts G (earlier ++ later) → ∀ q ∈ h.lampsAt a,
    ∃ ys, ((p 0).run (cfg 0) (w 0)).1 = [(.light a, .light ys (.ok ()))] ∧
      (lastChange later q).or (answered ys q) = some (lit ((ending h G).lamp q))

/-- C143, what holds: if all reports since the connection was made are handled after the answer.  (That may well be reports of
changes that the answer knows already.) -/
theorem C143_known_partial (cfg : Nat → Config) (w : Nat → World) (p : Nat → Plan) (h : House) (G : List Handled) (c : Nat) (a : Str)
    (changes : List (Str × Bool)) (ht : Together cfg w p h G) (hp : p c = asks a) (ha : Broadcasts G changes) (q : Str)
    (hq : q ∈ h.lampsAt a) :
    ∃ ys, ((p c).run (cfg c) (w c)).1 = [(.light a, .light ys (.ok ()))] ∧
      (lastChange changes q).or (answered ys q) = some (lit ((ending h G).lamp q)) := by
  obtain ⟨g, hg, hrun⟩ := asks_served ht hp
  refine ⟨_, hrun, ?_⟩
  have hgood := chain_good ht.sound ⟨rfl, rfl, rfl, rfl⟩ ht.chain
  have hl : ∀ g ∈ G, q ∈ g.before.lamps := fun x hx => by
    rw [(hgood x hx).2.1.2.1]
    exact (List.mem_filter.1 hq).1
  have hfin := broadcasts_final ht.chain hl ha
  rw [answered_map _ (fun q => lit (g.before.lamp q)) hq]
  cases hc : lastChange changes q with
  | some b => rw [hc] at hfin; exact congrArg some hfin
  | none =>
    rw [hc] at hfin
    exact congrArg some ((broadcasts_none ht.chain hl ha hc g hg).trans hfin)

/-- C143, what holds, with the library on both sides: the program makes its event client and registers a callback that keeps the
table; it asks with its command client; and then it calls `loop()`.  On Python up to 3.12, once nothing is left in the queue, the
table - what the callback wrote, or else the answer - shows every lamp it asked for as it is. -/
theorem C143_table_partial (cfg : Nat → Config) (w : Nat → World) (p : Nat → Plan) (h : House) (G : List Handled) (c : Nat) (a : Str)
    (changes : List (Str × Bool)) (ht : Together cfg w p h G) (hp : p c = asks a) (ha : Broadcasts G changes)
    (call : Call) (hc : AllStart call) (session : Session) (cb : Cb) (hist : List Act) (hpl : ∀ x ∈ hist, Act.Plain x)
    (hr : Reports hist changes)
    (hqu : ((Many.init session).run .upTo312 call (.register .light .onStatusChange cb :: hist)).base.queue = []) (q : Str)
    (hq : q ∈ h.lampsAt a) :
    ∃ ys, ((p c).run (cfg c) (w c)).1 = [(.light a, .light ys (.ok ()))] ∧
      (tableOf cb ((Many.init session).run .upTo312 call (.register .light .onStatusChange cb :: hist)).base.trace q).or
        (answered ys q) = some (lit ((ending h G).lamp q)) := by
  obtain ⟨ys, h1, h2⟩ := C143_known_partial cfg w p h G c a changes ht hp ha q hq
  exact ⟨ys, h1, by rw [C94_reports_partial call hc session cb hist changes hpl hr hqu q]; exact h2⟩

/-- One program asks, another turns the lamp on. -/
def askAndSwitch (t : Str) : Nat → Plan
  | 0 => asks t
  | 1 => .call (.order .lightTurnOn t) fun _ => .stop
  | _ => .stop

/-- It can happen that the lamp is off when it is asked, and on in the end. -/
theorem ask_and_switch (cfg : Nat → Config) (hcmd : ∀ c, (cfg c).session ≠ .event) :
    ∃ G w, Together cfg w (askAndSwitch cs!"11") sampleHouse G ∧
      ((askAndSwitch cs!"11" 0).run (cfg 0) (w 0)).1 = [(.light cs!"11", .light [(⟨cs!"11"⟩, false)] (.ok ()))] ∧
      lit ((ending sampleHouse G).lamp cs!"11") = true := by
  have hs := sampleHouse_sound
  have a11 := hs.lamps cs!"11" (by simp [sampleHouse])
  have hturns : (turns (askAndSwitch cs!"11") sampleHouse [0, 1]).1 =
      [(0, .light cs!"11", .light [(⟨cs!"11"⟩, false)] (.ok ())), (1, .order .lightTurnOn cs!"11", .order (.ok ()))] := rfl
  have hmem : ∀ x ∈ (turns (askAndSwitch cs!"11") sampleHouse [0, 1]).1,
      x.2.1 = .light cs!"11" ∨ x.2.1 = .order .lightTurnOn cs!"11" := by
    rw [hturns]
    intro x hx
    simp only [List.mem_cons, List.not_mem_nil, or_false] at hx
    rcases hx with rfl | rfl <;> simp
  obtain ⟨G, w, ht, h5⟩ := turns_together cfg hcmd (askAndSwitch cs!"11") sampleHouse hs [0, 1]
    (by
      intro c
      rcases c with _ | _ | c
      · rfl
      · rfl
      · rfl)
    (by
      intro x hx
      rcases hmem x hx with e | e <;> rw [e]
      · exact ⟨a11, by decide⟩
      · exact ⟨.inl (.inr (.inl rfl)), a11⟩)
  refine ⟨G, w, ht, (h5 0).trans (by rw [hturns]; rfl), ?_⟩
  obtain ⟨L, k1, k2⟩ := together_order ht
  refine only_on cs!"11" G sampleHouse ⟨a11, by decide, by decide⟩ ht.chain L k1 (fun l hl => ?_) (.inr ?_)
  · have hx : l.2 ∈ ofClient l.1 L := List.mem_map.2 ⟨l, List.mem_filter.2 ⟨hl, by simp⟩, rfl⟩
    rw [k2, h5] at hx
    obtain ⟨l', hl', e⟩ := List.mem_map.1 hx
    rw [← e]
    exact hmem l' (List.mem_filter.1 hl').1
  · have : ((.order .lightTurnOn cs!"11", .order (.ok ())) : Deed × Outcome) ∈ ofClient 1 L := by
      rw [k2, h5, hturns]
      simp [ofClient]
    obtain ⟨l, hl, e⟩ := List.mem_map.1 this
    exact ⟨l, (List.mem_filter.1 hl).1, by rw [e]⟩

/-- C143 is false: the lamp is off when the question comes to the gateway; then another program turns it on, and that is reported.
If the report is handled before the answer is, or was missed because the program listens only after it has asked, the table says
off for ever. -/
theorem C143_stale_refuted (cfg : Nat → Config) (hcmd : ∀ c, (cfg c).session ≠ .event) : ¬ C143_full cfg := by
  intro hfull
  obtain ⟨G, w, ht, h1, h2⟩ := ask_and_switch cfg hcmd
  obtain ⟨changes, hb⟩ := broadcasts_exists G
  obtain ⟨ys, h3, h4⟩ := hfull w (askAndSwitch cs!"11") sampleHouse G cs!"11" changes [] ht rfl (by rwa [List.append_nil]) cs!"11"
    (by decide)
  rw [h1] at h3
  cases h3
  rw [h2] at h4
  exact absurd h4 (by decide)

/-- The hypotheses of what holds are met by the same two programs: handled after the answer, the reports make the table right. -/
example (cfg : Nat → Config) (hcmd : ∀ c, (cfg c).session ≠ .event) :
    ∃ G w changes, Together cfg w (askAndSwitch cs!"11") sampleHouse G ∧ Broadcasts G changes ∧
      (lastChange changes cs!"11").or (answered [(⟨cs!"11"⟩, false)] cs!"11") = some true := by
  obtain ⟨G, w, ht, h1, h2⟩ := ask_and_switch cfg hcmd
  obtain ⟨changes, hb⟩ := broadcasts_exists G
  obtain ⟨ys, h3, h4⟩ := C143_known_partial cfg w _ sampleHouse G 0 cs!"11" changes ht rfl hb cs!"11" (by decide)
  rw [h1] at h3
  cases h3
  exact ⟨G, w, changes, ht, hb, by rw [h4, h2]⟩
