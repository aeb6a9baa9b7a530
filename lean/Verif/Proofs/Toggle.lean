import Verif.Spec.Toggle
import Verif.Props.Shared

open Py Spec Spec.House

/-- A call and the frame that carried it out. -/
def Matched (l : Nat × Deed × Outcome) (g : Handled) : Prop :=
  l.1 = g.client ∧ l.2.2 = l.2.1.expected g.before ∧ g.after = l.2.1.effect g.before

/-- The calls are those of the plan. -/
def Follows : Plan → List (Deed × Outcome) → Prop
  | .stop, [] => True
  | .call d next, (d', o) :: xs => d' = d ∧ Follows (next o) xs
  | _, _ => False

theorem run_follows (cfg : Config) (p : Plan) (w : World) : Follows p (p.run cfg w).1 := by
  induction p generalizing w with
  | stop => trivial
  | call d next ih => exact ⟨rfl, ih _ _⟩

/-- The order of C136, with the frames. -/
theorem together_order {cfg : Nat → Config} {w : Nat → World} {p : Nat → Plan} {h : House} {G : List Handled}
    (ht : Together cfg w p h G) : ∃ L, List.Forall₂ Matched L G ∧ ∀ c, ofClient c L = ((p c).run (cfg c) (w c)).1 := by
  have hgood := chain_good ht.sound ⟨rfl, rfl, rfl, rfl⟩ ht.chain
  exact merge (R := fun x g => x.2 = x.1.expected g.before ∧ g.after = x.1.effect g.before) G
    (fun c => ((p c).run (cfg c) (w c)).1) fun c => by
      obtain ⟨acts, h1, h2⟩ := ht.served c
      exact plan_served (cfg c) h ht.sound (p c) (w c) (ht.ready c) _ (fun g hg => hgood g (List.mem_filter.1 hg).1) acts h1 h2
        (ht.fits c) (ht.inTime c)

theorem ofClient_cons_self (c : Nat) (x : Deed × Outcome) (L : List (Nat × Deed × Outcome)) :
    ofClient c ((c, x) :: L) = x :: ofClient c L := by simp [ofClient]

theorem ofClient_cons_ne {c k : Nat} (h : k ≠ c) (x : Deed × Outcome) (L : List (Nat × Deed × Outcome)) :
    ofClient c ((k, x) :: L) = ofClient c L := by simp [ofClient, h]

/-- What a call does to the devices and to one lamp. -/
theorem effect_keeps {h : House} {t : Str} {d : Deed} (hd : LeavesAlone h t d) :
    Similar h (d.effect h) ∧ (d.effect h).lamp t = h.lamp t := by
  cases d with
  | order c a =>
    refine ⟨does_fields h _ _, ?_⟩
    have hd : h.reach a t = false := hd
    show (h.does (wish c) a).lamp t = _
    unfold does
    split <;> simp [hd]
  | light a => exact ⟨⟨rfl, rfl, rfl, rfl⟩, rfl⟩
  | dimmer a => exact ⟨⟨rfl, rfl, rfl, rfl⟩, rfl⟩
  | automation a => exact ⟨⟨rfl, rfl, rfl, rfl⟩, rfl⟩

theorem Spec.House.Similar.lamps {h h' : House} (hs : Similar h h') {t : Str} (ho : OneLamp h t) : OneLamp h' t := by
  obtain ⟨e1, e2, e3, e4⟩ := hs
  unfold OneLamp lampsAt at *
  rw [e1, e2, e4]
  exact ho

theorem Spec.OneLamp.reach {h : House} {t : Str} (ho : OneLamp h t) : h.reach t t = true := by
  have : t ∈ h.lampsAt t := by rw [ho.2.1]; simp
  exact (List.mem_filter.1 this).2

theorem Spec.OneLamp.on {h : House} {t : Str} (ho : OneLamp h t) : lit ((h.does .on t).lamp t) = true := by
  simp [does, ho.reach, ho.2.2, settle, lit]

theorem Spec.OneLamp.off {h : House} {t : Str} (ho : OneLamp h t) : lit ((h.does .off t).lamp t) = false := by
  simp [does, ho.reach, settle, lit]

/-- The lamp while one program switches it to and fro and no other does. -/
theorem toggles_inv (c : Nat) (t : Str) (G : List Handled) (h : House) (ho : OneLamp h t) (hc : Chain h G)
    (L : List (Nat × Deed × Outcome)) (hL : List.Forall₂ Matched L G)
    (hq : ∀ l ∈ L, l.1 ≠ c → LeavesAlone h t l.2.1) (n : Nat) :
    (Follows (toggles t n) (ofClient c L) → lit ((ending h G).lamp t) = not^[n] (lit (h.lamp t))) ∧
    (Follows (.call (.order (if lit (h.lamp t) then .lightTurnOff else .lightTurnOn) t) fun _ => toggles t n) (ofClient c L) →
      lit ((ending h G).lamp t) = not^[n + 1] (lit (h.lamp t))) := by
  induction G generalizing h L n with
  | nil =>
    cases hL
    refine ⟨fun hf => ?_, fun hf => hf.elim⟩
    cases n with
    | zero => rfl
    | succ n => exact hf.elim
  | cons g G ih =>
    cases hL with
    | @cons l _ L _ hm hL =>
    obtain ⟨rfl, _, hc⟩ := hc
    obtain ⟨k, d, o⟩ := l
    obtain ⟨h1, h2, he⟩ := hm
    dsimp only at h1 h2
    subst h1 h2
    have hgo : ending g.before (g :: G) = ending g.after G := rfl
    rw [hgo]
    dsimp only at he
    have sim : Similar g.before g.after := by
      rw [he]
      cases d with
      | order c a => exact does_fields _ _ _
      | _ => exact ⟨rfl, rfl, rfl, rfl⟩
    have hq' : ∀ l ∈ L, l.1 ≠ c → LeavesAlone g.after t l.2.1 := fun l hl hne => by
      have := hq l (List.mem_cons_of_mem _ hl) hne
      revert this
      cases l.2.1 with
      | order _ a => intro h; show g.after.reach a t = false; rw [sim.1]; exact h
      | _ => exact id
    have ih := fun n => ih g.after (sim.lamps ho) hc L hL hq' n
    by_cases hk : g.client = c
    · rw [← hk] at ih ⊢
      rw [ofClient_cons_self]
      constructor
      · intro hf
        cases n with
        | zero => exact hf.elim
        | succ n =>
          obtain ⟨rfl, hf⟩ := hf
          have he' : g.after = g.before := he
          rw [he'] at ih ⊢
          refine (ih n).2 ?_
          have hx : Deed.expected g.before (.light t) = .light [(⟨t⟩, lit (g.before.lamp t))] (.ok ()) := by
            simp [Deed.expected, ho.2.1]
          rw [hx] at hf
          cases hl : lit (g.before.lamp t) <;> rw [hl] at hf <;> simpa using hf
      · rintro ⟨rfl, hf⟩
        have := (ih n).1 hf
        rw [this, Function.iterate_succ_apply]
        congr 1
        rw [he]
        cases hl : lit (g.before.lamp t)
        · exact ho.on
        · exact ho.off
    · rw [ofClient_cons_ne hk]
      have := (effect_keeps (hq _ List.mem_cons_self hk)).2
      dsimp only at this
      rw [← he] at this
      rw [← this]
      exact ih n

theorem turns_inTime (p : Nat → Plan) (h : House) (order : List Nat) : ∀ x ∈ (turns p h order).1, ¬ x.2.2.late := by
  induction order generalizing p h with
  | nil => simp [turns]
  | cons k order ih =>
    rcases hk : p k with _ | ⟨d, next⟩
    · simp only [turns, hk]
      exact ih p h
    · simp only [turns, hk]
      intro x hx
      rcases List.mem_cons.1 hx with rfl | hx
      · cases d <;> simp [Deed.expected, Outcome.late]
      · exact ih _ _ x hx

/-- What programs do that take turns, as programs that run together. -/
theorem turns_together (cfg : Nat → Config) (hcmd : ∀ c, (cfg c).session ≠ .event) (p : Nat → Plan) (h : House) (hs : h.Sound)
    (order : List Nat) (hend : ∀ c, (turns p h order).2 c = .stop) (hf : ∀ x ∈ (turns p h order).1, x.2.1.Fits h) :
    ∃ G w, Together cfg w p h G ∧ ∀ c, ((p c).run (cfg c) (w c)).1 = ofClient c (turns p h order).1 := by
  obtain ⟨G, w, acts, h1, h2, h3, h4, h5⟩ := C136_every_order cfg hcmd p h hs order hend hf
  have hof : ∀ c, ∀ x ∈ ((p c).run (cfg c) (w c)).1, ∃ k, (k, x) ∈ (turns p h order).1 := by
    intro c x hx
    rw [h5] at hx
    obtain ⟨l, hl, rfl⟩ := List.mem_map.1 hx
    exact ⟨l.1, (List.mem_filter.1 hl).1⟩
  exact ⟨G, w, ⟨hs, h2, h1, fun c => ⟨acts c, h3 c, h4 c⟩, fun c x hx => let ⟨_, hk⟩ := hof c x hx; hf _ hk,
    fun c x hx => let ⟨_, hk⟩ := hof c x hx; turns_inTime p h order _ hk⟩, h5⟩

/-- Programs that switch the lamp to and fro, none between the question and the order of another. -/
theorem pairs_inv (t : Str) (cs : List Nat) (G : List Handled) (h : House) (ho : OneLamp h t) (hc : Chain h G)
    (L : List (Nat × Deed × Outcome)) (hL : List.Forall₂ Matched L G) (n : Nat → Nat)
    (hf : ∀ c, Follows (toggles t (n c)) (ofClient c L)) (hG : G.map (·.client) = cs.flatMap fun c => [c, c]) :
    lit ((ending h G).lamp t) = not^[cs.length] (lit (h.lamp t)) := by
  induction cs generalizing G h L n with
  | nil =>
    obtain rfl : G = [] := by simpa using hG
    rfl
  | cons c cs ih =>
    rcases G with _ | ⟨g, _ | ⟨g', G⟩⟩
    · simp at hG
    · simp at hG
    simp only [List.map_cons, List.flatMap_cons, List.cons_append, List.nil_append, List.cons.injEq] at hG
    obtain ⟨e1, e2, hG⟩ := hG
    cases hL with
    | @cons l _ L _ hm hL =>
    cases hL with
    | @cons l' _ L _ hm' hL =>
    obtain ⟨rfl, _, hc1, _, hc2⟩ := hc
    obtain ⟨k, d, o⟩ := l
    obtain ⟨k', d', o'⟩ := l'
    obtain ⟨a1, a2, a3⟩ := hm
    obtain ⟨b1, b2, b3⟩ := hm'
    dsimp only at a1 a2 a3 b1 b2 b3
    rw [e1] at a1
    rw [e2] at b1
    subst a1 b1 a2 b2
    have hfk := hf k'
    rw [ofClient_cons_self, ofClient_cons_self] at hfk
    cases hn : n k' with
    | zero => rw [hn] at hfk; exact hfk.elim
    | succ m =>
    rw [hn] at hfk
    obtain ⟨rfl, hfk⟩ := hfk
    have a3 : g.after = g.before := a3
    have hx : Deed.expected g.before (.light t) = .light [(⟨t⟩, lit (g.before.lamp t))] (.ok ()) := by
      simp [Deed.expected, ho.2.1]
    rw [hx] at hfk
    have key : d' = .order (if lit (g.before.lamp t) then .lightTurnOff else .lightTurnOn) t ∧
        Follows (toggles t m) (ofClient k' L) := by
      cases hl : lit (g.before.lamp t) <;> rw [hl] at hfk <;> obtain ⟨rfl, hfk⟩ := hfk <;> exact ⟨by simp, hfk⟩
    obtain ⟨rfl, hrest⟩ := key
    rw [hc1, a3] at b3
    have sim : Similar g.before g'.after := by rw [b3]; exact does_fields _ _ _
    have hrec := ih G g'.after (sim.lamps ho) hc2 L hL (fun x => if x = k' then m else n x) (fun x => by
      by_cases hck : x = k'
      · subst hck; simpa using hrest
      · have := hf x
        rw [ofClient_cons_ne (Ne.symm hck), ofClient_cons_ne (Ne.symm hck)] at this
        simpa [hck] using this) hG
    show lit ((ending g'.after G).lamp t) = _
    rw [hrec, List.length_cons, Function.iterate_succ_apply]
    congr 1
    rw [b3]
    cases hl : lit (g.before.lamp t)
    · exact ho.on
    · exact ho.off
