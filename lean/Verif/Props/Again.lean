import Verif.Proofs.Again

/-!
# C144: an order that is tried again, in a house that others use

The full claim, for a program that gives an order again after a timeout until it is acknowledged: all programs together are told
what they would be told if the order had been given once.
-/

open Py Spec Spec.House Spec.Retry Retry

/-- The full claim of C144. -/
def C144_full (cfg : Nat → Config) : Prop :=
  ∀ (w : Nat → World) (p : Nat → Plan) (h : House) (G : List Handled) (c : Nat) (cmd : Cmd) (t : Str) (n : Nat),
    Sharing cfg w p h G c → p c = gives cmd t n → (plainly (cmd.run (cfg c) ⟨cmd.who, ⟨t⟩⟩) n (w c)).1 = .ok () →
    ∃ L, Legal h L ∧ ofClient c L = [(.order cmd t, .order (.ok ()))] ∧
      ∀ k ≠ c, ofClient k L = ((p k).run (cfg k) (w k)).1

/-- C144: the program `gives` of the specification is the loop around the command: it leaves the same, and its last call gives
what the loop gives. -/
theorem C144_plan (cfg : Config) (c : Cmd) (t : Str) (n : Nat) (w : World) :
    ((gives c t n).run cfg w).2 = (plainly (c.run cfg ⟨c.who, ⟨t⟩⟩) n w).2 ∧
    ((gives c t n).run cfg w).1.getLast? = some (.order c t, .order (plainly (c.run cfg ⟨c.who, ⟨t⟩⟩) n w).1) := by
  induction n generalizing w with
  | zero => exact ⟨rfl, rfl⟩
  | succ n ih =>
    have hrun : (gives c t (n + 1)).run cfg w =
        (let x := c.run cfg ⟨c.who, ⟨t⟩⟩ w
         let y := (match Outcome.order x.1 with
           | .order (.error .timeoutError) => gives c t n
           | _ => Plan.stop).run cfg x.2
         ((.order c t, .order x.1) :: y.1, y.2)) := rfl
    have hpl : plainly (c.run cfg ⟨c.who, ⟨t⟩⟩) (n + 1) w =
        match c.run cfg ⟨c.who, ⟨t⟩⟩ w with
        | (.error .timeoutError, w') => plainly (c.run cfg ⟨c.who, ⟨t⟩⟩) n w'
        | r => r := rfl
    rw [hrun, hpl]
    generalize c.run cfg ⟨c.who, ⟨t⟩⟩ w = x
    obtain ⟨r, w'⟩ := x
    rcases r with e | ⟨⟩
    · cases e
      case timeoutError =>
        obtain ⟨i1, i2⟩ := ih w'
        refine ⟨i1, ?_⟩
        dsimp only
        rw [List.getLast?_cons, i2]
        rfl
      all_goals exact ⟨rfl, rfl⟩
    · exact ⟨rfl, rfl⟩

/-- C144, what holds: whatever the other programs do, and however often the order was given, the house is in the end as if only
the last of the frames with the order had reached the gateway; and one did. -/
theorem C144_last_partial (cfg : Nat → Config) (w : Nat → World) (p : Nat → Plan) (h : House) (G : List Handled) (c : Nat)
    (cmd : Cmd) (t : Str) (n : Nat) (hs : Sharing cfg w p h G c) (hp : p c = gives cmd t n)
    (hok : (plainly (cmd.run (cfg c) ⟨cmd.who, ⟨t⟩⟩) n (w c)).1 = .ok ()) :
    ∃ pre g post G', G = pre ++ g :: post ∧ g.client = c ∧ documented (wish cmd) t = some g.text ∧
      (∀ x ∈ post, x.client ≠ c) ∧ Chain h G' ∧
      G'.map Handled.frame = (pre.filter (·.client ≠ c) ++ g :: post).map Handled.frame ∧ ending h G' = ending h G := by
  have hfit : (Deed.order cmd t).Fits h := by
    have := hs.fits c
    rw [hp] at this
    cases n <;> exact this _ List.mem_cons_self
  have hne : cmd ≠ .baseTurnOn30Min ∧ cmd ≠ .cameraFreeResources := by
    constructor <;> rintro rfl <;> rcases hfit.1 with (h | h | ⟨_, _, _, h⟩) | (h | h | h) <;> cases h
  obtain ⟨f, hdoc, hsend⟩ := C39_command_table_partial (cfg c) cmd hne ⟨t⟩ hfit.2.1
  obtain ⟨acts, htr, hserved⟩ := hs.served c
  rw [hp, (C144_plan (cfg c) cmd t n (w c)).1] at htr
  obtain ⟨k, _, r, rest, acts', he, hr⟩ := C141_bounded (cfg c) _ f hsend n (w c) (hs.ready c)
  rw [he] at htr hok
  have hok : r = .ok () := hok
  have hacts : acts = List.replicate (k + 1) (.sent f) ++ acts' := by simpa [World.after] using htr.symm
  obtain ⟨m, rfl⟩ : ∃ m, acts' = [.got m] := by
    rcases hr with ⟨m, e, _⟩ | ⟨_, _, e, _⟩
    · exact ⟨m, e⟩
    · rw [hok] at e; cases e
  have hwr : written acts = List.replicate (k + 1) f := by rw [hacts]; exact written_copies _ _ _ rfl
  have hgo : gotten acts = [m] := by rw [hacts, gotten_copies]; rfl
  have hGc : G.filter (·.client = c) ≠ [] := by
    intro h0
    obtain ⟨said, s1, s2⟩ := hserved.2 acts (List.prefix_refl _)
    rw [h0] at s1
    have : said = [] := by simpa using s1
    rw [this, hgo] at s2
    cases s2
  have htext : ∀ g ∈ G, g.client = c → g.text = f := by
    intro g hg hgc
    have h1 : g.text ∈ (G.filter (·.client = c)).map (·.text) :=
      List.mem_map.2 ⟨g, List.mem_filter.2 ⟨hg, by simpa using hgc⟩, rfl⟩
    have h2 := hserved.1.subset h1
    rw [hwr] at h2
    exact List.eq_of_mem_replicate h2
  obtain ⟨pre, g, post, rfl, hg, hpost⟩ := last_of_client c hGc
  have hc := hs.chain
  rw [chain_append] at hc
  obtain ⟨hc1, hc2, hc3, hc4⟩ := hc
  obtain ⟨G1, a1, a2, a3⟩ := drop_copies hfit.1 hfit.2 hdoc c rfl hc1 (fun x hx => htext x (by simp [hx]))
  have hgt : g.text = f := htext g (by simp) hg
  rw [hgt] at hc3
  obtain ⟨b1, _⟩ := hears_unique hc3 (.order hfit.1 hfit.2 hdoc)
  refine ⟨pre, g, post, G1 ++ ⟨c, ending h G1, f, g.after, [cs!"*#*1##"]⟩ :: post, rfl, hg, hgt ▸ hdoc, hpost, ?_, ?_, ?_⟩
  · rw [chain_append]
    refine ⟨a1, rfl, ?_, hc4⟩
    rw [b1, a3]
    exact .order hfit.1 hfit.2 hdoc
  · simp [a2, Handled.frame, hg, hgt]
  · rw [ending_append, ending_append]
    rfl

/-- C144, what holds: if nobody else does anything, the house is in the end as after the order given once. -/
theorem C144_alone_partial (cfg : Nat → Config) (w : Nat → World) (p : Nat → Plan) (h : House) (G : List Handled) (c : Nat)
    (cmd : Cmd) (t : Str) (n : Nat) (hs : Sharing cfg w p h G c) (hp : p c = gives cmd t n)
    (hok : (plainly (cmd.run (cfg c) ⟨cmd.who, ⟨t⟩⟩) n (w c)).1 = .ok ()) (hG : ∀ g ∈ G, g.client = c) :
    ending h G = (Deed.order cmd t).effect h := by
  obtain ⟨pre, g, post, G', rfl, h1, h2, h3, h4, h5, h6⟩ := C144_last_partial cfg w p h G c cmd t n hs hp hok
  have hfit : (Deed.order cmd t).Fits h := by
    have := hs.fits c
    rw [hp] at this
    cases n <;> exact this _ List.mem_cons_self
  obtain rfl : post = [] := List.eq_nil_iff_forall_not_mem.2 fun x hx => h3 x hx (hG x (by simp [hx]))
  have hpre : pre.filter (·.client ≠ c) = [] := List.filter_eq_nil_iff.2 fun x hx => by simpa using hG x (by simp [hx])
  rw [hpre] at h5
  obtain ⟨g', rfl, h7⟩ := List.map_eq_singleton_iff.1 h5
  obtain ⟨rfl, h8, _⟩ := h4
  have h9 : g'.text = g.text := congrArg Prod.snd h7
  rw [h9] at h8
  rw [← h6]
  exact (hears_unique h8 (.order hfit.1 hfit.2 h2)).1

/-- A program that looks at a lamp, turns it off, and looks again. -/
def looksTwice (t : Str) : Plan :=
  .call (.light t) fun _ => .call (.order .lightTurnOff t) fun _ => .call (.light t) fun _ => .stop

/-- Turn the lamp on, again after a timeout; meanwhile the other program. -/
def againAndLook (first : Plan) : Nat → Plan
  | 0 => first
  | 1 => looksTwice cs!"11"
  | _ => .stop

/-- What an answer says of its lamp. -/
def told : Outcome → Option Bool
  | .light [(_, b)] _ => some b
  | _ => none

/-- What the other program is told. -/
def looked : List (Deed × Outcome) :=
  [(.light cs!"11", .light [(⟨cs!"11"⟩, true)] (.ok ())), (.order .lightTurnOff cs!"11", .order (.ok ())),
    (.light cs!"11", .light [(⟨cs!"11"⟩, true)] (.ok ()))]

/-- The answer to the first program is late. -/
def lateFirst (w : Nat → World) : Nat → World
  | 0 => ⟨[], true, [.silence, .msg .ack], []⟩
  | k + 1 => w (k + 1)

/-- The gateway gets the order, the answer to which is late, the first question, the order of the other program, the order again,
and the second question. -/
theorem again_and_look (cfg : Nat → Config) (hcmd : ∀ c, (cfg c).session ≠ .event) :
    ∃ G w, Sharing cfg w (againAndLook (gives .lightTurnOn cs!"11" 1)) sampleHouse G 0 ∧
      (plainly (Cmd.lightTurnOn.run (cfg 0) ⟨.lighting, ⟨cs!"11"⟩⟩) 1 (w 0)).1 = .ok () ∧
      ((looksTwice cs!"11").run (cfg 1) (w 1)).1 = looked := by
  have hs := sampleHouse_sound
  have a11 := hs.lamps cs!"11" (by simp [sampleHouse])
  let p' := againAndLook (.call (.order .lightTurnOn cs!"11") fun _ => .call (.order .lightTurnOn cs!"11") fun _ => .stop)
  have hturns : (turns p' sampleHouse [0, 1, 1, 0, 1]).1 =
      [(0, .order .lightTurnOn cs!"11", .order (.ok ())), (1, .light cs!"11", .light [(⟨cs!"11"⟩, true)] (.ok ())),
        (1, .order .lightTurnOff cs!"11", .order (.ok ())), (0, .order .lightTurnOn cs!"11", .order (.ok ())),
        (1, .light cs!"11", .light [(⟨cs!"11"⟩, true)] (.ok ()))] := rfl
  have hfon : (Deed.order .lightTurnOn cs!"11").Fits sampleHouse := ⟨.inl (.inr (.inl rfl)), a11⟩
  have hfits : ∀ x ∈ (turns p' sampleHouse [0, 1, 1, 0, 1]).1, x.2.1.Fits sampleHouse := by
    rw [hturns]
    intro x hx
    simp only [List.mem_cons, List.not_mem_nil, or_false] at hx
    rcases hx with rfl | rfl | rfl | rfl | rfl
    · exact hfon
    · exact ⟨a11, by decide⟩
    · exact ⟨.inl (.inl rfl), a11⟩
    · exact hfon
    · exact ⟨a11, by decide⟩
  obtain ⟨G, w, ht, h5⟩ := turns_together cfg hcmd p' sampleHouse hs [0, 1, 1, 0, 1]
    (fun c => by rcases c with _ | _ | c <;> rfl) hfits
  have hsend := sends_normal (cfg 0) (i := ⟨.lighting, ⟨cs!"11"⟩⟩) (what := cs!"1") (by decide +kernel) (by decide +kernel)
  have hgood := chain_good hs ⟨rfl, rfl, rfl, rfl⟩ ht.chain
  have hG0 : ∃ g1 g2, G.filter (·.client = 0) = [g1, g2] ∧ g1.text = cs!"*1*1*11##" ∧ g2.text = cs!"*1*1*11##" ∧
      g1.replies = [cs!"*#*1##"] := by
    obtain ⟨acts, t1, t2⟩ := ht.served 0
    have hl := (plan_served (cfg 0) sampleHouse hs (p' 0) (w 0) (ht.ready 0) _ (fun g hg => hgood g (List.mem_filter.1 hg).1) acts
      t1 t2 (ht.fits 0) (ht.inTime 0)).length_eq
    rw [h5 0, hturns] at hl
    obtain ⟨r1, rest1, acts1, a1, _⟩ := C35_answer_total (w 0).inbox
    obtain ⟨r2, rest2, acts2, a2, _⟩ := C35_answer_total rest1
    have b1 := (hsend (w 0)).1 (ht.ready 0) _ _ _ a1
    have b2 := (hsend ((w 0).after rest1 (.sent (frame [Who.lighting.code, cs!"1", cs!"11"]) :: acts1))).1 (ht.ready 0) _ _ _ a2
    have b3 : ((p' 0).run (cfg 0) (w 0)).2 = (Item.sendNormal (cfg 0) ⟨.lighting, ⟨cs!"11"⟩⟩ cs!"1"
      (Item.sendNormal (cfg 0) ⟨.lighting, ⟨cs!"11"⟩⟩ cs!"1" (w 0)).2).2 := rfl
    rw [b3, b1, b2] at t1
    have hw : written acts = [cs!"*1*1*11##", cs!"*1*1*11##"] := by
      have : acts = .sent cs!"*1*1*11##" :: (acts1 ++ .sent cs!"*1*1*11##" :: acts2) := by
        have t1 : _ = (w 0).trace ++ acts := t1
        simp only [World.after, List.append_assoc] at t1
        exact (List.append_cancel_left t1).symm
      rw [this]
      simp only [written, written_append]
      rw [answer_writes a1, answer_writes a2]
      rfl
    rcases hf0 : G.filter (·.client = 0) with _ | ⟨g1, _ | ⟨g2, _ | ⟨g3, l⟩⟩⟩
    · rw [hf0] at hl; exact absurd hl (by decide)
    · rw [hf0] at hl; exact absurd hl (by simp [ofClient])
    · have t3 := t2.1
      rw [hf0, hw] at t3
      simp only [List.map_cons, List.map_nil, List.cons_prefix_cons] at t3
      refine ⟨g1, g2, hf0, t3.1, t3.2.1, ?_⟩
      have hg : g1 ∈ G := (List.mem_filter.1 (hf0 ▸ List.mem_cons_self : g1 ∈ G.filter (·.client = 0))).1
      obtain ⟨_, _, gh⟩ := hgood g1 hg
      rw [t3.1] at gh
      exact (hears_unique gh (.order (wish := .on) (target := cs!"11") (.inl (.inr (.inl rfl))) a11 rfl)).2
    · rw [hf0] at hl
      simp [ofClient] at hl
  obtain ⟨g1, g2, e0, e1, e2, e3⟩ := hG0
  have h1 := C141_attempts (cfg 0) _ _ hsend 1 1 (le_refl _) ⟨[], true, [.silence, .msg .ack], []⟩ ⟨rfl, hcmd 0⟩ [.msg .ack] rfl
    _ _ _ (.acknowledged _) (.inl (by simp))
  have hother : ∀ k, againAndLook (gives .lightTurnOn cs!"11" 1) (k + 1) = p' (k + 1) := fun k => by cases k <;> rfl
  refine ⟨G, lateFirst w, ⟨hs, ?_, ht.chain, ?_, ?_, ?_⟩, ?_, ?_⟩
  · rintro (_ | k)
    · exact ⟨rfl, hcmd 0⟩
    · exact ht.ready (k + 1)
  · rintro (_ | k)
    · refine ⟨[.sent cs!"*1*1*11##", .sent cs!"*1*1*11##", .got .ack], ?_, ?_⟩
      · have := (C144_plan (cfg 0) .lightTurnOn cs!"11" 1 ⟨[], true, [.silence, .msg .ack], []⟩).1
        exact (congrArg World.trace this).trans (congrArg (fun x => x.2.trace) h1)
      · rw [e0]
        refine ⟨by simp [e1, e2, written], ?_⟩
        intro pre hpre
        rcases pre with _ | ⟨x, _ | ⟨y, _ | ⟨z, _ | ⟨u, pre⟩⟩⟩⟩
        · exact ⟨[], List.nil_prefix, .nil⟩
        · simp only [List.cons_prefix_cons] at hpre
          obtain ⟨rfl, _⟩ := hpre
          exact ⟨[], List.nil_prefix, .nil⟩
        · simp only [List.cons_prefix_cons] at hpre
          obtain ⟨rfl, rfl, _⟩ := hpre
          exact ⟨[], List.nil_prefix, .nil⟩
        · simp only [List.cons_prefix_cons] at hpre
          obtain ⟨rfl, rfl, rfl, _⟩ := hpre
          refine ⟨[cs!"*#*1##"], ?_, .cons (by decide +kernel) .nil⟩
          simp only [written, List.length_cons, List.length_nil, List.take_succ_cons, List.take_zero, List.map_cons, List.map_nil,
            List.flatten_cons, e3]
          exact List.prefix_append _ _
        · have := hpre.length_le
          simp at this
    · rw [hother]
      exact ht.served (k + 1)
  · rintro (_ | k) x hx
    · rw [gives_only _ _ _ _ _ x hx]
      exact hfon
    · rw [hother] at hx
      exact ht.fits (k + 1) x hx
  · rintro (_ | k) hk
    · exact absurd rfl hk
    · rw [hother]
      exact ht.inTime (k + 1)
  · exact congrArg Prod.fst h1
  · exact h5 1

/-- One call among those of another client. -/
theorem among {L : List (Nat × Deed × Outcome)} {x : Deed × Outcome} {ys : List (Deed × Outcome)} (h0 : ofClient 0 L = [x])
    (h1 : ofClient 1 L = ys) (h2 : ∀ k, ofClient (k + 2) L = []) :
    ∃ a b, ys = a ++ b ∧ L = a.map (1, ·) ++ (0, x) :: b.map (1, ·) := by
  induction L generalizing ys with
  | nil => simp [ofClient] at h0
  | cons l L ih =>
    obtain ⟨k, y⟩ := l
    rcases k with _ | _ | k
    · rw [ofClient_cons_self] at h0
      rw [ofClient_cons_ne (by decide)] at h1
      have h2 : ∀ k, ofClient (k + 2) L = [] := fun k => by rw [← h2 k, ofClient_cons_ne (by omega)]
      obtain ⟨rfl, h0'⟩ := List.cons.inj h0
      refine ⟨[], ys, rfl, ?_⟩
      rw [← h1, ← others_only h0' h2]
      rfl
    · rw [ofClient_cons_ne (by decide)] at h0
      have e : ofClient 1 ((0 + 1, y) :: L) = y :: ofClient 1 L := ofClient_cons_self 1 y L
      rw [e] at h1
      have h2 : ∀ k, ofClient (k + 2) L = [] := fun k => by rw [← h2 k, ofClient_cons_ne (by omega)]
      obtain ⟨a, b, e1, e2⟩ := ih h0 rfl h2
      exact ⟨y :: a, b, by rw [← h1, e1]; rfl, by rw [e2]; rfl⟩
    · have := h2 k
      rw [ofClient_cons_self] at this
      cases this

/-- C144 fails: the other program finds the lamp on, turns it off, and finds it on again, though only one order to turn it on was
given. -/
theorem C144_twice_refuted (cfg : Nat → Config) (hcmd : ∀ c, (cfg c).session ≠ .event) : ¬ C144_full cfg := by
  intro hfull
  obtain ⟨G, w, hs, h1, h2⟩ := again_and_look cfg hcmd
  obtain ⟨L, hL, h3, h4⟩ := hfull w _ _ G 0 .lightTurnOn cs!"11" 1 hs rfl h1
  obtain ⟨a, b, e1, rfl⟩ := among h3 ((h4 1 (by decide)).trans h2) (fun k => h4 (k + 2) (by omega))
  unfold looked at e1
  rcases a with _ | ⟨x, _ | ⟨y, _ | ⟨z, _ | ⟨u, a⟩⟩⟩⟩
  · simp only [List.nil_append] at e1
    subst e1
    exact absurd (congrArg told hL.2.2.2.1) (by decide)
  · simp only [List.cons_append, List.nil_append, List.cons.injEq] at e1
    obtain ⟨rfl, rfl⟩ := e1
    exact absurd (congrArg told hL.1) (by decide)
  · simp only [List.cons_append, List.nil_append, List.cons.injEq] at e1
    obtain ⟨rfl, rfl, rfl⟩ := e1
    exact absurd (congrArg told hL.1) (by decide)
  · simp only [List.cons_append, List.nil_append, List.cons.injEq] at e1
    obtain ⟨rfl, rfl, rfl, rfl⟩ := e1
    exact absurd (congrArg told hL.1) (by decide)
  · simp at e1

/-- The hypotheses of what holds are met by the same two programs. -/
example (cfg : Nat → Config) (hcmd : ∀ c, (cfg c).session ≠ .event) :
    ∃ G w, Sharing cfg w (againAndLook (gives .lightTurnOn cs!"11" 1)) sampleHouse G 0 ∧
      (plainly (Cmd.lightTurnOn.run (cfg 0) ⟨.lighting, ⟨cs!"11"⟩⟩) 1 (w 0)).1 = .ok () :=
  have ⟨G, w, h1, h2, _⟩ := again_and_look cfg hcmd
  ⟨G, w, h1, h2⟩

/-- One program only. -/
def againOnly : Nat → Plan
  | 0 => gives .lightTurnOn cs!"11" 1
  | _ => .stop

/-- Those of C144_alone_partial are met by the first program alone. -/
example (cfg : Nat → Config) (hcmd : ∀ c, (cfg c).session ≠ .event) :
    ∃ G w, Sharing cfg w againOnly sampleHouse G 0 ∧ (∀ g ∈ G, g.client = 0) ∧
      (plainly (Cmd.lightTurnOn.run (cfg 0) ⟨.lighting, ⟨cs!"11"⟩⟩) 1 (w 0)).1 = .ok () := by
  have hs := sampleHouse_sound
  have a11 := hs.lamps cs!"11" (by simp [sampleHouse])
  obtain ⟨G, w, ht, h5⟩ := turns_together cfg hcmd againOnly sampleHouse hs [0]
    (fun c => by rcases c with _ | c <;> rfl) (by
      intro x hx
      have hx : x ∈ [(0, .order .lightTurnOn cs!"11", .order (.ok ()))] := hx
      rw [List.mem_singleton.1 hx]
      exact ⟨.inl (.inr (.inl rfl)), a11⟩)
  refine ⟨G, w, ⟨ht.sound, ht.ready, ht.chain, ht.served, ht.fits, fun k _ => ht.inTime k⟩, ?_, ?_⟩
  · obtain ⟨L, l1, l2⟩ := together_order ht
    intro g hg
    by_contra hne
    obtain ⟨k, hk⟩ : ∃ k, g.client = k + 1 := ⟨g.client - 1, by omega⟩
    obtain ⟨l, hl, hm⟩ := matched_mem l1 hg
    have := l2 (k + 1)
    rw [show (againOnly (k + 1)).run (cfg (k + 1)) (w (k + 1)) = ([], w (k + 1)) from rfl] at this
    have hmem : l.2 ∈ ofClient (k + 1) L := List.mem_map.2 ⟨l, List.mem_filter.2 ⟨hl, by simpa using hm.1.trans hk⟩, rfl⟩
    rw [this] at hmem
    cases hmem
  · have h6 := (C144_plan (cfg 0) .lightTurnOn cs!"11" 1 (w 0)).2
    have h7 : ((gives .lightTurnOn cs!"11" 1).run (cfg 0) (w 0)).1 = [(.order .lightTurnOn cs!"11", .order (.ok ()))] := h5 0
    rw [h7] at h6
    simp only [List.getLast?_singleton, Option.some.injEq, Prod.mk.injEq, true_and, Outcome.order.injEq] at h6
    exact h6.symm
