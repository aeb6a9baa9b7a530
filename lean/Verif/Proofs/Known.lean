import Verif.Spec.Known
import Verif.Props.Reports
import Verif.Proofs.Toggle

open Py Spec Spec.House

theorem lastChange_append (xs ys : List (Str × Bool)) (q : Str) : lastChange (xs ++ ys) q = (lastChange ys q).or (lastChange xs q) := by
  unfold lastChange
  rw [List.filter_append, List.getLast?_append]
  cases ((ys.filter (·.1 = q)).getLast?) <;> rfl

theorem lastChange_mem {cs : List (Str × Bool)} {q : Str} {b : Bool} (h : lastChange cs q = some b) : (q, b) ∈ cs := by
  unfold lastChange at h
  obtain ⟨c, h1, h2⟩ := Option.map_eq_some_iff.1 h
  have := List.mem_of_getLast? h1
  obtain ⟨m1, m2⟩ := List.mem_filter.1 this
  have e : c.1 = q := by simpa using m2
  rw [← e, ← h2]
  exact m1

theorem lastChange_none {cs : List (Str × Bool)} {q : Str} (h : lastChange cs q = none) : q ∉ cs.map (·.1) := by
  unfold lastChange at h
  have h : cs.filter (·.1 = q) = [] := by simpa using h
  intro hm
  obtain ⟨c, h1, h2⟩ := List.mem_map.1 hm
  have : c ∈ cs.filter (·.1 = q) := List.mem_filter.2 ⟨h1, by simpa using h2⟩
  rw [h] at this
  cases this

/-- The reports of one frame. -/
theorem announced_one {g : Handled} {now : List (Str × Bool)} {q : Str} (hq : q ∈ g.before.lamps)
    (h1 : ∀ c ∈ now, c.2 = lit (g.after.lamp c.1))
    (h2 : ∀ p ∈ g.before.lamps, lit (g.before.lamp p) ≠ lit (g.after.lamp p) → p ∈ now.map (·.1)) :
    (lastChange now q).getD (lit (g.before.lamp q)) = lit (g.after.lamp q) := by
  cases hl : lastChange now q with
  | none =>
    by_contra hne
    exact lastChange_none hl (h2 q hq hne)
  | some b => exact h1 _ (lastChange_mem hl)

/-- The last report, or else the state at the beginning, is the state at the end. -/
theorem broadcasts_final {h : House} {q : Str} {G : List Handled} {changes : List (Str × Bool)} (hc : Chain h G)
    (hq : ∀ g ∈ G, q ∈ g.before.lamps) (ha : Broadcasts G changes) :
    (lastChange changes q).getD (lit (h.lamp q)) = lit ((ending h G).lamp q) := by
  induction ha generalizing h with
  | nil => rfl
  | @cons g G now later h1 h2 _ ih =>
    obtain ⟨rfl, _, hc⟩ := hc
    show _ = lit ((ending g.after G).lamp q)
    rw [← ih hc (fun x hx => hq x (List.mem_cons_of_mem _ hx)), ← announced_one (hq g List.mem_cons_self) h1 h2, lastChange_append]
    cases lastChange later q <;> rfl

/-- A lamp that is not reported is what it was all the time. -/
theorem broadcasts_none {h : House} {q : Str} {G : List Handled} {changes : List (Str × Bool)} (hc : Chain h G)
    (hq : ∀ g ∈ G, q ∈ g.before.lamps) (ha : Broadcasts G changes) (hn : lastChange changes q = none) :
    ∀ g ∈ G, lit (g.before.lamp q) = lit (h.lamp q) := by
  induction ha generalizing h with
  | nil => simp
  | @cons g G now later h1 h2 _ ih =>
    obtain ⟨rfl, _, hc⟩ := hc
    rw [lastChange_append] at hn
    obtain ⟨n1, n2⟩ := Option.or_eq_none_iff.1 hn
    have := announced_one (hq g List.mem_cons_self) h1 h2
    rw [n2] at this
    intro x hx
    rcases List.mem_cons.1 hx with rfl | hx
    · rfl
    · rw [ih hc (fun x hx => hq x (List.mem_cons_of_mem _ hx)) n1 x hx, ← this]
      rfl

/-- The answer to a question about the lamps. -/
theorem answered_map (lamps : List Str) (f : Str → Bool) {q : Str} (hq : q ∈ lamps) :
    answered (lamps.map fun p => (⟨p⟩, f p)) q = some (f q) := by
  unfold answered
  induction lamps with
  | nil => cases hq
  | cons p lamps ih =>
    rw [List.map_cons]
    by_cases hp : p = q
    · rw [List.find?_cons_of_pos (by simpa using hp), hp]
      rfl
    · rw [List.find?_cons_of_neg (by simpa using hp)]
      exact ih ((List.mem_cons.1 hq).resolve_left (fun e => hp e.symm))

/-- The question was carried out at some moment, and answered as the lamps were then. -/
theorem asks_served {cfg : Nat → Config} {w : Nat → World} {p : Nat → Plan} {h : House} {G : List Handled}
    (ht : Together cfg w p h G) {c : Nat} {a : Str} (hp : p c = asks a) :
    ∃ g ∈ G, ((p c).run (cfg c) (w c)).1 =
      [(.light a, .light ((h.lampsAt a).map fun q => (⟨q⟩, lit (g.before.lamp q))) (.ok ()))] := by
  have hgood := chain_good ht.sound ⟨rfl, rfl, rfl, rfl⟩ ht.chain
  obtain ⟨L, h1, h2⟩ := together_order ht
  have hf := run_follows (cfg c) (p c) (w c)
  rw [hp] at hf ⊢
  rw [← hp, ← h2] at hf ⊢
  generalize hx : ofClient c L = xs at hf ⊢
  rw [hp] at hf
  rcases xs with _ | ⟨⟨d, o⟩, xs⟩
  · exact hf.elim
  · obtain ⟨rfl, hf⟩ := hf
    rcases xs with _ | ⟨y, xs⟩
    · have hm : (⟨.light a, o⟩ : Deed × Outcome) ∈ ofClient c L := by rw [hx]; simp
      obtain ⟨l, hl, e⟩ := List.mem_map.1 hm
      obtain ⟨i, hi, rfl⟩ := List.mem_iff_getElem.1 (List.mem_filter.1 hl).1
      have hlen := h1.length_eq
      have hmat := List.Forall₂.get h1 hi (hlen ▸ hi)
      have hmat : Matched L[i] (G[i]'(hlen ▸ hi)) := hmat
      refine ⟨G[i]'(hlen ▸ hi), List.getElem_mem _, ?_⟩
      have ho := hmat.2.1
      rw [e] at ho
      have hs := (hgood _ (List.getElem_mem (hlen ▸ hi))).2.1
      dsimp only at ho
      rw [ho]
      simp only [Deed.expected, lampsAt, hs.1, hs.2.1]
    · exact hf.elim

/-- There is such a report for whatever the gateway carries out. -/
theorem broadcasts_exists (G : List Handled) : ∃ changes, Broadcasts G changes := by
  induction G with
  | nil => exact ⟨[], .nil⟩
  | cons g G ih =>
    obtain ⟨later, h⟩ := ih
    refine ⟨g.before.lamps.map (fun p => (p, lit (g.after.lamp p))) ++ later, .cons ?_ ?_ h⟩
    · intro c hc
      obtain ⟨p, _, rfl⟩ := List.mem_map.1 hc
      rfl
    · intro p hp _
      exact List.mem_map.2 ⟨_, List.mem_map.2 ⟨p, hp, rfl⟩, rfl⟩
