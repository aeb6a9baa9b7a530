import Verif.Spec.Snapshot
import Verif.Proofs.Toggle

open Py Spec Spec.House

/-- The houses in which the frames are carried out are moments. -/
theorem befores_moments {h : House} {G : List Handled} (hc : Chain h G) : (G.map (·.before)).Sublist (moments h G) := by
  induction G generalizing h with
  | nil => simp
  | cons g G ih =>
    obtain ⟨rfl, _, hc⟩ := hc
    exact (ih hc).cons_cons g.before

/-- What is asked of lamps that nobody switches. -/
theorem asks_still (c : Nat) (ts : List Str) (G : List Handled) (h k : House) (hc : Chain k G) (L : List (Nat × Deed × Outcome))
    (hL : List.Forall₂ Matched L G) (hf : Follows (asksEach ts) (ofClient c L)) (hsim : Similar h k)
    (ho : ∀ t ∈ ts, OneLamp h t ∧ k.lamp t = h.lamp t) (hq : ∀ l ∈ L, l.1 ≠ c → ∀ t ∈ ts, LeavesAlone h t l.2.1) :
    ofClient c L = shows h ts := by
  induction hL generalizing ts k with
  | nil =>
    cases ts with
    | nil => rfl
    | cons t ts => exact hf.elim
  | @cons l g L G hm _ ih =>
    obtain ⟨rfl, _, hc⟩ := hc
    obtain ⟨i, d, o⟩ := l
    obtain ⟨m1, m2, m3⟩ := hm
    dsimp only at m1 m2 m3
    have hq' : ∀ l ∈ L, l.1 ≠ c → ∀ t ∈ ts, LeavesAlone h t l.2.1 := fun l hl => hq l (List.mem_cons_of_mem _ hl)
    by_cases hi : i = c
    · subst hi
      rw [ofClient_cons_self] at hf ⊢
      cases ts with
      | nil => exact hf.elim
      | cons t ts =>
        obtain ⟨rfl, hf⟩ := hf
        have m3 : g.after = g.before := m3
        rw [m3] at hc
        have := ih ts g.before hc hf hsim (fun u hu => ho u (List.mem_cons_of_mem _ hu))
          (fun l hl hne u hu => hq l (List.mem_cons_of_mem _ hl) hne u (List.mem_cons_of_mem _ hu))
        rw [this]
        obtain ⟨o1, o2⟩ := ho t List.mem_cons_self
        have o3 := (hsim.lamps o1).2.1
        have : o = .light [(⟨t⟩, lit (h.lamp t))] (.ok ()) := by
          rw [m2]
          show Outcome.light ((g.before.lampsAt t).map fun p => (⟨p⟩, lit (g.before.lamp p))) (.ok ()) = _
          rw [o3, List.map_singleton, o2]
        rw [this]
        rfl
    · rw [ofClient_cons_ne hi] at hf ⊢
      have hleave : ∀ t ∈ ts, LeavesAlone g.before t d := fun t ht => by
        have := hq _ List.mem_cons_self hi t ht
        cases d with
        | order e a => exact (congrFun (congrFun hsim.1 a) t).trans this
        | _ => trivial
      have hs2 : Similar g.before g.after := by
        rw [m3]
        cases d with
        | order e a => exact does_fields _ _ _
        | _ => exact ⟨rfl, rfl, rfl, rfl⟩
      refine ih ts g.after hc hf (hsim.trans hs2) (fun t ht => ⟨(ho t ht).1, ?_⟩) hq'
      rw [m3, (effect_keeps (hleave t ht)).2]
      exact (ho t ht).2

/-- Two lamps of which one is on at a time: the other program has these orders left. -/
def OneAtATime (a b : Str) (h : House) (r : List Deed) : Prop :=
  (r = [.order .lightTurnOn a, .order .lightTurnOff a, .order .lightTurnOn b] ∧ lit (h.lamp a) = false ∧ lit (h.lamp b) = false) ∨
  (r = [.order .lightTurnOff a, .order .lightTurnOn b] ∧ lit (h.lamp b) = false) ∨
  (r = [.order .lightTurnOn b] ∧ lit (h.lamp a) = false ∧ lit (h.lamp b) = false) ∨ (r = [] ∧ lit (h.lamp a) = false)

/-- They are never both on. -/
theorem one_at_a_time {a b : Str} (G : List Handled) (h : House) (hc : Chain h G) (L : List (Nat × Deed × Outcome))
    (hL : List.Forall₂ Matched L G) (r : List Deed) (ha : OneLamp h a) (hab : h.reach a b = false) (hba : h.reach b a = false)
    (hi : OneAtATime a b h r) (h0 : ∀ x ∈ ofClient 0 L, ∃ t, x.1 = .light t) (h1 : (ofClient 1 L).map (·.1) = r)
    (h2 : ∀ k, ofClient (k + 2) L = []) : ∀ m ∈ moments h G, ¬ (lit (m.lamp a) = true ∧ lit (m.lamp b) = true) := by
  induction hL generalizing h r with
  | nil =>
    intro m hm
    obtain rfl : m = h := by simpa [moments] using hm
    rcases hi with ⟨_, i, _⟩ | ⟨_, i⟩ | ⟨_, i, _⟩ | ⟨_, i⟩ <;> simp [i]
  | @cons l g L G hm _ ih =>
    obtain ⟨rfl, _, hc⟩ := hc
    obtain ⟨i, d, o⟩ := l
    obtain ⟨_, _, m3⟩ := hm
    dsimp only at m3
    have hnow : ¬ (lit (g.before.lamp a) = true ∧ lit (g.before.lamp b) = true) := by
      rcases hi with ⟨_, i, _⟩ | ⟨_, i⟩ | ⟨_, i, _⟩ | ⟨_, i⟩ <;> simp [i]
    have hs2 : Similar g.before g.after := by
      rw [m3]
      cases d with
      | order e a => exact does_fields _ _ _
      | _ => exact ⟨rfl, rfl, rfl, rfl⟩
    have key : ∀ r', OneAtATime a b g.after r' → (∀ x ∈ ofClient 0 L, ∃ t, x.1 = .light t) → (ofClient 1 L).map (·.1) = r' →
        (∀ k, ofClient (k + 2) L = []) →
        ∀ m ∈ moments g.before (g :: G), ¬ (lit (m.lamp a) = true ∧ lit (m.lamp b) = true) := by
      intro r' k1 k2 k3 k4 m hm
      rcases List.mem_cons.1 hm with rfl | hm
      · exact hnow
      · exact ih g.after hc r' (hs2.lamps ha) (by rw [hs2.1]; exact hab) (by rw [hs2.1]; exact hba) k1 k2 k3 k4 m hm
    rcases i with _ | _ | i
    · rw [ofClient_cons_self] at h0
      rw [ofClient_cons_ne (by decide)] at h1
      obtain ⟨t, ht⟩ := h0 _ List.mem_cons_self
      have ht : d = .light t := ht
      subst ht
      have m3 : g.after = g.before := m3
      exact key r (m3 ▸ hi) (fun x hx => h0 x (List.mem_cons_of_mem _ hx)) h1
        (fun k => by rw [← h2 k, ofClient_cons_ne (by omega)])
    · rw [ofClient_cons_ne (by decide)] at h0
      have e : ofClient 1 ((0 + 1, d, o) :: L) = (d, o) :: ofClient 1 L := ofClient_cons_self 1 _ L
      rw [e, List.map_cons] at h1
      have h2 : ∀ k, ofClient (k + 2) L = [] := fun k => by rw [← h2 k, ofClient_cons_ne (by omega)]
      have hra := ha.reach
      rcases hi with ⟨i1, i2, i3⟩ | ⟨i1, i2⟩ | ⟨i1, i2, i3⟩ | ⟨i1, i2⟩ <;> rw [i1] at h1
      · obtain ⟨rfl, h1'⟩ := List.cons.inj h1
        refine key _ (.inr (.inl ⟨rfl, ?_⟩)) h0 h1' h2
        rw [m3]
        simpa [Deed.effect, wish, does, hab] using i3
      · obtain ⟨rfl, h1'⟩ := List.cons.inj h1
        refine key _ (.inr (.inr (.inl ⟨rfl, ?_, ?_⟩))) h0 h1' h2 <;> rw [m3]
        · simp [Deed.effect, wish, does, hra, settle, lit]
        · simpa [Deed.effect, wish, does, hab] using i2
      · obtain ⟨rfl, h1'⟩ := List.cons.inj h1
        refine key _ (.inr (.inr (.inr ⟨rfl, ?_⟩))) h0 h1' h2
        rw [m3]
        simpa [Deed.effect, wish, does, hba] using i2
      · cases h1
    · have := h2 i
      rw [ofClient_cons_self] at this
      cases this
