import Verif.Spec.Again
import Verif.Props.Shared
import Verif.Props.Retry
import Verif.Proofs.Toggle

open Py Spec Spec.House

/-- An order given twice is an order given once. -/
theorem does_twice (h : House) (w : Wish) (t : Str) : (h.does w t).does w t = h.does w t := by
  cases w <;> simp only [does, House.mk.injEq, true_and, and_true] <;> funext p <;> split <;> rfl

/-- Orders for shutters. -/
def moves : Wish → Bool
  | .stop | .up | .down => true
  | _ => false

theorem does_eq (h : House) (w : Wish) (t : Str) : h.does w t =
    { h with lamp := fun p => if !moves w && h.reach t p then settle (h.dimmer p) w else h.lamp p,
             shutter := fun p => if moves w && h.reach t p then w else h.shutter p } := by
  cases w <;> simp [does, moves]

/-- Houses that an order makes the same, it makes the same after any other order too. -/
theorem does_same {h k : House} {w : Wish} {t : Str} (e : h.does w t = k.does w t) (v : Wish) (u : Str) :
    (h.does v u).does w t = (k.does v u).does w t := by
  have e1 : h.reach = k.reach := by
    rw [← (does_fields h w t).1, ← (does_fields k w t).1, e]
  have e2 : h.lamps = k.lamps := by
    rw [← (does_fields h w t).2.1, ← (does_fields k w t).2.1, e]
  have e3 : h.shutters = k.shutters := by
    rw [← (does_fields h w t).2.2.1, ← (does_fields k w t).2.2.1, e]
  have e4 : h.dimmer = k.dimmer := by
    rw [← (does_fields h w t).2.2.2, ← (does_fields k w t).2.2.2, e]
  have el : ∀ p, (h.does w t).lamp p = (k.does w t).lamp p := fun p => by rw [e]
  have es : ∀ p, (h.does w t).shutter p = (k.does w t).shutter p := fun p => by rw [e]
  obtain ⟨r, l, s, d, lamp, shutter⟩ := h
  obtain ⟨r', l', s', d', lamp', shutter'⟩ := k
  dsimp only at e1 e2 e3 e4
  subst e1 e2 e3 e4
  simp only [does_eq, House.mk.injEq, true_and] at el es ⊢
  refine ⟨funext fun p => ?_, funext fun p => ?_⟩
  · have h1 := el p
    by_cases c1 : (!moves w && r t p) = true <;> by_cases c2 : (!moves v && r u p) = true <;> simp only [c1, c2] at h1 ⊢ <;>
      simp_all
  · have h1 := es p
    by_cases c1 : (moves w && r t p) = true <;> by_cases c2 : (moves v && r u p) = true <;> simp only [c1, c2] at h1 ⊢ <;>
      simp_all

/-- The frames of a chain can be carried out in another house that an order makes the same. -/
theorem chain_same {h k : House} {w : Wish} {t : Str} (e : h.does w t = k.does w t) {G : List Handled} (hc : Chain h G) :
    ∃ G', Chain k G' ∧ G'.map Handled.frame = G.map Handled.frame ∧ (ending h G).does w t = (ending k G').does w t := by
  induction G generalizing h k with
  | nil => exact ⟨[], trivial, rfl, e⟩
  | cons g G ih =>
    obtain ⟨rfl, h1, h2⟩ := hc
    obtain ⟨c, b, text, a, rs⟩ := g
    dsimp only at h1 h2 e
    have : ∃ k' rs', k.Hears text k' rs' ∧ a.does w t = k'.does w t := by
      cases h1 with
      | order hw ha ht => exact ⟨_, _, .order hw ha ht, does_same e _ _⟩
      | lamps ha => exact ⟨_, _, .lamps ha, e⟩
      | shutters ha => exact ⟨_, _, .shutters ha, e⟩
    obtain ⟨k', rs', k1, k2⟩ := this
    obtain ⟨G', g1, g2, g3⟩ := ih k2 h2
    exact ⟨⟨c, k, text, k', rs'⟩ :: G', ⟨rfl, k1, g1⟩, by simp [Handled.frame, g2], g3⟩

theorem chain_append {h : House} {G H : List Handled} : Chain h (G ++ H) ↔ Chain h G ∧ Chain (ending h G) H := by
  induction G generalizing h with
  | nil => simp [Chain, ending]
  | cons g G ih => simp [Chain, ending, ih, and_assoc]

theorem ending_append (h : House) (G H : List Handled) : ending h (G ++ H) = ending (ending h G) H := by
  induction G generalizing h with
  | nil => rfl
  | cons g G ih => exact ih g.after

/-- Without the copies of an order the house is the same but for what the order sets. -/
theorem drop_copies {h h' : House} {w : Wish} {t f : Str} (hw : Lamp w ∨ Motion w) (ha : Address t) (hf : documented w t = some f)
    (c : Nat) (e : h.does w t = h'.does w t) {G : List Handled} (hc : Chain h G) (hG : ∀ g ∈ G, g.client = c → g.text = f) :
    ∃ G', Chain h' G' ∧ G'.map Handled.frame = (G.filter (·.client ≠ c)).map Handled.frame ∧
      (ending h G).does w t = (ending h' G').does w t := by
  induction G generalizing h h' with
  | nil => exact ⟨[], trivial, rfl, e⟩
  | cons g G ih =>
    have hG' : ∀ g ∈ G, g.client = c → g.text = f := fun x hx => hG x (List.mem_cons_of_mem _ hx)
    obtain ⟨rfl, h1, h2⟩ := hc
    by_cases hgc : g.client = c
    · have ht := hG g List.mem_cons_self hgc
      rw [ht] at h1
      obtain ⟨a1, _⟩ := hears_unique h1 (.order hw ha hf)
      obtain ⟨G', g1, g2, g3⟩ := ih (h := g.after) (h' := h') (by rw [a1, does_twice]; exact e) h2 hG'
      exact ⟨G', g1, by rw [List.filter_cons_of_neg (by simpa using hgc)]; exact g2, g3⟩
    · obtain ⟨gc, b, text, a, rs⟩ := g
      dsimp only at h1 h2 e hgc
      have : ∃ k' rs', h'.Hears text k' rs' ∧ a.does w t = k'.does w t := by
        cases h1 with
        | order hw ha ht => exact ⟨_, _, .order hw ha ht, does_same e _ _⟩
        | lamps ha => exact ⟨_, _, .lamps ha, e⟩
        | shutters ha => exact ⟨_, _, .shutters ha, e⟩
      obtain ⟨k', rs', k1, k2⟩ := this
      obtain ⟨G', g1, g2, g3⟩ := ih (h := a) (h' := k') k2 h2 hG'
      refine ⟨⟨gc, h', text, k', rs'⟩ :: G', ⟨rfl, k1, g1⟩, ?_, g3⟩
      rw [List.filter_cons_of_pos (by simpa using hgc)]
      simp [Handled.frame, g2]

/-- The last frame of a client. -/
theorem last_of_client (c : Nat) {G : List Handled} (hne : G.filter (·.client = c) ≠ []) :
    ∃ pre g post, G = pre ++ g :: post ∧ g.client = c ∧ ∀ x ∈ post, x.client ≠ c := by
  induction G with
  | nil => simp at hne
  | cons g G ih =>
    by_cases h : G.filter (·.client = c) = []
    · have hg : g.client = c := by
        by_contra hg
        rw [List.filter_cons_of_neg (by simpa using hg)] at hne
        exact hne h
      exact ⟨[], g, G, rfl, hg, fun x hx => by simpa using List.filter_eq_nil_iff.1 h x hx⟩
    · obtain ⟨pre, x, post, rfl, h1, h2⟩ := ih h
      exact ⟨g :: pre, x, post, rfl, h1, h2⟩

theorem written_copies (n : Nat) (f : Str) (acts : List CAct) (h : written acts = []) :
    written (List.replicate n (.sent f) ++ acts) = List.replicate n f := by
  induction n with
  | zero => simpa using h
  | succ n ih => simpa [List.replicate_succ, written] using ih

theorem gotten_copies (n : Nat) (f : Str) (acts : List CAct) : gotten (List.replicate n (.sent f) ++ acts) = gotten acts := by
  induction n with
  | zero => rfl
  | succ n ih => simpa [List.replicate_succ, gotten] using ih

theorem answer_writes {inbox rest : List InEv} {r : Except Err Unit} {acts : List CAct} (h : Answer inbox r rest acts) :
    written acts = [] := by
  cases h <;> rfl

/-- The program does nothing but give the order. -/
theorem gives_only (cfg : Config) (c : Cmd) (t : Str) (n : Nat) (w : World) : ∀ x ∈ ((gives c t n).run cfg w).1, x.1 = .order c t := by
  induction n generalizing w with
  | zero =>
    intro x hx
    have hx : x ∈ [(Deed.order c t, Outcome.order (c.run cfg ⟨c.who, ⟨t⟩⟩ w).1)] := hx
    rw [List.mem_singleton.1 hx]
  | succ n ih =>
    intro x hx
    simp only [gives, Plan.run] at hx
    rcases List.mem_cons.1 hx with rfl | hx
    · rfl
    · split at hx
      · exact ih _ x hx
      · cases hx

/-- The calls of one client only. -/
theorem others_only {L : List (Nat × Deed × Outcome)} (h0 : ofClient 0 L = []) (h2 : ∀ k, ofClient (k + 2) L = []) :
    L = (ofClient 1 L).map (1, ·) := by
  induction L with
  | nil => rfl
  | cons l L ih =>
    obtain ⟨k, y⟩ := l
    rcases k with _ | _ | k
    · rw [ofClient_cons_self] at h0
      cases h0
    · rw [ofClient_cons_ne (by decide)] at h0
      have h2 : ∀ k, ofClient (k + 2) L = [] := fun k => by rw [← h2 k, ofClient_cons_ne (by omega)]
      have e : ofClient 1 ((0 + 1, y) :: L) = y :: ofClient 1 L := ofClient_cons_self 1 y L
      rw [e]
      conv_lhs => rw [ih h0 h2]
      rfl
    · have := h2 k
      rw [ofClient_cons_self] at this
      cases this

theorem matched_mem {L : List (Nat × Deed × Outcome)} {G : List Handled} (h : List.Forall₂ Matched L G) {g : Handled} (hg : g ∈ G) :
    ∃ l ∈ L, Matched l g := by
  induction h with
  | nil => cases hg
  | cons hm _ ih =>
    rcases List.mem_cons.1 hg with rfl | hg
    · exact ⟨_, List.mem_cons_self, hm⟩
    · obtain ⟨l, hl, k⟩ := ih hg
      exact ⟨l, List.mem_cons_of_mem _ hl, k⟩
