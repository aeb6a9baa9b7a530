import Verif.Spec.Events
import Verif.Proofs.Energy
import Verif.Proofs.Packet

/-! # Lemmas about items, callbacks and the event loop -/

open Py Spec

namespace Events

/-! ## Items -/

theorem mem_of_lookup {κ α : Type} [DecidableEq κ] {l : List (κ × α)} {k : κ} {a : α} (h : l.lookup k = some a) :
    (k, a) ∈ l := by
  induction l with
  | nil => simp at h
  | cons p l ih =>
    rw [List.lookup_cons] at h
    split at h
    · rename_i hk
      have : k = p.1 := by simpa using hk
      cases h
      subst this
      exact List.mem_cons_self
    · exact List.mem_cons_of_mem _ (ih h)

/-- What is true of the items in every reachable state. -/
structure ItemsOk (s : Items) : Prop where
  fresh : ∀ k o, s.cache.lookup k = some o → o.id < s.next
  made : ∀ k o, s.cache.lookup k = some o → itemTypes.lookup k.1 = some o.cls ∧ construct o.cls ⟨k.2⟩ = .ok o.item
  inj : ∀ k o k' o', s.cache.lookup k = some o → s.cache.lookup k' = some o' → o.id = o'.id → k = k'

theorem itemsOk_init : ItemsOk .init := ⟨by simp [Items.init], by simp [Items.init], by simp [Items.init]⟩

/-- The cases of `get_item`. -/
theorem getItem_cases (client : Nat) (who : Who) (wher : Tag) (s : Items) :
    (∃ o, s.cache.lookup (who, wher.string) = some o ∧ getItem client who wher s = (.ok o, s)) ∨
    (s.cache.lookup (who, wher.string) = none ∧ itemTypes.lookup who = none ∧
      getItem client who wher s = (.error .keyError, s)) ∨
    (∃ c e, s.cache.lookup (who, wher.string) = none ∧ itemTypes.lookup who = some c ∧ construct c wher = .error e ∧
      getItem client who wher s = (.error e, s)) ∨
    (∃ c i, s.cache.lookup (who, wher.string) = none ∧ itemTypes.lookup who = some c ∧ construct c wher = .ok i ∧
      getItem client who wher s =
        (.ok ⟨s.next, c, i, client⟩, ⟨((who, wher.string), ⟨s.next, c, i, client⟩) :: s.cache, s.next + 1⟩)) := by
  unfold getItem
  rcases h1 : s.cache.lookup (who, wher.string) with _ | o
  · rcases h2 : itemTypes.lookup who with _ | c
    · exact .inr (.inl ⟨rfl, rfl, rfl⟩)
    · rcases h3 : construct c wher with e | i
      · exact .inr (.inr (.inl ⟨c, e, rfl, rfl, h3, by simp [h3]⟩))
      · exact .inr (.inr (.inr ⟨c, i, rfl, rfl, h3, by simp [h3]⟩))
  · exact .inl ⟨o, rfl, rfl⟩

theorem lookup_new {k k' : Who × Str} {o : Obj} {l : List ((Who × Str) × Obj)} :
    List.lookup k' ((k, o) :: l) = if k' = k then some o else l.lookup k' := by
  rw [List.lookup_cons]
  by_cases h : k' = k
  · simp [h]
  · have : (k' == k) = false := by simpa using h
    rw [this, if_neg h]

theorem getItem_ok {client : Nat} {who : Who} {wher : Tag} {s : Items} (h : ItemsOk s) :
    ItemsOk (getItem client who wher s).2 := by
  rcases getItem_cases client who wher s with ⟨o, _, e⟩ | ⟨_, _, e⟩ | ⟨c, _, _, _, _, e⟩ | ⟨c, i, hl, ht, hc, e⟩
  · rw [e]; exact h
  · rw [e]; exact h
  · rw [e]; exact h
  · rw [e]
    refine ⟨?_, ?_, ?_⟩
    · intro k o hk
      simp only [lookup_new] at hk
      split at hk
      · cases hk; exact Nat.lt_succ_self _
      · exact Nat.lt_succ_of_lt (h.fresh k o hk)
    · intro k o hk
      simp only [lookup_new] at hk
      split at hk
      · rename_i he
        cases hk; subst he
        exact ⟨ht, hc⟩
      · exact h.made k o hk
    · intro k o k' o' hk hk' hid
      simp only [lookup_new] at hk hk'
      split at hk <;> split at hk'
      · rename_i a b; rw [a, b]
      · cases hk
        exact absurd (h.fresh _ _ hk') (by rw [← hid]; exact Nat.lt_irrefl _)
      · cases hk'
        exact absurd (h.fresh _ _ hk) (by rw [hid]; exact Nat.lt_irrefl _)
      · exact h.inj _ _ _ _ hk hk' hid

/-- Items stay. -/
def Keeps (s s' : Items) : Prop := ∀ k o, s.cache.lookup k = some o → s'.cache.lookup k = some o

theorem Keeps.refl (s : Items) : Keeps s s := fun _ _ h => h

theorem Keeps.trans {a b c : Items} (h : Keeps a b) (h' : Keeps b c) : Keeps a c := fun k o hk => h' k o (h k o hk)

theorem getItem_keeps (client : Nat) (who : Who) (wher : Tag) (s : Items) : Keeps s (getItem client who wher s).2 := by
  rcases getItem_cases client who wher s with ⟨o, _, e⟩ | ⟨_, _, e⟩ | ⟨c, _, _, _, _, e⟩ | ⟨c, i, hl, ht, hc, e⟩
  · rw [e]; exact Keeps.refl s
  · rw [e]; exact Keeps.refl s
  · rw [e]; exact Keeps.refl s
  · rw [e]
    intro k o hk
    simp only [lookup_new]
    rw [if_neg]
    · exact hk
    · rintro rfl; rw [hl] at hk; cases hk

theorem getItem_lookup {client : Nat} {who : Who} {wher : Tag} {s s' : Items} {o : Obj}
    (h : getItem client who wher s = (.ok o, s')) : s'.cache.lookup (who, wher.string) = some o := by
  rcases getItem_cases client who wher s with ⟨o, hl, e⟩ | ⟨_, _, e⟩ | ⟨c, _, _, _, _, e⟩ | ⟨c, i, hl, ht, hc, e⟩
  · rw [e] at h; cases h; exact hl
  · rw [e] at h; cases h
  · rw [e] at h; cases h
  · rw [e] at h; cases h; simp [lookup_new]

theorem getItem_cached {client : Nat} {who : Who} {wher : Tag} {s : Items} {o : Obj}
    (h : s.cache.lookup (who, wher.string) = some o) : getItem client who wher s = (.ok o, s) := by
  unfold getItem; rw [h]

theorem code_inj {a b : Who} (h : a.code = b.code) : a = b := by
  revert a b
  have : ∀ a ∈ Who.all, ∀ b ∈ Who.all, a.code = b.code → a = b := by decide +kernel
  intro a b h
  exact this a (by cases a <;> decide) b (by cases b <;> decide) h

theorem itemTypes_lookup (who : Who) : itemTypes.lookup who = classOf who.code := by cases who <;> decide

theorem placed_energy {wher : Str} : Placed .energyManagement wher ↔ ∃ t, EnergyAddress wher t := by
  unfold Placed
  exact ⟨fun h => h rfl, fun h _ => h⟩

theorem placed_other {who : Who} {wher : Str} (h : who ≠ .energyManagement) : Placed who wher :=
  fun e => absurd (code_inj (a := who) (b := .energyManagement) e) h

/-- An item can be made exactly at the documented addresses. -/
theorem construct_iff {who : Who} {c : Cls} {wher : Tag} (h : itemTypes.lookup who = some c) :
    (∃ i, construct c wher = .ok i) ↔ Placed who wher.string := by
  by_cases hw : who = .energyManagement
  · subst hw
    have : c = .energyManagement := by
      have : itemTypes.lookup Who.energyManagement = some Cls.energyManagement := by decide
      rw [this] at h; cases h; rfl
    subst this
    rw [placed_energy]
    constructor
    · rintro ⟨i, hi⟩
      by_contra hc
      push Not at hc
      have := Energy.newTag_other hc
      change EnergyManagement.newTag wher = _ at hi
      rw [show wher = ⟨wher.string⟩ from rfl, this] at hi
      cases hi
    · rintro ⟨t, ht⟩
      exact ⟨_, Energy.newTag_documented ht⟩
  · refine ⟨fun _ => placed_other hw, fun _ => ?_⟩
    cases c with
    | energyManagement | stopGo | camera | dimmer =>
      exfalso; cases who <;> first | exact hw rfl | (revert h; decide)
    | _ => exact ⟨_, rfl⟩

/-- Failures to make an item. -/
theorem construct_error {who : Who} {c : Cls} {wher : Tag} {e : Err} (h : itemTypes.lookup who = some c)
    (he : construct c wher = .error e) : who = .energyManagement ∧
      e = if wher.string.head? = some '7' ∧ '#' ∉ wher.string then .indexError else .invalidTag wher.string := by
  have hn : ¬ Placed who wher.string := by
    rw [← construct_iff h]; rintro ⟨i, hi⟩; rw [hi] at he; cases he
  have hw : who = .energyManagement := by
    by_contra hc; exact hn (placed_other hc)
  subst hw
  refine ⟨rfl, ?_⟩
  have : c = .energyManagement := by
    have : itemTypes.lookup Who.energyManagement = some Cls.energyManagement := by decide
    rw [this] at h; cases h; rfl
  subst this
  rw [placed_energy] at hn
  push Not at hn
  have := Energy.newTag_other hn
  change EnergyManagement.newTag wher = _ at he
  rw [show wher = ⟨wher.string⟩ from rfl, this] at he
  cases he; rfl

/-! ## Registrations -/

/-- The callbacks of a slot. -/
def slotCbs (r : Registry) : Slot → List Cb
  | .lightStatus => r.light .statusChange
  | .lightTemporization => r.light .lightTemporization
  | .lightLuminosity => r.light .luminosityChange
  | .lightHsv => r.light .hsvChange
  | .lightWhite => r.light .whiteTempChange
  | .automation => r.automation
  | .camera => r.camera
  | .gateway k => r.gateway k
  | .energy k => r.energy k

theorem register_slot (c : Cls) (m : Method) (cb : Cb) (r : Registry) :
    match register c m cb r with
    | .ok r' => ∃ k, slotOf c m = some k ∧ ∀ k', slotCbs r' k' = if k' = k then slotCbs r k' ++ [cb] else slotCbs r k'
    | .error _ => slotOf c m = none := by
  have em : ∀ m : Method, match m.energyKey with
      | some k => slotOf .energyManagement m = some (.energy k) ∧ slotOf .stopGo m = some (.energy k)
      | none => slotOf .energyManagement m = none ∧ slotOf .stopGo m = none := by
    intro m; cases m <;> exact ⟨rfl, rfl⟩
  have hm := em m
  cases c with
  | energyManagement =>
    have he : register .energyManagement m cb r = match m.energyKey with
        | some k => .ok { r with energy := addTo r.energy k cb }
        | none => .error .attributeError := by cases m <;> rfl
    rw [he]
    rcases hk : m.energyKey with _ | k
    · rw [hk] at hm
      exact hm.1
    · rw [hk] at hm
      refine ⟨.energy k, hm.1, fun k' => ?_⟩
      cases k' <;> simp [slotCbs, addTo]
      split <;> simp_all
  | stopGo =>
    have he : register .stopGo m cb r = match m.energyKey with
        | some k => .ok { r with energy := addTo r.energy k cb }
        | none => .error .attributeError := by cases m <;> rfl
    rw [he]
    rcases hk : m.energyKey with _ | k
    · rw [hk] at hm
      exact hm.2
    · rw [hk] at hm
      refine ⟨.energy k, hm.2, fun k' => ?_⟩
      cases k' <;> simp [slotCbs, addTo]
      split <;> simp_all
  | gateway =>
    cases m with
    | registerCallback k =>
      refine ⟨.gateway k, rfl, fun k' => ?_⟩
      cases k' <;> simp [slotCbs, addTo]
      split <;> simp_all
    | _ => rfl
  | _ =>
    cases m <;> first
      | rfl
      | (refine ⟨_, rfl, fun k' => ?_⟩; cases k' <;> simp [slotCbs, addTo])

end Events
