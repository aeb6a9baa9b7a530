import Verif.Spec.OwnClasses
import Verif.Proofs.Events

/-!
# Lemmas about item classes of a program
-/

open Py Events Spec.Own

namespace Own

theorem lookup_mem {α β : Type} [BEq α] [LawfulBEq α] {k : α} {v : β} {l : List (α × β)} (h : l.lookup k = some v) :
    (k, v) ∈ l := by
  induction l with
  | nil => cases h
  | cons x l ih =>
    obtain ⟨a, b⟩ := x
    rw [List.lookup_cons] at h
    split at h
    · rename_i hk
      cases h
      rw [eq_of_beq hk]
      exact List.mem_cons_self
    · exact List.mem_cons_of_mem _ (ih h)

theorem plain_make {f : Factory} (h : Plain f) (a : Tag) : ∃ x, f.make a = .ok x := by
  cases f with
  | lib c => cases c <;> simp_all [Plain, Factory.make, construct, Except.map]
  | own c =>
    obtain ⟨n, p, w, cl⟩ := c
    cases p with
    | none => exact ⟨_, rfl⟩
    | some p => cases p <;> simp_all [Plain, Factory.make, construct, Except.map]

theorem foreign_types {w : Who} (h : Foreign w) : itemTypes.lookup w = none := by
  obtain ⟨h1, h2, h3, h4, h5⟩ := h
  cases w <;> first | rfl | exact absurd rfl ‹_›

theorem foreign_matches {w : Who} (h : Foreign w) {m : Msg} (hm : m.who = some w) (py : Python) (b : Base) :
    whoMatches py m b = false := by
  cases py
  · obtain ⟨h1, h2, h3, h4, h5⟩ := h
    cases b <;> simp_all [whoMatches, Base.who]
  · rfl

/-- Tasks of the classes of the program only. -/
theorem dispatchOwn_made (py : Python) (t : Thing) (m : Msg) (cs : List Class) : madeBy none (dispatchOwn py t m cs) = [] := by
  induction cs with
  | nil => rfl
  | cons c cs ih =>
    unfold dispatchOwn
    unfold madeBy at ih ⊢
    split
    · rcases c.calls t m with ⟨ts, _ | ⟨⟩⟩
      · simp only [List.filter_append, List.map_append, ih, List.append_nil]
        simp
      · simp
    · exact ih

theorem madeBy_append (n : Option Nat) (a b : List Told) : madeBy n (a ++ b) = madeBy n a ++ madeBy n b := by
  simp [madeBy]

theorem madeBy_lib (ts : List Start) : madeBy none (ts.map (none, ·)) = ts := by
  simp [madeBy, List.filter_map, Function.comp_def]

theorem madeBy_own (n : Nat) (ts : List Start) : madeBy (some n) (ts.map (some n, ·)) = ts := by
  simp [madeBy, List.filter_map, Function.comp_def]

/-- The library's tasks do not depend on the classes of the program. -/
theorem dispatch_made (P : Program) (py : Python) (call : Call) (r : Registry) (t : Thing) (m : Msg) (bs : List Base) :
    madeBy none (dispatchIn P py call r t m bs) = Events.dispatchIn py call r t.obj m bs := by
  induction bs with
  | nil => exact dispatchOwn_made ..
  | cons b bs ih =>
    unfold dispatchIn Events.dispatchIn
    split
    · rcases b.callCallbacks call r t.obj m with ⟨ts, _ | ⟨⟩⟩
      · simp only [madeBy_append, madeBy_lib, ih]
      · exact madeBy_lib ts
    · exact ih

/-- With a WHO of no class of the library only the classes of the program are tried. -/
theorem dispatch_foreign (P : Program) (py : Python) (call : Call) (r : Registry) (t : Thing) {w : Who} (h : Foreign w)
    {m : Msg} (hm : m.who = some w) (bs : List Base) :
    dispatchIn P py call r t m bs = dispatchOwn py t m (P.classes.filter fun c => c.parent = none) := by
  induction bs with
  | nil => rfl
  | cons b bs ih =>
    unfold dispatchIn
    rw [foreign_matches h hm]
    exact ih

/-- Where the tasks of the classes of the program come from. -/
theorem dispatchOwn_sound {py : Python} {t : Thing} {m : Msg} {cs : List Class} {n : Nat} {s : Start}
    (h : (some n, s) ∈ dispatchOwn py t m cs) : ∃ c ∈ cs, c.name = n ∧ m.who = some c.who ∧ py = .upTo312 ∧ s ∈ (c.calls t m).1 := by
  induction cs with
  | nil => cases h
  | cons c cs ih =>
    unfold dispatchOwn at h
    have step : (some n, s) ∈ dispatchOwn py t m cs →
        ∃ d ∈ c :: cs, d.name = n ∧ m.who = some d.who ∧ py = .upTo312 ∧ s ∈ (d.calls t m).1 := fun h => by
      obtain ⟨d, hd, h⟩ := ih h
      exact ⟨d, List.mem_cons_of_mem _ hd, h⟩
    split at h
    · rename_i hc
      have hc : py = .upTo312 ∧ m.who = some c.who := by cases py <;> simp_all [Class.matches]
      have here : (some n, s) ∈ (c.calls t m).1.map (some c.name, ·) →
          ∃ d ∈ c :: cs, d.name = n ∧ m.who = some d.who ∧ py = .upTo312 ∧ s ∈ (d.calls t m).1 := fun h => by
        simp only [List.mem_map, Prod.mk.injEq, Option.some.injEq] at h
        obtain ⟨s', h1, h2, rfl⟩ := h
        exact ⟨c, List.mem_cons_self, h2, hc.2, hc.1, h1⟩
      split at h
      · rename_i ts e he
        rcases List.mem_append.1 h with h | h
        · exact here (by rw [he]; exact h)
        · exact step h
      · rename_i ts he
        exact here (by rw [he]; exact h)
    · exact step h

theorem dispatch_sound {P : Program} {py : Python} {call : Call} {r : Registry} {t : Thing} {m : Msg} {bs : List Base} {n : Nat}
    {s : Start} (h : (some n, s) ∈ dispatchIn P py call r t m bs) :
    ∃ c ∈ P.classes, c.parent = none ∧ c.name = n ∧ m.who = some c.who ∧ py = .upTo312 ∧ s ∈ (c.calls t m).1 := by
  induction bs with
  | nil =>
    obtain ⟨c, hc, h⟩ := dispatchOwn_sound h
    rw [List.mem_filter] at hc
    exact ⟨c, hc.1, by simpa using hc.2, h⟩
  | cons b bs ih =>
    unfold dispatchIn at h
    split at h
    · split at h
      · rcases List.mem_append.1 h with h | h
        · simp at h
        · exact ih h
      · simp at h
    · exact ih h

/-- One message: what the body of the loop does, in terms of `get_item` and the dispatcher. -/
theorem handle_addressed (P : Program) (py : Python) (call : Call) (client : Nat) (r : Registry) (s : Things) {m : Msg}
    {w : Who} {a : Tag} (hw : m.who = some w) (ha : m.wher = some a) :
    handle P py call client r s m = match getItem P client w a s with
      | (.error .keyError, s') => (.ok [], s')
      | (.error e, s') => (.error e, s')
      | (.ok t, s') => (.ok (dispatch P py call r t m), s') := by
  have h1 : ¬ (m.type = .ack ∨ m.type = .nack) := by cases m <;> simp_all [Msg.type, Msg.who]
  have h2 : ¬ m.type = .generic := by cases m <;> simp_all [Msg.type, Msg.who]
  unfold handle
  rw [if_neg h1, if_neg h2, hw, ha]
  rfl

theorem handle_silent (P : Program) (py : Python) (call : Call) (client : Nat) (r : Registry) (s : Things) {m : Msg}
    (hw : m.who = none) : handle P py call client r s m = (.ok [], s) := by
  unfold handle
  rw [hw]
  split
  · rfl
  · split <;> rfl

theorem who_wher {m : Msg} {w : Who} (h : m.who = some w) : ∃ a, m.wher = some a := by
  cases m <;> simp_all [Msg.who, Msg.wher]

/-- What is in the dictionary stays. -/
theorem getItem_mono (P : Program) (client : Nat) (w : Who) (a : Tag) (s : Things) {k : Who × Str} {t : Thing}
    (h : s.extra.lookup k = some t) : (getItem P client w a s).2.extra.lookup k = some t := by
  unfold getItem
  split
  · exact h
  · split
    · exact h
    · rename_i hn
      split
      · exact h
      · have hk : (k == (w, a.string)) = false := by
          refine beq_eq_false_iff_ne.2 fun e => ?_
          rw [e, hn] at h
          cases h
        simp only [List.lookup_cons, hk]
        exact h

theorem handle_mono (P : Program) (py : Python) (call : Call) (client : Nat) (r : Registry) (s : Things) (m : Msg)
    {k : Who × Str} {t : Thing} (h : s.extra.lookup k = some t) :
    (handle P py call client r s m).2.extra.lookup k = some t := by
  cases hw : m.who with
  | none => rw [handle_silent P py call client r s hw]; exact h
  | some w =>
    obtain ⟨a, ha⟩ := who_wher hw
    rw [handle_addressed P py call client r s hw ha]
    have := getItem_mono P client w a s h
    split <;> simp_all

theorem listen_mono (P : Program) (py : Python) (call : Call) (client : Nat) (r : Registry) (q : List Msg) (s : Things)
    {k : Who × Str} {t : Thing} (h : s.extra.lookup k = some t) :
    (listen P py call client r s q).2.1.extra.lookup k = some t := by
  induction q generalizing s with
  | nil => exact h
  | cons m q ih =>
    have h1 := handle_mono P py call client r s m h
    unfold listen
    split
    · rename_i e s' he
      rw [he] at h1
      exact h1
    · rename_i ts s' he
      rw [he] at h1
      exact ih s' h1

/-- Only the class `c` is tried, and it takes the message. -/
theorem dispatchOwn_only {t : Thing} {m : Msg} {c : Class} (hm : m.who = some c.who) (hok : (c.calls t m).2 = .ok ())
    {cs : List Class} (hc : c ∈ cs) (honly : ∀ d ∈ cs, d.who = c.who → d = c) :
    dispatchOwn .upTo312 t m cs = (c.calls t m).1.map (some c.name, ·) := by
  induction cs with
  | nil => cases hc
  | cons d cs ih =>
    unfold dispatchOwn
    by_cases hd : d.who = c.who
    · have e := honly d List.mem_cons_self hd
      subst e
      rw [if_pos (by simp [Class.matches, hm])]
      split
      · rename_i ts e he
        rw [he] at hok
        cases hok
      · rename_i ts he
        rw [he]
    · rw [if_neg (by simp [Class.matches, hm, Ne.symm hd])]
      refine ih ?_ fun d hd => honly d (List.mem_cons_of_mem _ hd)
      rcases List.mem_cons.1 hc with rfl | h
      · exact absurd rfl hd
      · exact h

theorem madeBy_nil {n : Nat} {l : List Told} (h : ∀ t, (some n, t) ∉ l) : madeBy (some n) l = [] := by
  unfold madeBy
  rw [List.map_eq_nil_iff, List.filter_eq_nil_iff]
  rintro ⟨o, t⟩ ht e
  simp only [decide_eq_true_eq] at e
  subst e
  exact h t ht

/-- A class whose WHO has no entry is told of nothing. -/
theorem unlisted (P : Program) (py : Python) (call : Call) (client : Nat) (r : Registry) {c : Class}
    (hf : Foreign c.who ∨ c.who = .videoDoorEntry) (ht : P.types.lookup c.who = none)
    (hu : ∀ d ∈ P.classes, d.name = c.name → d = c) (q : List Msg) (s : Things)
    (hs : ∀ a, s.lib.cache.lookup (c.who, a) = none) : madeBy (some c.name) (listen P py call client r s q).1 = [] := by
  have hl : itemTypes.lookup c.who = none := by
    rcases hf with h | h
    · exact foreign_types h
    · rw [h]; rfl
  induction q generalizing s with
  | nil => rfl
  | cons m q ih =>
    have key : (∀ a, (handle P py call client r s m).2.lib.cache.lookup (c.who, a) = none) ∧
        ∀ us, (handle P py call client r s m).1 = .ok us → madeBy (some c.name) us = [] := by
      cases hw : m.who with
      | none =>
        rw [handle_silent P py call client r s hw]
        exact ⟨hs, fun us h => by cases h; rfl⟩
      | some w =>
        obtain ⟨a, ha⟩ := who_wher hw
        rw [handle_addressed P py call client r s hw ha]
        by_cases hwc : w = c.who
        · subst hwc
          have hg : getItem P client c.who a s = (.error .keyError, s) := by
            unfold getItem
            rw [ht]
            dsimp only
            unfold Events.getItem
            rw [hs, hl]
            rfl
          rw [hg]
          exact ⟨hs, fun us h => by cases h; rfl⟩
        · have hc : ∀ b, (getItem P client w a s).2.lib.cache.lookup (c.who, b) = none := by
            intro b
            unfold getItem
            split
            · dsimp only
              unfold Events.getItem
              split
              · exact hs b
              · split
                · exact hs b
                · split
                  · exact hs b
                  · have : ((c.who, b) == (w, a.string)) = false :=
                      beq_eq_false_iff_ne.2 fun e => hwc (congrArg Prod.fst e).symm
                    simp only [List.lookup_cons, this]
                    exact hs b
            · split
              · exact hs b
              · split <;> exact hs b
          have hd : ∀ t, madeBy (some c.name) (dispatch P py call r t m) = [] := fun t => by
            refine madeBy_nil fun x hx => ?_
            obtain ⟨d, h1, -, h2, h3, -⟩ := dispatch_sound hx
            rw [hu d h1 h2, hw] at h3
            exact hwc (Option.some.inj h3)
          rcases hg : getItem P client w a s with ⟨e | t, s'⟩
          · rw [hg] at hc
            cases e <;> exact ⟨hc, fun us h => by cases h; try rfl⟩
          · rw [hg] at hc
            exact ⟨hc, fun us h => by cases h; exact hd t⟩
    unfold listen
    obtain ⟨x, hx⟩ : ∃ x, handle P py call client r s m = x := ⟨_, rfl⟩
    obtain ⟨e | us, s'⟩ := x
    · rw [hx]; rfl
    · rw [hx] at key ⊢
      dsimp only
      rw [madeBy_append, key.2 us rfl, ih s' key.1]
      rfl

end Own
