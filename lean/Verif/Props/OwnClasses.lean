import Verif.Proofs.OwnClasses
import Verif.Proofs.Loops

/-!
# Item classes of a program (C132)
-/

open Py Events Spec.Own Own

/-- C132: classes of the program, and entries for WHOs the library has no class for, change nothing for the library's
callbacks: the same tasks are made for them in the same order, with the same items, and the loop ends the same way. -/
theorem C132_harmless (P : Program) (hP : ∀ e ∈ P.types, Foreign e.1 ∧ Plain e.2) (py : Python) (call : Events.Call)
    (q : List Msg) (s : Events.State) (hs : s.transport = .opened) (S : Things) (hS : S.lib = s.items) :
    (Events.drain py call s q).trace = s.trace ++ madeBy none (listen P py call s.client s.registry S q).1 ∧
    (listen P py call s.client s.registry S q).2.1.lib = (Events.drain py call s q).items ∧
    (Events.drain py call s q).task =
      (match (listen P py call s.client s.registry S q).2.2 with | none => .waiting | some e => .raised e) := by
  induction q generalizing s S with
  | nil => exact ⟨by simp [Events.drain, listen, madeBy], hS, rfl⟩
  | cons m q ih =>
    -- one message
    have key : (∃ e, Events.handle py call s.client s.registry s.items m = (.error e, s.items) ∧
          ∃ S', handle P py call s.client s.registry S m = (.error e, S') ∧ S'.lib = s.items) ∨
        ∃ ts us items S', Events.handle py call s.client s.registry s.items m = (.ok ts, items) ∧
          handle P py call s.client s.registry S m = (.ok us, S') ∧ S'.lib = items ∧ madeBy none us = ts := by
      cases hw : m.who with
      | none =>
        refine .inr ⟨[], [], s.items, S, ?_, handle_silent P py call _ _ S hw, hS, rfl⟩
        unfold Events.handle
        rw [hw]
        split
        · rfl
        · split <;> rfl
      | some w =>
        obtain ⟨a, ha⟩ := who_wher hw
        rw [handle_addressed P py call _ _ S hw ha]
        have h0 : Events.handle py call s.client s.registry s.items m = match Events.getItem s.client w a s.items with
            | (.error .keyError, s') => (.ok [], s')
            | (.error e, s') => (.error e, s')
            | (.ok o, s') => (.ok (Events.dispatch py call s.registry o m), s') := by
          have h1 : ¬ (m.type = .ack ∨ m.type = .nack) := by cases m <;> simp_all [Msg.type, Msg.who]
          have h2 : ¬ m.type = .generic := by cases m <;> simp_all [Msg.type, Msg.who]
          unfold Events.handle
          rw [if_neg h1, if_neg h2, hw, ha]
          rfl
        rw [h0]
        unfold Own.getItem
        cases hl : P.types.lookup w with
        | some f =>
          obtain ⟨hf, hp⟩ := hP (w, f) (lookup_mem hl)
          have hg : Events.getItem s.client w a s.items = (.error .keyError, s.items) ∨
              ∃ o, Events.getItem s.client w a s.items = (.ok o, s.items) ∧ s.items.cache.lookup (w, a.string) = some o := by
            unfold Events.getItem
            cases hc : s.items.cache.lookup (w, a.string) with
            | some o => exact .inr ⟨o, rfl, rfl⟩
            | none => rw [foreign_types hf]; exact .inl rfl
          obtain ⟨⟨n, cl, i⟩, hx⟩ := plain_make hp a
          have hd : ∀ t, madeBy none (dispatch P py call s.registry t m) = [] := fun t => by
            unfold Own.dispatch
            rw [dispatch_foreign P py call _ t hf hw]
            exact dispatchOwn_made ..
          have he : ∀ o, Events.dispatch py call s.registry o m = [] := fun o => by
            have := dispatch_made P py call s.registry (.lib o) m subclasses
            rw [show dispatchIn P py call s.registry (.lib o) m subclasses = dispatch P py call s.registry (.lib o) m from rfl,
              hd] at this
            exact this.symm
          have goal : ∀ t S', S'.lib = s.items → ∃ ts us items S'', (match Events.getItem s.client w a s.items with
              | (.error .keyError, s') => ((.ok [], s') : Except Err (List Start) × Items)
              | (.error e, s') => (.error e, s')
              | (.ok o, s') => (.ok (Events.dispatch py call s.registry o m), s')) = (.ok ts, items) ∧
              ((.ok (dispatch P py call s.registry t m), S') : Except Err (List Told) × Things) = (.ok us, S'') ∧
              S''.lib = items ∧ madeBy none us = ts := by
            intro t S' h
            rcases hg with hg | ⟨o, hg, -⟩
            · rw [hg]; exact ⟨_, _, _, _, rfl, rfl, h, hd t⟩
            · rw [hg]; exact ⟨_, _, _, _, rfl, rfl, h, by rw [hd, he]⟩
          dsimp only
          cases hc : S.extra.lookup (w, a.string) with
          | some t => exact .inr (goal t S hS)
          | none => rw [hx]; exact .inr (goal _ _ hS)
        | none =>
          dsimp only
          rw [hS]
          rcases hg : Events.getItem s.client w a s.items with ⟨e | o, items⟩
          · have hi : items = s.items := by
              unfold Events.getItem at hg
              split at hg
              · cases hg
              · split at hg
                · cases hg; rfl
                · split at hg
                  · cases hg; rfl
                  · cases hg
            subst hi
            cases e <;> first
              | exact .inr ⟨_, _, _, _, rfl, rfl, rfl, rfl⟩
              | exact .inl ⟨_, rfl, _, rfl, rfl⟩
          · exact .inr ⟨_, _, _, _, rfl, rfl, rfl, dispatch_made P py call s.registry (.lib o) m subclasses⟩
    unfold Events.drain listen
    rcases key with ⟨e, h1, S', h2, h3⟩ | ⟨ts, us, items, S', h1, h2, h3, h4⟩
    · rw [h1, h2]
      exact ⟨by simp [madeBy], h3, rfl⟩
    · rw [h1, h2]
      dsimp only
      split <;> rename_i htr <;> first | (rw [hs] at htr; cases htr; done) | skip
      obtain ⟨i1, i2, i3⟩ := ih { s with queue := q, items := items, trace := s.trace ++ ts } hs S' h3
      refine ⟨?_, i2, i3⟩
      rw [madeBy_append, h4, ← List.append_assoc]
      exact i1

/-- C132: a class of the program is only told of messages of its own WHO, only if it derives directly from `BaseItem`, and
only up to Python 3.12. -/
theorem C132_sound (P : Program) (py : Python) (call : Events.Call) (client : Nat) (r : Registry) (q : List Msg) (s : Things)
    (n : Nat) (t : Start) (h : (some n, t) ∈ (listen P py call client r s q).1) :
    ∃ c ∈ P.classes, c.parent = none ∧ c.name = n ∧ py = .upTo312 ∧
      ∃ m ∈ q, m.who = some c.who ∧ ∃ item, t ∈ (c.calls item m).1 := by
  induction q generalizing s with
  | nil => cases h
  | cons m q ih =>
    unfold listen at h
    split at h
    · cases h
    · rename_i ts s' he
      have h' := List.mem_append.1 h
      clear h
      rcases h' with h | h
      · cases hw : m.who with
        | none =>
          rw [handle_silent P py call client r s hw] at he
          cases he; cases h
        | some w =>
          obtain ⟨a, ha⟩ := who_wher hw
          rw [handle_addressed P py call client r s hw ha] at he
          split at he
          · cases he; cases h
          · cases he
          · rename_i th _ _
            cases he
            obtain ⟨c, h1, h2, h3, h4, h5, h6⟩ := dispatch_sound h
            exact ⟨c, h1, h2, h3, h5, m, List.mem_cons_self, h4, th, h6⟩
      · obtain ⟨c, h1, h2, h3, h4, m', h5, h6⟩ := ih s' h
        exact ⟨c, h1, h2, h3, h4, m', List.mem_cons_of_mem _ h5, h6⟩

/-- C132 is false. (1) A class for a WHO of which `ITEM_TYPES` has no entry is told of nothing, (2) one for a WHO of the
library is not told of the messages the library's class takes, (3) one that derives from another item class is told of
nothing, whatever the entries, (4) from Python 3.13 on no class is told of anything. -/
theorem C132_own_refuted (P : Program) (py : Python) (call : Events.Call) (client : Nat) (r : Registry) :
    (∀ c ∈ P.classes, Foreign c.who ∨ c.who = .videoDoorEntry → P.types.lookup c.who = none →
      (∀ d ∈ P.classes, d.name = c.name → d = c) → ∀ q, madeBy (some c.name) (listen P py call client r .init q).1 = []) ∧
    (∀ (b : Base) t m, m.who = some b.who → (b.callCallbacks call r t.obj m).2 = .ok () → ∀ n,
      madeBy (some n) (dispatch P py call r t m) = []) ∧
    (∀ c ∈ P.classes, c.parent ≠ none → (∀ d ∈ P.classes, d.name = c.name → d = c) → ∀ s q,
      madeBy (some c.name) (listen P py call client r s q).1 = []) ∧
    (py = .from313 → ∀ s q n, madeBy (some n) (listen P py call client r s q).1 = []) := by
  have nothing : ∀ (n : Nat) (l : List Told), (∀ t, (some n, t) ∉ l) → madeBy (some n) l = [] := by
    intro n l h
    unfold madeBy
    rw [List.map_eq_nil_iff, List.filter_eq_nil_iff]
    rintro ⟨o, t⟩ ht e
    simp only [decide_eq_true_eq] at e
    subst e
    exact h t ht
  refine ⟨fun c _ hf ht hu q => ?_, fun b t m hm hok n => ?_, fun c hc hp hu s q => ?_, fun hpy s q n => ?_⟩
  · exact unlisted P py call client r hf ht hu q .init fun a => rfl
  · refine nothing n _ fun s hs => ?_
    cases py with
    | from313 =>
      obtain ⟨_, _, _, _, _, h, _⟩ := dispatch_sound hs
      cases h
    | upTo312 =>
      unfold Own.dispatch subclasses at hs
      cases b <;> simp only [Base.who] at hm <;>
        simp only [Own.dispatchIn, whoMatches, hm, Base.who, Option.some.injEq, reduceCtorEq, decide_false, decide_true,
          Bool.false_eq_true, if_false, if_true] at hs <;>
        split at hs <;> first
          | (simp at hs; done)
          | (rename_i he; rw [he] at hok; cases hok)
  · refine nothing c.name _ fun t ht => ?_
    obtain ⟨d, h1, h2, h3, -⟩ := C132_sound P py call client r q s _ t ht
    rw [hu d h1 h3] at h2
    exact hp h2
  · refine nothing n _ fun t ht => ?_
    obtain ⟨_, _, _, _, h, _⟩ := C132_sound P py call client r q s n t ht
    rw [hpy] at h
    cases h

/-- C132, partial: up to Python 3.12, a class that derives from `BaseItem`, is the only one with its WHO, is entered in
`ITEM_TYPES` and whose `call_callbacks` does not raise is told of every message of its WHO, once and in order, with one item
of its own per address. -/
theorem C132_told_partial (P : Program) (c : Own.Class) (hf : Foreign c.who) (hc : c ∈ P.classes) (hp : c.parent = none)
    (ht : P.types.lookup c.who = some (.own c)) (honly : ∀ d ∈ P.classes, d.parent = none → d.who = c.who → d = c)
    (hname : ∀ d ∈ P.classes, d.name = c.name → d = c) (hok : ∀ t m, (c.calls t m).2 = .ok ()) (call : Events.Call)
    (client : Nat) (r : Registry) (q : List Msg) (he : (listen P .upTo312 call client r .init q).2.2 = none) :
    ∃ item : Str → Thing, (∀ a, ItemAt c client a (item a)) ∧
      madeBy (some c.name) (listen P .upTo312 call client r .init q).1 = q.flatMap (makes c item) := by
  -- all items of the class in the dictionary are as they should be
  let Inv : Things → Prop := fun s => ∀ a t, s.extra.lookup (c.who, a) = some t → ItemAt c client a t
  have step : ∀ s m, Inv s → ∀ us s', handle P .upTo312 call client r s m = (.ok us, s') →
      Inv s' ∧ ((m.who = some c.who → ∀ a, m.wher = some a → ∃ t, s'.extra.lookup (c.who, a.string) = some t ∧
        madeBy (some c.name) us = (c.calls t m).1) ∧ (m.who ≠ some c.who → madeBy (some c.name) us = [])) := by
    intro s m hs us s' h
    cases hw : m.who with
    | none =>
      rw [handle_silent P _ call client r s hw] at h
      cases h
      exact ⟨hs, (fun h => by cases h), fun _ => rfl⟩
    | some w =>
      obtain ⟨a, ha⟩ := who_wher hw
      by_cases hwc : w = c.who
      · subst hwc
        have hgot : ∃ t, getItem P client c.who a s = (.ok t, (getItem P client c.who a s).2) ∧
            (getItem P client c.who a s).2.extra.lookup (c.who, a.string) = some t ∧ Inv (getItem P client c.who a s).2 := by
          unfold Own.getItem
          rw [ht]
          dsimp only
          cases hl : s.extra.lookup (c.who, a.string) with
          | some t => exact ⟨t, rfl, hl, hs⟩
          | none =>
            simp only [Factory.make, hp]
            refine ⟨_, rfl, by simp, fun b t hb => ?_⟩
            rw [List.lookup_cons] at hb
            split at hb
            · rename_i hk
              cases hb
              have : (c.who, b) = (c.who, a.string) := by simpa using hk
              cases this
              exact ⟨_, rfl, rfl, rfl⟩
            · exact hs b t hb
        obtain ⟨t, h1, h2, h3⟩ := hgot
        rw [handle_addressed P _ call client r s hw ha, h1] at h
        cases h
        refine ⟨h3, fun _ b hb => ?_, fun h => absurd rfl h⟩
        rw [ha] at hb
        cases hb
        refine ⟨t, h2, ?_⟩
        unfold Own.dispatch
        rw [dispatch_foreign P _ call r t hf hw, dispatchOwn_only hw (hok t m) (List.mem_filter.2 ⟨hc, by simp [hp]⟩)
          fun d hd e => honly d (List.mem_filter.1 hd).1 (by simpa using (List.mem_filter.1 hd).2) e]
        exact madeBy_own ..
      · rw [handle_addressed P _ call client r s hw ha] at h
        have hi : Inv (getItem P client w a s).2 := by
          unfold Own.getItem
          split
          · exact hs
          · split
            · exact hs
            · split
              · exact hs
              · intro b t hb
                rw [List.lookup_cons] at hb
                have : ((c.who, b) == (w, a.string)) = false := by
                  refine beq_eq_false_iff_ne.2 fun e => hwc ?_
                  exact (congrArg Prod.fst e).symm
                rw [this] at hb
                exact hs b t hb
        refine ⟨?_, fun h => absurd (Option.some.inj h) hwc, fun _ => ?_⟩
        · split at h <;> rename_i hg <;> cases h <;> rw [hg] at hi <;> exact hi
        · split at h
          · cases h; rfl
          · cases h
          · cases h
            unfold madeBy
            rw [List.map_eq_nil_iff, List.filter_eq_nil_iff]
            rintro ⟨o, t⟩ hmem e
            simp only [decide_eq_true_eq] at e
            subst e
            obtain ⟨d, h1, -, h2, h3, -⟩ := dispatch_sound hmem
            rw [hname d h1 h2, hw] at h3
            exact hwc (Option.some.inj h3)
  have main : ∀ q s, Inv s → (listen P .upTo312 call client r s q).2.2 = none →
      Inv (listen P .upTo312 call client r s q).2.1 ∧ ∀ item : Str → Thing,
        (∀ a t, (listen P .upTo312 call client r s q).2.1.extra.lookup (c.who, a) = some t → item a = t) →
        madeBy (some c.name) (listen P .upTo312 call client r s q).1 = q.flatMap (makes c item) := by
    intro q
    induction q with
    | nil => exact fun s hs _ => ⟨hs, fun _ _ => rfl⟩
    | cons m q ih =>
      intro s hs he
      unfold listen at he ⊢
      obtain ⟨x, hx⟩ : ∃ x, handle P .upTo312 call client r s m = x := ⟨_, rfl⟩
      obtain ⟨e | us, s'⟩ := x
      · rw [hx] at he; cases he
      · rw [hx] at he ⊢
        dsimp only at he ⊢
        obtain ⟨h1, h2, h3⟩ := step s m hs us s' hx
        obtain ⟨i1, i2⟩ := ih s' h1 he
        refine ⟨i1, fun item hitem => ?_⟩
        rw [madeBy_append, i2 item hitem, List.flatMap_cons]
        congr 1
        by_cases hw : m.who = some c.who
        · obtain ⟨a, ha⟩ := who_wher hw
          obtain ⟨t, h4, h5⟩ := h2 hw a ha
          rw [h5]
          unfold makes
          rw [hw, ha]
          dsimp only
          rw [if_pos rfl, hitem _ _ (listen_mono P _ call client r q s' h4)]
        · rw [h3 hw]
          unfold makes
          split
          · rename_i w a hw' ha
            rw [if_neg (fun e => hw (by rw [hw', e]))]
          · rfl
  obtain ⟨m1, m2⟩ := main q .init (fun a t h => by cases h) he
  refine ⟨fun a => ((listen P .upTo312 call client r .init q).2.1.extra.lookup (c.who, a)).getD
    (.extra (some c.name) ⟨0, .camera, ⟨c.who, ⟨a⟩⟩, client⟩), fun a => ?_, m2 _ fun a t h => by rw [h]; rfl⟩
  dsimp only
  cases h : (listen P .upTo312 call client r .init q).2.1.extra.lookup (c.who, a) with
  | none => exact ⟨_, rfl, rfl, rfl⟩
  | some t => exact m1 a t h

/-- C132: what `get_item` gives for a WHO the program entered a class for, whatever came before: an item of that class, with the
WHO of that class (also if it derives from a class of the library that has another), at the address asked for, of this client;
and the same object when asked again. -/
theorem C132_item (P : Program) (c : Own.Class) (w : Who) (ht : P.types.lookup w = some (.own c)) (hp : Plain (.own c))
    (hg : c.parent ≠ some .gateway) (py : Python) (call : Events.Call) (client : Nat) (r : Registry) (q : List Msg) (a : Tag) :
    ∃ t S, getItem P client w a (listen P py call client r .init q).2.1 = (.ok t, S) ∧ ItemAt c client a.string t ∧
      ∀ q', (getItem P client w a (listen P py call client r S q').2.1).1 = .ok t := by
  let Inv : Things → Prop := fun s => ∀ a t, s.extra.lookup (w, a) = some t → ItemAt c client a t
  have made : ∀ b : Tag, ∃ cl, (Factory.own c).make b = .ok (some c.name, cl, ⟨c.who, b⟩) := by
    intro b
    obtain ⟨n, p, wh, cs⟩ := c
    cases p with
    | none => exact ⟨_, rfl⟩
    | some p => cases p <;> first | exact ⟨_, rfl⟩ | (simp [Plain] at hp; done) | (simp at hg; done)
  have item : ∀ s v b, Inv s → Inv (getItem P client v b s).2 := by
    intro s v b hs
    unfold Own.getItem
    split
    · exact hs
    · rename_i f hf
      split
      · exact hs
      · split
        · exact hs
        · rename_i name cl i hm
          intro b' t hb
          rw [List.lookup_cons] at hb
          split at hb
          · rename_i hk
            have hk : (w, b') = (v, b.string) := by simpa using hk
            cases hk
            cases hb
            rw [ht] at hf
            cases hf
            obtain ⟨cl', h⟩ := made b
            rw [h] at hm
            cases hm
            exact ⟨_, rfl, rfl, rfl⟩
          · exact hs b' t hb
  have all : ∀ q s, Inv s → Inv (listen P py call client r s q).2.1 := by
    intro q
    induction q with
    | nil => exact fun s hs => hs
    | cons m q ih =>
      intro s hs
      have hh : Inv (handle P py call client r s m).2 := by
        cases hw : m.who with
        | none => rw [handle_silent P py call client r s hw]; exact hs
        | some v =>
          obtain ⟨b, hb⟩ := who_wher hw
          rw [handle_addressed P py call client r s hw hb]
          have := item s v b hs
          split <;> rename_i h <;> rw [h] at this <;> exact this
      unfold listen
      split <;> rename_i h <;> rw [h] at hh
      · exact hh
      · exact ih _ hh
  have hI := all q .init fun a t h => by cases h
  generalize (listen P py call client r .init q).2.1 = s at hI
  have found : ∀ S t, S.extra.lookup (w, a.string) = some t → getItem P client w a S = (.ok t, S) := by
    intro S t h
    unfold Own.getItem
    rw [ht]
    dsimp only
    rw [h]
  have kept : ∀ S t, S.extra.lookup (w, a.string) = some t → ∀ q',
      (getItem P client w a (listen P py call client r S q').2.1).1 = .ok t := fun S t h q' => by
    rw [found _ t (listen_mono P py call client r q' S h)]
  cases hl : s.extra.lookup (w, a.string) with
  | some t => exact ⟨t, s, found s t hl, hI _ t hl, kept s t hl⟩
  | none =>
    obtain ⟨cl, hm⟩ := made a
    refine ⟨.extra (some c.name) ⟨s.next, cl, ⟨c.who, a⟩, client⟩, { s with
      extra := ((w, a.string), .extra (some c.name) ⟨s.next, cl, ⟨c.who, a⟩, client⟩) :: s.extra, next := s.next + 1 },
      ?_, ⟨_, rfl, rfl, rfl⟩, kept _ _ ?_⟩
    · unfold Own.getItem
      rw [ht]
      dsimp only
      rw [hl, hm]
    · simp

/-- The hypotheses are met: a class derived from `Light`, with WHO 4. -/
example : let c : Own.Class := ⟨8, some .light, .thermoregulation, fun _ _ => ([], .ok ())⟩
    Plain (.own c) ∧ c.parent ≠ some .gateway ∧
    (getItem ⟨[c], [(.thermoregulation, .own c)]⟩ 1 .thermoregulation ⟨cs!"3"⟩ .init).1.toOption =
      some (.extra (some 8) ⟨0, .light, ⟨.thermoregulation, ⟨cs!"3"⟩⟩, 1⟩) := by
  refine ⟨by simp [Plain], by simp, by decide +kernel⟩

/-- C132: a program that enters `Camera` in `ITEM_TYPES` is told of camera events (compare C79): every registered callback
is called once, in order, with the camera, what it did and the message. -/
theorem C132_camera (P : Program) (ht : P.types.lookup .videoDoorEntry = some (.lib .camera)) (call : Events.Call)
    (hcall : ∀ t, call t = .ok ()) (client : Nat) (r : Registry) (S : Things) (what wher : Tag) (k : Str)
    (hk : WhatCamera.ofStr what.string = .ok k)
    (hS : ∀ t, S.extra.lookup (.videoDoorEntry, wher.string) = some t → t.obj.item = ⟨.videoDoorEntry, wher⟩) :
    ∃ t : Thing, t.obj.item = ⟨.videoDoorEntry, wher⟩ ∧
      (handle P .upTo312 call client r S (.normal .videoDoorEntry what wher)).1 =
        .ok (r.camera.map fun cb => (none, ⟨cb, t.obj, [.camera k, .message (.normal .videoDoorEntry what wher)]⟩)) := by
  have tasks : ∀ (fs : List Cb) (o : Obj) (args : List Arg),
      createTasks call fs o args = (fs.map fun f => ⟨f, o, args⟩, .ok ()) := by
    intro fs o args
    induction fs with
    | nil => rfl
    | cons f fs ih => rw [createTasks, hcall, ih]; rfl
  have disp : ∀ t : Thing, dispatch P .upTo312 call r t (.normal .videoDoorEntry what wher) =
      r.camera.map fun cb => (none, ⟨cb, t.obj, [.camera k, .message (.normal .videoDoorEntry what wher)]⟩) := by
    intro t
    have hcb : cameraCallbacks call r t.obj (.normal .videoDoorEntry what wher) =
        (r.camera.map fun cb => ⟨cb, t.obj, [.camera k, .message (.normal .videoDoorEntry what wher)]⟩, .ok ()) := by
      have he : cameraEvent (.normal .videoDoorEntry what wher) =
          .ok [.camera k, .message (.normal .videoDoorEntry what wher)] := by
        simp only [cameraEvent, hk]
        rfl
      unfold cameraCallbacks
      rw [he]
      exact tasks _ _ _
    simp [Own.dispatch, subclasses, Own.dispatchIn, whoMatches, Msg.who, Base.who, Base.callCallbacks, hcb]
  rw [handle_addressed P _ call client r S (w := .videoDoorEntry) (a := wher) rfl rfl]
  unfold Own.getItem
  rw [ht]
  dsimp only
  cases hl : S.extra.lookup (.videoDoorEntry, wher.string) with
  | some t => exact ⟨t, hS t hl, by rw [← disp t]⟩
  | none => exact ⟨.extra none ⟨S.next, .camera, ⟨.videoDoorEntry, wher⟩, client⟩, rfl, by rw [← disp]; rfl⟩

/-- A class for thermoregulation, WHO 4. -/
def thermostat : Own.Class := ⟨7, none, .thermoregulation, fun t m => ([⟨70, t.obj, [.message m]⟩], .ok ())⟩

/-- The hypotheses are met: with the entry the class is told of two events of one thermostat, with the same item; the light
in between goes to the library. -/
example :
    let P : Program := ⟨[thermostat], [(.thermoregulation, .own thermostat)]⟩
    let m := Msg.normal .thermoregulation ⟨cs!"1"⟩ ⟨cs!"3"⟩
    let l := Msg.normal .lighting ⟨cs!"1"⟩ ⟨cs!"12"⟩
    let r : Registry := { Registry.init with light := fun _ => [5] }
    let o : Obj := ⟨0, .camera, ⟨.thermoregulation, ⟨cs!"3"⟩⟩, 1⟩
    (listen P .upTo312 (fun _ => .ok ()) 1 r .init [m, l, m]).1 =
      [(some 7, ⟨70, o, [.message m]⟩), (none, ⟨5, ⟨0, .light, ⟨.lighting, ⟨cs!"12"⟩⟩, 1⟩, [.bool true]⟩),
       (some 7, ⟨70, o, [.message m]⟩)] ∧ Foreign thermostat.who := by
  refine ⟨by decide +kernel, by decide, by decide, by decide, by decide, by decide⟩

/-- Without it, it is told of nothing. -/
example :
    (listen ⟨[thermostat], []⟩ .upTo312 (fun _ => .ok ()) 1 .init .init
      [.normal .thermoregulation ⟨cs!"1"⟩ ⟨cs!"3"⟩]).1 = [] := by decide +kernel
