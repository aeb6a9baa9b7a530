import Verif.Props.Loops
import Verif.Props.Origin

/-! # C94: a table kept by a callback -/

open Py Spec Events

namespace Spec

/-- The table an application keeps with `async def cb(item, status): table[item.where] = status`: what the calls of `cb`
leave under `wher`. -/
def tableOf (cb : Cb) (calls : List Start) (wher : Str) : Option Bool :=
  calls.foldl (fun t x =>
    match x.args with
    | [.bool b] => if x.cb = cb ∧ x.item.item.wher.string = wher then some b else t
    | _ => t) none

/-- The last status a gateway reported for the light at `wher`: on if the WHAT was `1`. -/
def lastStatus (ms : List Msg) (wher : Str) : Option Bool :=
  ms.foldl (fun t m =>
    match m with
    | .normal .lighting what w => if w.string = wher then some (what.string = cs!"1") else t
    | _ => t) none

/-- Acts other than the registration of a callback. -/
def Act.Plain : Act → Prop
  | .register .. => False
  | _ => True

end Spec

theorem enrolled_plain {h : List Act} (hp : ∀ a ∈ h, Act.Plain a) (k : Slot) : enrolled k h = [] := by
  induction h with
  | nil => rfl
  | cons a h ih =>
    have := hp a (by simp)
    cases a with
    | register => exact this.elim
    | _ => exact ih fun a ha => hp a (by simp [ha])

/-- Status events are the messages `*1*WHAT*WHERE##`. -/
theorem firing_status {m : Msg} {args : List Arg} (h : firing m = some (.lightStatus, args)) :
    ∃ what w, m = .normal .lighting what w := by
  unfold firing at h
  split at h
  · exact ⟨_, _, rfl⟩
  all_goals first
    | (cases h; done)
    | (split_ifs at h <;> simp at h; done)
    | (simp at h; done)

/-- C94: on Python up to 3.12, a callback registered before the first loop keeps a table of the lights that agrees with the
messages received, whatever else arrives and whatever loops are called, cancelled and called again, once nothing is left in the
queue. -/
theorem C94_mirror_partial (call : Call) (hc : AllStart call) (session : Session) (cb : Cb) (h : List Act)
    (hp : ∀ a ∈ h, Act.Plain a)
    (hq : ((Many.init session).run .upTo312 call (.register .light .onStatusChange cb :: h)).base.queue = []) (wher : Str) :
    tableOf cb ((Many.init session).run .upTo312 call (.register .light .onStatusChange cb :: h)).base.trace wher =
      lastStatus (arrived h) wher := by
  obtain ⟨log, k⟩ := many_kept .upTo312 call session (.register .light .onStatusChange cb :: h)
  generalize (Many.init session).run .upTo312 call (.register .light .onStatusChange cb :: h) = s at k hq
  have hon := k.once
  rw [hq, List.append_nil] at hon
  have harr : arrived (.register .light .onStatusChange cb :: h) = arrived h := rfl
  rw [harr] at hon
  rw [← hon, k.trace _ k.inv.items (Keeps.refl _)]
  have hreg : ∀ e ∈ log, ∀ slot, enrolled slot e.1 = if slot = .lightStatus then [cb] else [] := by
    intro e he slot
    have : ∃ l, e.1 = .register .light .onStatusChange cb :: l ∧ l <+: h := by
      obtain ⟨id, hm⟩ := k.moment e he
      rcases he1 : e.1 with _ | ⟨a, l⟩
      · rw [he1] at hm
        rcases hm with hm | ⟨c, hm⟩ <;> · obtain ⟨t, ht⟩ := hm; simp at ht
      · rw [he1] at hm
        rcases hm with hm | ⟨c, hm⟩
        all_goals
          rw [List.cons_append, List.cons_prefix_cons] at hm
          exact ⟨l, by rw [hm.1], (List.prefix_append _ _).trans hm.2⟩
    obtain ⟨l, hl, hpre⟩ := this
    rw [hl]
    simp only [enrolled]
    rw [enrolled_plain fun a ha => hp a (hpre.subset ha)]
    by_cases e1 : slot = .lightStatus
    · subst e1; rfl
    · rw [if_neg e1, if_neg]
      intro hs
      exact e1 (Option.some.inj hs).symm
  have hf := k.found
  have hi := k.inv.items
  unfold tableOf lastStatus
  generalize (none : Option Bool) = t
  clear hon harr hq k
  induction log generalizing t with
  | nil => rfl
  | cons e log ih =>
    rw [List.flatMap_cons, List.foldl_append, List.map_cons, List.foldl_cons]
    rw [ih (fun x hx => hreg x (by simp [hx])) (fun x hx => hf x (by simp [hx]))]
    congr 1
    have hr := hreg e (by simp)
    have hfe := hf e (by simp)
    by_cases hm : ∃ what w, e.2 = .normal .lighting what w
    · obtain ⟨what, w, hm⟩ := hm
      rw [hm] at hfe ⊢
      obtain ⟨o, ho⟩ := hfe .lighting w .light rfl rfl rfl (placed_other (by decide))
      obtain ⟨g1, g2⟩ := hi.made _ _ ho
      have hw := (construct_place g2 g1).2
      have hcl : o.cls = .light := by
        have : itemTypes.lookup Who.lighting = some Cls.light := by decide
        rw [this] at g1; exact (Option.some.inj g1).symm
      rw [hcl] at hw
      have hb : begunIn .upTo312 call (fun k => enrolled k e.1) s.base.items (.normal .lighting what w) =
          [⟨cb, o, [.bool (what.string = cs!"1")]⟩] := by
        unfold begunIn
        simp only [Msg.who, Msg.wher, ho]
        unfold starts
        simp only [firing, hr, if_true, List.map_cons, List.map_nil]
        rw [List.takeWhile_cons_of_pos (by rw [hc]; rfl)]
        rfl
      rw [hb]
      simp only [List.foldl_cons, List.foldl_nil, true_and, hw, placeOf]
      rfl
    · have hb : begunIn .upTo312 call (fun k => enrolled k e.1) s.base.items e.2 = [] := by
        unfold begunIn
        split
        · split
          · rename_i o _
            unfold starts
            rcases hfi : firing e.2 with _ | ⟨slot, args⟩
            · rfl
            · dsimp only
              rw [hr, if_neg]
              · rfl
              · rintro rfl
                exact hm (firing_status hfi)
          · rfl
        · rfl
      rw [hb, List.foldl_nil]
      split
      · rename_i what w he
        exact absurd ⟨what, w, he⟩ hm
      · rfl

/-- C94 is refuted on Python 3.13 and later, where no callback is ever started: the table stays empty although a light was
reported on. -/
theorem C94_mirror_refuted : ∃ h : List Act, (∀ a ∈ h, Act.Plain a) ∧
    ((Many.init .event).run .from313 allStart (.register .light .onStatusChange 7 :: h)).base.queue = [] ∧
    tableOf 7 ((Many.init .event).run .from313 allStart (.register .light .onStatusChange 7 :: h)).base.trace cs!"12" = none ∧
    lastStatus (arrived h) cs!"12" = some true :=
  ⟨[.loop 0 0, .packet (bytes "*1*1*12##"), .resume 0], by simp [Act.Plain], by decide +kernel, by decide +kernel,
    by decide +kernel⟩

/-- The table after five events, a cancellation and a new loop. -/
example : let h : List Act := [.loop 0 0, .packet (bytes "*1*1*12##*1*1*13##"), .resume 0, .packet (bytes "*#18*51*113*5##"),
      .cancel 0, .packet (bytes "*1*0*12##*1*1*0114##"), .loop 1 0]
    ∀ a ∈ h, Act.Plain a := by simp [Act.Plain]
example : [cs!"12", cs!"13", cs!"0114", cs!"15"].map (tableOf 7 ((Many.init .event).run .upTo312 allStart
    [.register .light .onStatusChange 7, .loop 0 0, .packet (bytes "*1*1*12##*1*1*13##"), .resume 0,
      .packet (bytes "*#18*51*113*5##"), .cancel 0, .packet (bytes "*1*0*12##*1*1*0114##"), .loop 1 0]).base.trace) =
    [some false, some true, some true, none] := by decide +kernel
