import Verif.Spec.Construct
import Verif.Proofs.Items

/-!
# Lemmas about the constructors
-/

open Py Spec Client Item Spec.Construct

namespace Construct

theorem code_of_ofStr {s : Str} {m : Who} (h : Who.ofStr s = .ok m) : m.code = s := by
  unfold Who.ofStr at h
  split at h
  · rename_i w hw
    cases h
    have := List.find?_some hw
    exact beq_iff_eq.1 this
  · cases h

theorem place_ok {a : WhereArg} {t : Tag} (h : place a = .ok t) : t.string = address a := by
  cases a with
  | tag u => cases h; rfl
  | text s =>
    change Tag.ofStr s = _ at h
    unfold Tag.ofStr at h
    split_ifs at h
    cases h; rfl

theorem base_given {cw : Who} {a : WhereArg} {o : Option WhoArg} {i : Item} (h : baseInit cw a o = .ok i) :
    i.wher.string = address a ∧ i.who.code = (match o with | none => cw.code | some (.member m) => m.code | some (.text s) => s) := by
  unfold baseInit at h
  rcases hp : place a with e | t
  · rw [hp] at h; cases h
  · rw [hp, ok_bind] at h
    rcases o with _ | m | s
    · cases h; exact ⟨place_ok hp, rfl⟩
    · cases h; exact ⟨place_ok hp, rfl⟩
    · dsimp only at h
      rcases hw : Who.ofStr s with e | m
      · rw [hw] at h; cases h
      · rw [hw] at h; cases h
        exact ⟨place_ok hp, code_of_ofStr hw⟩

theorem energy_base {a : WhereArg} {o : Option WhoArg} {i : Item} (h : energyInit a o = .ok i) :
    baseInit .energyManagement a o = .ok i := by
  unfold energyInit at h
  rcases hb : baseInit .energyManagement a o with e | j
  · rw [hb] at h; cases h
  · rw [hb, ok_bind] at h
    rcases hg : EnergyManagement.getType j.wher with e | t
    · rw [hg] at h; cases h
    · rw [hg] at h; cases h; rfl

theorem stopGo_energy {a : WhereArg} {o : Option WhoArg} {i : Item} (h : stopGoInit a o = .ok i) :
    energyInit a o = .ok i := by
  unfold stopGoInit at h
  rcases hb : energyInit a o with e | j
  · rw [hb] at h; cases h
  · rw [hb, ok_bind] at h
    rcases hg : EnergyManagement.getType j.wher with e | t
    · rw [hg] at h; cases h
    · rw [hg, ok_bind] at h
      split_ifs at h
      cases h; rfl

end Construct
