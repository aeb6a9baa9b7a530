import Verif.Spec.ModelLogs

/-! # Lemmas on what is logged about the model of a gateway (for C120) -/

open Py Spec Spec.ModelLogs

/-- What the enumeration does with a code. -/
theorem modelLogs_ofStr (s : Str) : (ModelLogs.ofStr s).1 = GatewayModel.ofStr s ∧
    (s ∈ known → (ModelLogs.ofStr s).2 = []) ∧ (s ∉ known → (ModelLogs.ofStr s).1 = .generic ∧ Told s (shown (ModelLogs.ofStr s).2)) := by
  have hk : s ∈ known ↔ ∃ m : GatewayModel, m.code = s := by
    constructor
    · intro h
      simp only [known, List.mem_cons, List.not_mem_nil, or_false] at h
      rcases h with rfl | rfl | rfl | rfl | rfl | rfl | rfl | rfl | rfl
      exacts [⟨.generic, rfl⟩, ⟨.mhServer, rfl⟩, ⟨.mh200, rfl⟩, ⟨.f452, rfl⟩, ⟨.f452v, rfl⟩, ⟨.mhServer2, rfl⟩, ⟨.h4684, rfl⟩,
        ⟨.hl4684, rfl⟩, ⟨.mh202, rfl⟩]
    · rintro ⟨m, rfl⟩; cases m <;> decide
  unfold ModelLogs.ofStr GatewayModel.ofStr
  cases hf : GatewayModel.all.find? (fun m => m.code == s) with
  | some m =>
    have := List.find?_some hf
    exact ⟨rfl, fun _ => rfl, fun h => absurd (hk.2 ⟨m, by simpa using this⟩) h⟩
  | none =>
    refine ⟨rfl, fun h => ?_, fun _ => ⟨rfl, rfl⟩⟩
    obtain ⟨m, hm⟩ := hk.1 h
    have := List.find?_eq_none.1 hf m (by cases m <;> decide)
    simp [hm] at this
