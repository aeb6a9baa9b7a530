import Verif.Spec.Construct
import Verif.Props.Gateway
import Verif.Props.Energy

/-!
# C100: is the value a getter returns an answer to what it asked?
-/

open Py Spec M Client Item Energy

/-- C100 is false: `get_ip` returns the netmask when that is what arrives, and `get_active_power` of one meter returns the
power of another. -/
theorem C100_own_answer_refuted (cfg : Config) (hs : cfg.session ≠ .event) :
    (∃ w m, Ready cfg w ∧ w.inbox = [.msg m, .msg .ack] ∧ ¬ OfRequest Gateway.item ⟨cs!"10"⟩ m ∧
      OfRequest Gateway.item ⟨cs!"11"⟩ m ∧ (Gateway.getIp cfg none w).1 = .ok 4294967040) ∧
    (∃ w m, Ready cfg w ∧ w.inbox = [.msg m, .msg .ack] ∧ ¬ OfRequest ⟨.energyManagement, ⟨cs!"51"⟩⟩ ⟨cs!"113"⟩ m ∧
      OfRequest ⟨.energyManagement, ⟨cs!"52"⟩⟩ ⟨cs!"113"⟩ m ∧
      ∃ x, pyFloat cs!"230" = .ok x ∧
        (EnergyManagement.getActivePower cfg ⟨.energyManagement, ⟨cs!"51"⟩⟩ w).1 = .ok x) := by
  constructor
  · refine ⟨⟨[], true, [.msg (.dimResp .gateway ⟨[]⟩ ⟨cs!"11"⟩ [⟨cs!"255"⟩, ⟨cs!"255"⟩, ⟨cs!"255"⟩, ⟨cs!"0"⟩]), .msg .ack], []⟩,
      _, ⟨rfl, hs⟩, rfl, ?_, ⟨_, rfl⟩, ?_⟩
    · rintro ⟨vs, h⟩
      injection h with _ _ h
      revert h; decide
    · rw [((C58_getters cfg).1.2 _).2 ⟨rfl, hs⟩ [_] [.msg .ack] (.ok ()) [] [.got .ack] (by simp) rfl (.acknowledged [])]
      decide +kernel
  · refine ⟨⟨[], true, [.msg (.dimResp .energyManagement ⟨cs!"52"⟩ ⟨cs!"113"⟩ [⟨cs!"230"⟩]), .msg .ack], []⟩,
      _, ⟨rfl, hs⟩, rfl, ?_, ⟨_, rfl⟩, ?_⟩
    · rintro ⟨vs, h⟩
      injection h with _ h
      revert h; decide
    · have hx : ∃ x, pyFloat cs!"230" = .ok x := by
        rw [pyFloat_eq, if_pos (by simp [Digits])]
        exact ⟨_, rfl⟩
      obtain ⟨x, hx⟩ := hx
      refine ⟨x, hx, ?_⟩
      rw [((C73_getters cfg ⟨.energyManagement, ⟨cs!"51"⟩⟩ (by decide +kernel)).1 _).2 ⟨rfl, hs⟩
        [.dimResp .energyManagement ⟨cs!"52"⟩ ⟨cs!"113"⟩ [⟨cs!"230"⟩]] [.msg .ack] (.ok ()) [] [.got .ack]
        (by simp [DimReply]) rfl (.acknowledged [])]
      exact hx

/-- C100 (partial): if all the dimension messages up to the end of the exchange are about the item and the dimension asked
for, so is the one returned.  Missing: the library does not check it. -/
theorem C100_own_answer_partial (cfg : Config) (i : Item) (hi : TagText i.wher.string) (dim : Tag)
    (hd : TagText dim.string) (w : World) (hw : Ready cfg w) (rs : List Msg) (hrs : ∀ m ∈ rs, OfRequest i dim m)
    (tail : List InEv) (hin : w.inbox = rs.map .msg ++ tail) (r : Except Err Unit) (rest : List InEv) (acts : List CAct)
    (he : Ending (fun m => ∃ wo we d vs, m = .dimResp wo we d vs) tail r rest acts) (m : Msg)
    (h : (singleDimReq cfg i dim w).1 = .ok m) : OfRequest i dim m ∧ rs.head? = some m := by
  rw [C37_single cfg i hi dim hd w hw rs (fun m hm => by obtain ⟨vs, h⟩ := hrs m hm; exact ⟨_, _, _, _, h⟩) tail hin r rest
    acts he] at h
  rcases r with e | ⟨⟩
  · cases h
  · cases rs with
    | nil => cases h
    | cons a rs =>
      cases h
      exact ⟨hrs _ (by simp), rfl⟩

/-- The hypotheses are met. -/
example (cfg : Config) (hs : cfg.session ≠ .event) :
    ∃ m, (singleDimReq cfg Gateway.item ⟨cs!"15"⟩
      ⟨[], true, [.msg (.dimResp .gateway ⟨[]⟩ ⟨cs!"15"⟩ [⟨cs!"2"⟩]), .msg .ack], []⟩).1 = .ok m ∧
      OfRequest Gateway.item ⟨cs!"15"⟩ m := by
  have hm : (singleDimReq cfg Gateway.item ⟨cs!"15"⟩
      ⟨[], true, [.msg (.dimResp .gateway ⟨[]⟩ ⟨cs!"15"⟩ [⟨cs!"2"⟩]), .msg .ack], []⟩).1 =
      .ok (.dimResp .gateway ⟨[]⟩ ⟨cs!"15"⟩ [⟨cs!"2"⟩]) := by
    rw [C37_single cfg _ (by decide +kernel) _ (by decide +kernel) _ ⟨rfl, hs⟩ [_] (by simp) [.msg .ack] rfl _ _ _
      (.acknowledged _)]
  exact ⟨_, hm, (C100_own_answer_partial cfg _ (by decide +kernel) _ (by decide +kernel) _ ⟨rfl, hs⟩
    [.dimResp .gateway ⟨[]⟩ ⟨cs!"15"⟩ [⟨cs!"2"⟩]] (by simpa using ⟨_, rfl⟩) [.msg .ack] rfl _ _ _ (.acknowledged _) _ hm).1⟩
