import Verif.Spec.Agree
import Verif.Proofs.Loop
import Verif.Proofs.Queries
import Verif.Props.Items

open Py M Spec Events Item

namespace Agree

/-- What the body of a query makes of the only reply. -/
def bodyGives {β : Type} (r : Except Err (List β)) : List β × Except Err Unit :=
  match r with
  | .ok ys => (ys, .ok ())
  | .error e => ([], .error e)

theorem drain_one {β : Type} {want : Msg → Bool} (hk : want .ack = false ∧ want .nack = false) (body : Msg → Except Err (List β))
    {w : World} (hw : w.started = true) {m : Msg} (hm : want m = true) (hin : w.inbox = [.msg m, .msg .ack]) :
    (drain want body w).1 = bodyGives (body m) := by
  rw [drain_cons hk hw hin hm]
  rcases body m with e | ys
  · rfl
  · dsimp only
    rw [drain_ending hk (w := w.after [.msg .ack] [.got m]) hw (.acknowledged [])]
    simp [bodyGives]

theorem status_one {β : Type} {cfg : Config} {i : Item} (hi : TagText i.wher.string) (body : Msg → Except Err (List β)) {w : World}
    (hw : Ready cfg w) {m : Msg} (hm : m.isNormal = true) (hin : w.inbox = [.msg m, .msg .ack]) :
    (statusStream cfg i body w).1 = bodyGives (body m) := by
  unfold statusStream stream
  rw [send_allowed hw.1 hw.2 (tags_status hi)]
  exact drain_one (w := w.after w.inbox _) normal_ends body hw.1 hm hin

theorem dim_one {β : Type} {cfg : Config} {i : Item} (hi : TagText i.wher.string) {dim : Str} (hd : TagText dim)
    (body : Msg → Except Err (List β)) {w : World} (hw : Ready cfg w) {m : Msg} (hm : m.isDimResp = true)
    (hin : w.inbox = [.msg m, .msg .ack]) : (dimStreamStr cfg i dim body w).1 = bodyGives (body m) := by
  unfold dimStreamStr
  rw [ofStr_ok hd]
  dsimp only
  unfold dimStream stream
  rw [send_allowed hw.1 hw.2 (tags_request hi hd)]
  exact drain_one (w := w.after w.inbox _) dimResp_ends body hw.1 hm hin

theorem single_one {cfg : Config} {i : Item} (hi : TagText i.wher.string) {dim : Str} (hd : TagText dim) {w : World}
    (hw : Ready cfg w) {who : Who} {wher d : Tag} {vs : List Tag} (hin : w.inbox = [.msg (.dimResp who wher d vs), .msg .ack])
    {α : Type} (f : List Tag → Except Err α) :
    ((do let m ← singleDimReq cfg i ⟨dim⟩; lift (f m.values) : M α) w).1 = f vs := by
  have := C37_single cfg i hi ⟨dim⟩ hd w hw [.dimResp who wher d vs] (by simp) [.msg .ack] hin _ _ _ (.acknowledged [])
  simp only [Bind.bind, M.bind, this]
  rfl

theorem gateway_one {cfg : Config} {what : Str} (hd : TagText what) {w : World}
    (hw : Ready cfg w) {who : Who} {wher d : Tag} {vs : List Tag} (hin : w.inbox = [.msg (.dimResp who wher d vs), .msg .ack])
    {α : Type} (f : List Tag → Except Err α) :
    ((do let m ← Gateway.response cfg what none; lift (f m.values) : M α) w).1 = f vs := by
  rw [← single_one (i := Gateway.item) (by simp [TagText, Gateway.item]) hd hw hin f]
  simp only [Gateway.response, ofStr_ok hd]
  rfl

theorem energy_one {cfg : Config} {i : Item} (hi : TagText i.wher.string) {dim : Except Err Tag} {what : Str} (hdim : dim = .ok ⟨what⟩)
    (hd : TagText what) {w : World}
    (hw : Ready cfg w) {who : Who} {wher d : Tag} {vs : List Tag} (hin : w.inbox = [.msg (.dimResp who wher d vs), .msg .ack])
    {α : Type} (f : List Tag → Except Err α) :
    ((do let m ← EnergyManagement.response cfg i dim none; lift (f m.values) : M α) w).1 = f vs := by
  rw [← single_one hi hd hw hin f]
  subst hdim
  rfl

theorem oneAnswer_eq {α : Type} (f : α → List Arg) {r : Except Err α × World} {x : Except Err α} (h : r.1 = x) :
    (oneAnswer f r).1 = (valueArgs f x).toList := by
  unfold oneAnswer
  rw [h]
  cases x <;> rfl

theorem agrees_of {t : Topic} {cfg : Config} (told : Msg → Option (List Arg))
    (h1 : ∀ (wher : Tag) (m : Msg) (w : World), Placed t.who wher.string → t.Tells wher m → Clean m → Ready cfg w →
      w.inbox = [.msg m, .msg .ack] → (t.ask cfg wher w).1 = (told m).toList)
    (h2 : ∀ (wher : Tag) (m : Msg), t.Tells wher m → Clean m → firing m = (told m).map (t.slot, ·)) : t.Agrees cfg := by
  intro wher m w hp ht hc hr hin
  have e1 := h1 wher m w hp ht hc hr hin
  have e2 := h2 wher m ht hc
  have hmw : m.who = some t.who ∧ m.wher = some wher := by
    unfold Topic.Tells at ht
    split at ht <;> obtain ⟨_, rfl⟩ := ht <;> exact ⟨rfl, rfl⟩
  have hcls : ∃ c, classOf t.who.code = some c := by cases t <;> exact ⟨_, rfl⟩
  constructor
  · intro args ha
    rw [e1] at ha
    rw [show told m = some args by rcases h : told m with _ | x <;> simp_all] at e2
    obtain ⟨c, hcls⟩ := hcls
    exact delivers_of e2 hmw.1 hmw.2 hcls hp
  · intro ha
    rw [e1] at ha
    rw [show told m = none by rcases h : told m with _ | x <;> simp_all] at e2
    refine ignored_of e2 fun who wher' k1 k2 => ?_
    rw [hmw.1] at k1; rw [hmw.2] at k2
    cases k1; cases k2
    exact hp

end Agree
