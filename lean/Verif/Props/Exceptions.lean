import Verif.Proofs.Raises
import Verif.Props.Gateway
import Verif.Props.Energy
import Verif.Props.Queries

/-! # C98: which exceptions commands and getters raise -/

open Py Spec

/-- C98, commands: whatever the gateway answers, a command raises only `TimeoutError`, `InvalidSession` or `ResponseError`. -/
theorem C98_commands (cfg : Config) (f : M Unit) (text : Str) (h : Sends cfg f text) : Raises Unanswered f := by
  intro w e he
  by_cases hr : Ready cfg w
  · rcases hi : w.inbox with _ | ⟨m | _, rest⟩
    · rw [(h w).1 hr _ _ _ (hi ▸ Ending.nothing)] at he; cases he; trivial
    · by_cases hm : m = .ack
      · rw [(h w).1 hr _ _ _ (hi ▸ hm ▸ Ending.acknowledged rest)] at he; cases he
      · rw [(h w).1 hr _ _ _ (hi ▸ Ending.refused m rest hm id)] at he; cases he; trivial
    · rw [(h w).1 hr _ _ _ (hi ▸ Ending.silent rest)] at he; cases he; trivial
  · rw [(h w).2 hr] at he; cases he; trivial

/-- C98 as far as it holds, getters of the gateway: besides the announced exceptions only `ValueError`, `IndexError` and
`OverflowError` are raised, whatever the gateway answers or the given message is.  Missing: that these three are not raised. -/
theorem C98_gateway_partial (cfg : Config) (message : Option Msg) :
    Raises Expected (Gateway.getTime cfg message) ∧ Raises Expected (Gateway.getDate cfg message) ∧
    Raises Expected (Gateway.getIp cfg message) ∧ Raises Expected (Gateway.getNetmask cfg message) ∧
    Raises Expected (Gateway.getMacaddress cfg message) ∧ Raises Expected (Gateway.getNetinfo cfg) ∧
    Raises Expected (Gateway.getModel cfg message) ∧ Raises Expected (Gateway.getFirmware cfg message) ∧
    Raises Expected (Gateway.getUptime cfg message) ∧ Raises Expected (Gateway.getDateTime cfg message) ∧
    Raises Expected (Gateway.getKernelVersion cfg message) ∧ Raises Expected (Gateway.getDistributionVersion cfg message) :=
  have ip : ∀ message, Raises Expected (Gateway.getIp cfg message) := fun message =>
    Raises.gateway cfg _ message fun _ => Fails.bind (Fails.dotted _) fun _ => Fails.ipv4 _
  have mask : ∀ message, Raises Expected (Gateway.getNetmask cfg message) := fun message =>
    Raises.gateway cfg _ message fun _ => Fails.dotted _
  ⟨Raises.gateway cfg _ _ fun _ => Fails.decodeTime _, Raises.gateway cfg _ _ fun _ => Fails.decodeDate _, ip _, mask _,
    Raises.gateway cfg _ _ fun _ => Fails.decodeMac _,
    Raises.bind (ip _) fun _ => Raises.bind (mask _) fun _ => Raises.lift (Fails.network _ _),
    Raises.gateway cfg _ _ fun _ => Fails.map (Fails.valueAt _ _), Raises.gateway cfg _ _ fun _ => Fails.decodeVersion _,
    Raises.gateway cfg _ _ fun _ => Fails.decodeUptime _, Raises.gateway cfg _ _ fun _ => Fails.decodeDateTime _,
    Raises.gateway cfg _ _ fun _ => Fails.decodeVersion _, Raises.gateway cfg _ _ fun _ => Fails.decodeVersion _⟩

/-- C98 as far as it holds, getters of an energy item, for all arguments.  Missing: as for the gateway. -/
theorem C98_energy_partial (cfg : Config) (i : Item) (hi : TagText i.wher.string) (message : Option Msg) (now : Nat × Nat)
    (month year : Option Int) (totN : Int) :
    Raises Expected (EnergyManagement.getActivePower cfg i) ∧
    Raises Expected (EnergyManagement.getEnergyUnitTotalizer cfg i) ∧
    Raises Expected (EnergyManagement.getEnergyUnitPerMonth cfg now i month year) ∧
    Raises Expected (EnergyManagement.getPartialTotalizerCurrentMonth cfg i) ∧
    Raises Expected (EnergyManagement.getPartialTotalizerCurrentDay cfg i) ∧
    Raises Expected (EnergyManagement.getActuatorsInfo cfg i message) ∧
    Raises Expected (EnergyManagement.getTotalizers cfg i totN message) ∧
    Raises Expected (EnergyManagement.getDifferentialCurrentLevel cfg i) := by
  have par : ∀ (d : Str) (n : Int), Fails Expected (DimensionEnergy.withParameter d n) := fun d n =>
    Fails.bind (Fails.strInt _) fun _ => Fails.ofStr _
  have text : ∀ (x : Except Err Str) (f : Str → Str) (d : Tag), (x >>= fun s => Tag.ofStr (f s)) = .ok d →
      TagText d.string := by
    intro x f d h
    rcases x with _ | s
    · cases h
    · exact text_of_ofStr h
  have hmonth : ∀ y m, Fails Expected (EnergyManagement.monthDimension y m) := fun y m =>
    Fails.bind (par _ _) fun _ => Fails.bind (Fails.strInt _) fun _ => Fails.ofStr _
  have tmonth : ∀ y m d, EnergyManagement.monthDimension y m = .ok d → TagText d.string := by
    intro y m d h
    unfold EnergyManagement.monthDimension at h
    rcases hx : DimensionEnergy.withParameter DimensionEnergy.energyUnitPerMonth y with _ | t
    · rw [hx] at h; cases h
    · rw [hx] at h; exact text (strInt m) _ d h
  exact ⟨Raises.energy cfg hi _ (Fails.ofStr _) (fun _ => text_of_ofStr) fun _ => Fails.decodeFloat _,
    Raises.energy cfg hi _ (Fails.ofStr _) (fun _ => text_of_ofStr) fun _ => Fails.decodeFloat _,
    Raises.energy cfg hi _ (hmonth _ _) (tmonth _ _) fun _ => Fails.decodeFloat _,
    Raises.energy cfg hi _ (Fails.ofStr _) (fun _ => text_of_ofStr) fun _ => Fails.decodeFloat _,
    Raises.energy cfg hi _ (Fails.ofStr _) (fun _ => text_of_ofStr) fun _ => Fails.decodeFloat _,
    Raises.energy cfg hi _ (Fails.ofStr _) (fun _ => text_of_ofStr) fun _ => Fails.decodeActuator _,
    Raises.energy cfg hi _ (par _ _) (fun d h => text (strInt totN) _ d h) fun _ => Fails.decodeTotalizers _,
    Raises.energy cfg hi _ (Fails.ofStr _) (fun _ => text_of_ofStr) fun _ => Fails.decodeLevel _⟩

/-- C98 as far as it holds, Stop&Go.  Missing: as for the gateway. -/
theorem C98_stop_go_partial (cfg : Config) (i : Item) (hi : TagText i.wher.string) (dim : Str) :
    Raises Expected (StopGo.requestStatus cfg i dim) := by
  intro w e h
  unfold StopGo.requestStatus at h
  split at h
  · rename_i e' he; exact Fails.ofStr dim e (by cases h; exact he)
  · rename_i d hd
    split at h
    · cases h
    · rename_i us e' w' hs
      refine Raises.dimStream unanswered_expected cfg hi (text_of_ofStr hd) StopGo.statusBody (fun wo we d vs => ?_) w e
        (by rw [hs]; cases h; rfl)
      refine Fails.bind (Fails.textAt _ _) fun s => Fails.bind (Fails.pyInt _) fun v => ?_
      split
      · exact Fails.pure _
      · exact Fails.error (.inl trivial)

/-- C98 as far as it holds, Stop&Go over messages that are already there, of whatever class. -/
theorem C98_stop_go_given_partial (ms : List Msg) : Fails Expected (StopGo.statusOf ms) := by
  have key : Fails Expected (ms.mapM StopGo.statusBody) := by
    induction ms with
    | nil => exact Fails.pure _
    | cons m ms ih =>
      rw [List.mapM_cons]
      refine Fails.bind ?_ fun _ => Fails.bind ih fun _ => Fails.pure _
      cases m with
      | dimResp wo we d vs =>
        refine Fails.bind (Fails.textAt _ _) fun s => Fails.bind (Fails.pyInt _) fun v => ?_
        split
        · exact Fails.pure _
        · exact Fails.error (.inl trivial)
      | _ => exact Fails.error (.inl trivial)
  exact Fails.bind key fun _ => Fails.pure _

/-- C98 as far as it holds, the queries of lights, dimmers and automations; `Light.get_status` raises only what the exchange
raises.  Missing: as for the gateway. -/
theorem C98_queries_partial (cfg : Config) (i : Item) (hi : TagText i.wher.string) :
    RaisesGen Unanswered (Light.getStatus cfg i) ∧ RaisesGen Expected (Dimmer.getStatus cfg i) ∧
    RaisesGen Expected (Automation.getStatus cfg i) ∧ RaisesGen Expected (BaseLight.temporizationRequest cfg i) ∧
    RaisesGen Expected (BaseLight.requestWorkingTimeLamp cfg i) ∧
    RaisesGen Expected (Dimmer.requestCurrentBrightnessSpeed cfg i) ∧
    RaisesGen Expected (Dimmer.requestCurrentHsv cfg i) ∧
    RaisesGen Expected (Dimmer.requestCurrentWhiteTemperature cfg i) :=
  have one : ∀ wo we d vs, Fails Expected (oneInt (.dimResp wo we d vs)) := fun _ _ _ _ =>
    Fails.bind (Fails.intAt _ _) fun _ => Fails.pure _
  have two : ∀ wo we d vs, Fails Expected (twoInts (.dimResp wo we d vs)) := fun _ _ _ _ =>
    Fails.bind (Fails.intAt _ _) fun _ => Fails.bind (Fails.intAt _ _) fun _ => Fails.pure _
  have three : ∀ wo we d vs, Fails Expected (threeInts (.dimResp wo we d vs)) := fun _ _ _ _ =>
    Fails.bind (Fails.intAt _ _) fun _ => Fails.bind (Fails.intAt _ _) fun _ => Fails.bind (Fails.intAt _ _) fun _ => Fails.pure _
  ⟨Raises.statusStream (fun _ h => h) cfg hi _ fun _ _ _ => Fails.ok _,
    Raises.statusStream unanswered_expected cfg hi _ fun _ _ _ =>
      Fails.bind (Fails.tag _) fun _ => Fails.bind (Fails.pyInt _) fun _ => Fails.pure _,
    Raises.statusStream unanswered_expected cfg hi _ fun _ _ _ => Fails.bind (Fails.ite (Fails.ok _) Fails.value) fun _ => Fails.pure _,
    Raises.dimStreamStr cfg hi _ _ three, Raises.dimStreamStr cfg hi _ _ one, Raises.dimStreamStr cfg hi _ _ two,
    Raises.dimStreamStr cfg hi _ _ three, Raises.dimStreamStr cfg hi _ _ one⟩

/-- C98 fails: a well formed answer whose values are not what a getter expects makes it raise an exception of Python.  An
answer to `get_model` that is cut short gives `IndexError`, an answer to `get_ip` with one value gives `ValueError`, and a day that no C
integer can hold gives `OverflowError`. -/
theorem C98_getters_refuted (cfg : Config) (hs : cfg.session ≠ .event) :
    (∃ w, Ready cfg w ∧ (Gateway.getModel cfg none w).1 = .error .indexError) ∧
    (∃ w, Ready cfg w ∧ (Gateway.getIp cfg none w).1 = .error .valueError) ∧
    (∃ w, Ready cfg w ∧ (Gateway.getDate cfg none w).1 = .error .overflowError) ∧
    ¬ Announced .indexError ∧ ¬ Announced .valueError ∧ ¬ Announced .overflowError := by
  have run : ∀ {α : Type} {g : Option Msg → M α} {t : Str} {decode : List Tag → Except Err α} (vs : List Tag),
      Reads cfg g t decode → ∃ w, Ready cfg w ∧ (g none w).1 = decode vs := by
    intro α g t decode vs h
    refine ⟨⟨[], true, [.msg (.dimResp .gateway ⟨[]⟩ ⟨cs!"1"⟩ vs), .msg .ack], []⟩, ⟨rfl, hs⟩, ?_⟩
    rw [(h.2 _).2 ⟨rfl, hs⟩ [.dimResp .gateway ⟨[]⟩ ⟨cs!"1"⟩ vs] [.msg .ack] (.ok ()) [] [.got .ack]
      (by simp) rfl (.acknowledged [])]
    rfl
  have model : Reads cfg (Gateway.getModel cfg) cs!"*#13**15##" (fun vs => (Gateway.valueAt vs 0).map GatewayModel.ofStr) :=
    reads_of cfg _ cs!"15" _ (by decide +kernel) fun _ => rfl
  obtain ⟨w1, a1, b1⟩ := run [] model
  obtain ⟨w2, a2, b2⟩ := run [⟨cs!"1"⟩] (C58_getters cfg).1
  obtain ⟨w3, a3, b3⟩ := run [⟨cs!"0"⟩, ⟨cs!"2147483648"⟩, ⟨cs!"1"⟩, ⟨cs!"2024"⟩] (C54_get_date cfg)
  exact ⟨⟨w1, a1, b1⟩, ⟨w2, a2, b2⟩, ⟨w3, a3, b3.trans (by decide +kernel)⟩, id, id, id⟩

/-- The hypothesis of `C98_commands` is met by setting the date, and `ResponseError` does occur. -/
example (cfg : Config) (hs : cfg.session ≠ .event) :
    Raises Unanswered (Gateway.setDate cfg ⟨2024, 2, 29⟩) ∧
    (Gateway.setDate cfg ⟨2024, 2, 29⟩ ⟨[], true, [.msg .nack], []⟩).1 = .error .responseError := by
  obtain ⟨_, _, _, _, -, -, -, -, h, -⟩ := C54_date_roundtrip cfg ⟨2024, 2, 29⟩ (by decide)
  exact ⟨C98_commands cfg _ _ h, by rw [(h _).1 ⟨rfl, hs⟩ _ _ _ (.refused .nack [] (by decide) id)]⟩
