import Verif.Proofs.Construct
import Verif.Props.Energy
import Verif.Props.Commands

/-!
# C101: an item is made for the WHO and the address it was given
-/

open Py Spec Client Item Construct
open Events (Cls Python)

open Spec.Construct

/-- C101: an item of any class but `Gateway` has exactly the address that was given, and the WHO that was given or else the
one documented for its class. -/
theorem C101_given (c : Cls) (hc : c ≠ .gateway) (a : WhereArg) (o : Option WhoArg) (i : Item) (h : new c a o = .ok i) :
    i.wher.string = address a ∧ i.who.code = wanted c o := by
  cases c with
  | gateway => exact absurd rfl hc
  | energyManagement =>
    have := base_given (energy_base h)
    rcases o with _ | m | s <;> exact this
  | stopGo =>
    have := base_given (energy_base (stopGo_energy h))
    rcases o with _ | m | s <;> exact this
  | light | dimmer | automation | camera =>
    have := base_given (show baseInit _ a o = .ok i from h)
    rcases o with _ | m | s <;> exact this

/-- C101: what it sends carries this WHO and this address. -/
theorem C101_sends (cfg : Config) (c : Cls) (hc : c ≠ .gateway) (a : WhereArg) (o : Option WhoArg) (i : Item)
    (h : new c a o = .ok i) (ha : TagText (address a)) (what : Str) (hw : TagText what) :
    Sends cfg (i.sendNormal cfg what) (frame [wanted c o, what, address a]) := by
  obtain ⟨h1, h2⟩ := C101_given c hc a o i h
  rw [← h1, ← h2]
  exact sends_normal cfg (by rw [h1]; exact ha) hw

/-- C101: a text that is no tag is refused with `InvalidTag` by every class but `Gateway`. -/
theorem C101_bad_address (c : Cls) (hc : c ≠ .gateway) (s : Str) (hs : ¬ TagText s) (o : Option WhoArg) :
    new c (.text s) o = .error (.invalidTag s) := by
  have hp : place (.text s) = .error (.invalidTag s) := by
    change Tag.ofStr s = _
    unfold Tag.ofStr
    rw [if_neg (by rw [isValidTag_iff]; exact hs)]
  have hb : ∀ cw, baseInit cw (.text s) o = .error (.invalidTag s) := by
    intro cw; unfold baseInit; rw [hp]; rfl
  cases c with
  | gateway => exact absurd rfl hc
  | energyManagement => change energyInit _ _ = _; unfold energyInit; rw [hb]; rfl
  | stopGo => change stopGoInit _ _ = _; unfold stopGoInit energyInit; rw [hb]; rfl
  | light | dimmer | automation | camera => exact hb _

/-- C101: lights, dimmers, automations and cameras can be made for every tag, with every known WHO; an unknown WHO raises
`ValueError`. -/
theorem C101_total (c : Cls) (hc : c ∈ [Cls.light, .dimmer, .automation, .camera]) (s : Str) (hs : TagText s) :
    (∃ i, new c (.text s) none = .ok i) ∧ (∀ m, ∃ i, new c (.text s) (some (.member m)) = .ok i) ∧
    (∀ t, (∃ m : Who, m.code = t) → ∃ i, new c (.text s) (some (.text t)) = .ok i) ∧
    (∀ t, (¬ ∃ m : Who, m.code = t) → new c (.text s) (some (.text t)) = .error .valueError) := by
  have hn : ∀ o, new c (.text s) o = baseInit (classWho c) (.text s) o := by
    intro o
    simp only [List.mem_cons, List.not_mem_nil, or_false] at hc
    rcases hc with rfl | rfl | rfl | rfl <;> rfl
  have hp : place (.text s) = .ok ⟨s⟩ := ofStr_ok hs
  refine ⟨?_, fun m => ?_, fun t ht => ?_, fun t ht => ?_⟩ <;> rw [hn] <;> unfold baseInit <;> rw [hp, ok_bind]
  · exact ⟨_, rfl⟩
  · exact ⟨_, rfl⟩
  · dsimp only
    rcases hw : Who.ofStr t with e | m
    · exfalso
      obtain ⟨m, rfl⟩ := ht
      have hm : Who.ofStr m.code = .ok m := by cases m <;> decide +kernel
      rw [hm] at hw; cases hw
    · exact ⟨_, rfl⟩
  · dsimp only
    rcases hw : Who.ofStr t with e | m
    · unfold Who.ofStr at hw
      split at hw <;> cases hw
      rfl
    · exact absurd ⟨m, code_of_ofStr hw⟩ ht

/-- C101: giving the address as a text or as a tag makes no difference. -/
theorem C101_text_or_tag (c : Cls) (s : Str) (hs : TagText s) (o : Option WhoArg) :
    new c (.text s) o = new c (.tag ⟨s⟩) o := by
  have hp : place (.text s) = place (.tag ⟨s⟩) := ofStr_ok hs
  have hb : ∀ cw, baseInit cw (.text s) o = baseInit cw (.tag ⟨s⟩) o := by intro cw; unfold baseInit; rw [hp]
  have he : energyInit (.text s) o = energyInit (.tag ⟨s⟩) o := by unfold energyInit; rw [hb]
  cases c with
  | gateway => rfl
  | energyManagement => exact he
  | stopGo => change stopGoInit _ _ = stopGoInit _ _; unfold stopGoInit; rw [he]
  | light | dimmer | automation | camera => exact hb _

/-- C101: an energy item can be made exactly for the documented addresses, a Stop&Go item exactly for those of Stop&Go
devices, with any WHO. -/
theorem C101_energy (s : Str) (hs : TagText s) (m : Who) :
    ((∃ i, new .energyManagement (.text s) (some (.member m)) = .ok i) ↔ ∃ t, EnergyAddress s t) ∧
    ((∃ i, new .stopGo (.text s) (some (.member m)) = .ok i) ↔ EnergyAddress s .stopGo) := by
  have hp : place (.text s) = .ok ⟨s⟩ := ofStr_ok hs
  have hb : baseInit .energyManagement (.text s) (some (.member m)) = .ok ⟨m, ⟨s⟩⟩ := by unfold baseInit; rw [hp]; rfl
  have hm : (∃ i, new .energyManagement (.text s) (some (.member m)) = .ok i) ↔ ∃ i, EnergyManagement.new s = .ok i := by
    change (∃ i, energyInit _ _ = _) ↔ _
    unfold energyInit EnergyManagement.new EnergyManagement.newTag
    rw [hb, ofStr_ok hs, ok_bind, ok_bind]
    rcases EnergyManagement.getType ⟨s⟩ with e | t
    · exact ⟨fun ⟨_, h⟩ => (by cases h), fun ⟨_, h⟩ => (by cases h)⟩
    · exact ⟨fun _ => ⟨_, rfl⟩, fun _ => ⟨_, rfl⟩⟩
  have hg : (∃ i, new .stopGo (.text s) (some (.member m)) = .ok i) ↔ ∃ i, StopGo.new s = .ok i := by
    change (∃ i, stopGoInit _ _ = _) ↔ _
    unfold stopGoInit energyInit StopGo.new StopGo.newTag EnergyManagement.newTag
    rw [hb, ofStr_ok hs, ok_bind, ok_bind]
    rcases hq : EnergyManagement.getType ⟨s⟩ with e | t
    · exact ⟨fun ⟨_, h⟩ => (by cases h), fun ⟨_, h⟩ => (by cases h)⟩
    · simp only [ok_bind, pure, Except.pure]
      rw [hq]
      simp only [ok_bind]
      by_cases ht : t = .stopGo
      · simp [ht]
      · simp [ht]
  exact ⟨hm.trans (C62_iff s hs), hg.trans (C62_stop_go s hs)⟩

/-- C101: the items that `get_item` makes are those of the constructor. -/
theorem C101_get_item (c : Cls) (t : Tag) : Events.construct c t = new c (.tag t) none := by
  cases c with
  | stopGo =>
    change StopGo.newTag t = stopGoInit _ _
    unfold StopGo.newTag stopGoInit EnergyManagement.newTag energyInit
    change (EnergyManagement.getType t >>= _) >>= _ = (EnergyManagement.getType t >>= _) >>= _
    rcases hq : EnergyManagement.getType t with e | k
    · rfl
    · simp only [ok_bind, pure, Except.pure]
      rw [hq]
      rfl
  | energyManagement => rfl
  | light | dimmer | automation | camera | gateway => rfl

/-- C101 (partial): an item made without `who` reports, up to Python 3.12, the WHO its messages carry.
Missing: items made with `who`, and later versions of Python. -/
theorem C101_reported_partial (c : Cls) (a : WhereArg) (i : Item) (h : new c a none = .ok i) :
    reportedWho .upTo312 c = some i.who := by
  cases c with
  | gateway => cases h; rfl
  | light | dimmer | automation | camera | energyManagement | stopGo =>
    exact congrArg some (Who.code_inj (C101_given _ (by decide) a none i h).2.symm)

/-- C101 is false of `item.who`: with `who` given it never is the WHO given, unless that is the one of the class; from
Python 3.13 on it is no WHO at all. -/
theorem C101_reported_refuted :
    (∀ (c : Cls) (a : WhereArg) (m : Who) (i : Item), m ≠ classWho c → new c a (some (.member m)) = .ok i →
      reportedWho .upTo312 c ≠ some i.who) ∧
    (∃ i, new .light (.text cs!"12") (some (.member .automation)) = .ok i ∧ i.who = .automation ∧
      reportedWho .upTo312 .light = some .lighting) ∧
    ∀ (c : Cls) (w : Who), reportedWho .from313 c ≠ some w := by
  refine ⟨fun c a m i hm h hr => ?_, ⟨⟨.automation, ⟨cs!"12"⟩⟩, by decide +kernel, rfl, rfl⟩, fun c w h => by cases h⟩
  by_cases hc : c = .gateway
  · subst hc; cases h
  · have h2 : i.who.code = m.code := (C101_given c hc a _ i h).2
    rw [Who.code_inj h2] at hr
    exact hm (Option.some.inj hr).symm

/-- The hypotheses are met: a camera, and a Stop&Go item with another WHO. -/
example (cfg : Config) :
    Sends cfg (Item.sendNormal cfg ⟨.videoDoorEntry, ⟨cs!"4000"⟩⟩ cs!"0") cs!"*7*0*4000##" ∧
    (∃ i, new .stopGo (.text cs!"12") (some (.member .lighting)) = .ok i) ∧
    new .light (.text cs!"1*2") none = .error (.invalidTag cs!"1*2") :=
  ⟨C101_sends cfg .camera (by decide) (.text cs!"4000") none _ (by decide +kernel) (by decide +kernel) _ (by decide +kernel),
   (C101_energy cs!"12" (by decide +kernel) .lighting).2.2 (.stopGo cs!"2" (by decide) (by simp [Digits])),
   C101_bad_address .light (by decide) _ (by decide +kernel) none⟩
