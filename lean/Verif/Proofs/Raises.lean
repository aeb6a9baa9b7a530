import Verif.Spec.Raises
import Verif.Model.Queries
import Verif.Model.Gateway
import Verif.Model.Energy
import Verif.Proofs.Items

/-! # Which exceptions are raised (helper lemmas) -/

open Py Spec

theorem unanswered_expected (e : Err) (h : Unanswered e) : Expected e := by
  cases e <;> first | exact .inl trivial | exact h.elim

namespace Fails

theorem bind {α β : Type} {P : Err → Prop} {x : Except Err α} {f : α → Except Err β} (hx : Fails P x) (hf : ∀ a, Fails P (f a)) :
    Fails P (x >>= f) := by
  intro e h
  rcases x with e' | a
  · exact hx e (by cases h; rfl)
  · exact hf a e h

theorem ok {α : Type} {P : Err → Prop} (a : α) : Fails P (.ok a) := by intro e h; cases h
theorem pure {α : Type} {P : Err → Prop} (a : α) : Fails P (Pure.pure a : Except Err α) := by intro e h; cases h
theorem error {α : Type} {P : Err → Prop} {e : Err} (he : P e) : Fails P (.error e : Except Err α) := by
  intro e' h; cases h; exact he
theorem ite {α : Type} {P : Err → Prop} {c : Prop} [Decidable c] {x y : Except Err α} (hx : Fails P x) (hy : Fails P y) :
    Fails P (if c then x else y) := by
  split
  · exact hx
  · exact hy
theorem map {α β : Type} {P : Err → Prop} {x : Except Err α} {f : α → β} (hx : Fails P x) : Fails P (x.map f) := by
  intro e h
  rcases x with e' | a
  · exact hx e (by cases h; rfl)
  · cases h

theorem value {α : Type} : Fails Expected (.error .valueError : Except Err α) := error (.inr (.inl rfl))
theorem overflow {α : Type} : Fails Expected (.error .overflowError : Except Err α) := error (.inr (.inr (.inr rfl)))
theorem idx {α : Type} : Fails Expected (.error .indexError : Except Err α) := error (.inr (.inr (.inl rfl)))

theorem pyInt (s : Str) : Fails Expected (Py.pyInt s) := by
  have key : ∀ r, Fails Expected (Py.pyNat r) := by
    intro r
    unfold Py.pyNat
    split
    · exact ite (ok _) value
    · exact value
  unfold Py.pyInt
  dsimp only
  split
  · exact map (bind (key _) fun _ => pure _)
  · exact map (bind (key _) fun _ => pure _)
  · exact map (bind (key _) fun _ => pure _)
theorem strInt (n : Int) : Fails Expected (Py.strInt n) := ite (ok _) value
theorem cInt (n : Int) : Fails Expected (Py.cInt n) := ite (ok _) overflow
theorem pyFloat (s : Str) : Fails Expected (Py.pyFloat s) := ite (ok _) value
theorem index {α : Type} (l : List α) (k : Nat) : Fails Expected (Py.index l k) := by
  unfold Py.index; split
  · exact ok _
  · exact idx
theorem valueAt (vs : List Tag) (k : Nat) : Fails Expected (Gateway.valueAt vs k) := by
  unfold Gateway.valueAt; split
  · exact ok _
  · exact idx
theorem textAt (vs : List Tag) (k : Nat) : Fails Expected (EnergyManagement.textAt vs k) :=
  bind (index _ _) fun _ => pure _
theorem date (y m d : Int) : Fails Expected (Date.new y m d) :=
  bind (cInt _) fun _ => bind (cInt _) fun _ => bind (cInt _) fun _ => ite (ok _) value
theorem time (h m s : Int) (tz : TzInfo) : Fails Expected (Time.new h m s tz) :=
  bind (cInt _) fun _ => bind (cInt _) fun _ => bind (cInt _) fun _ => ite (ok _) value
theorem datetime (y mo d h m s : Int) (tz : TzInfo) : Fails Expected (DateTime.new y mo d h m s tz) :=
  bind (cInt _) fun _ => bind (cInt _) fun _ => bind (cInt _) fun _ => bind (cInt _) fun _ => bind (cInt _) fun _ =>
    bind (cInt _) fun _ => bind (date _ _ _) fun _ => bind (time _ _ _ _) fun _ => pure _
theorem naive (y mo d h m : Int) : Fails Expected (DateTime.newNaive y mo d h m) :=
  bind (cInt _) fun _ => bind (cInt _) fun _ => bind (cInt _) fun _ => bind (cInt _) fun _ => bind (cInt _) fun _ =>
    bind (date _ _ _) fun _ => ite (ok _) value
theorem timedelta (d h m s : Int) : Fails Expected (timedeltaNew d h m s) := ite (ok _) overflow
theorem tz (t : Tag) : Fails Expected (Gateway.parseTz t) := by
  unfold Gateway.parseTz
  split
  · exact pure _
  · exact bind (pyInt _) fun _ => ite (ok _) value
theorem octet (s : Str) : Fails Expected (parseOctet s) := by
  unfold parseOctet
  exact ite value (ite value (ite value (ite value (ite value (ok _)))))
theorem ipv4 (s : Str) : Fails Expected (Py.ipv4 s) := by
  unfold Py.ipv4
  split
  · exact bind (octet _) fun _ => bind (octet _) fun _ => bind (octet _) fun _ => bind (octet _) fun _ => pure _
  · exact value
theorem prefixLen (n : Nat) : Fails Expected (prefixFromInt n) := ite (ok _) value
theorem network (ip : Nat) (mask : Str) : Fails Expected (ipv4Network ip mask) := by
  unfold ipv4Network makeNetmask
  refine bind (bind (ipv4 _) fun n => ?_) fun _ => pure _
  split
  · exact ok _
  · exact prefixLen _

theorem decodeTime (vs : List Tag) : Fails Expected (Gateway.decodeTime vs) := by
  unfold Gateway.decodeTime
  split
  · exact bind (pyInt _) fun _ => bind (pyInt _) fun _ => bind (pyInt _) fun _ => bind (tz _) fun _ => time _ _ _ _
  · exact value
theorem decodeDate (vs : List Tag) : Fails Expected (Gateway.decodeDate vs) := by
  unfold Gateway.decodeDate
  split
  · exact bind (pyInt _) fun _ => bind (pyInt _) fun _ => bind (pyInt _) fun _ => date _ _ _
  · exact value
theorem dotted (vs : List Tag) : Fails Expected (Gateway.dotted vs) := by
  unfold Gateway.dotted
  split
  · repeat' first
      | exact pyInt _
      | exact strInt _
      | exact pure _
      | refine bind ?_ fun _ => ?_
  · exact value
theorem decodeMac (vs : List Tag) : Fails Expected (Gateway.decodeMac vs) := by
  unfold Gateway.decodeMac
  split
  · exact ok _
  · exact value
theorem decodeVersion (vs : List Tag) : Fails Expected (Gateway.decodeVersion vs) :=
  bind (valueAt _ _) fun _ => bind (valueAt _ _) fun _ => bind (valueAt _ _) fun _ => pure _
theorem decodeUptime (vs : List Tag) : Fails Expected (Gateway.decodeUptime vs) := by
  unfold Gateway.decodeUptime
  repeat' first
    | exact valueAt _ _
    | exact pyInt _
    | exact timedelta _ _ _ _
    | refine bind ?_ fun _ => ?_
theorem decodeDateTime (vs : List Tag) : Fails Expected (Gateway.decodeDateTime vs) := by
  unfold Gateway.decodeDateTime
  repeat' first
    | exact valueAt _ _
    | exact pyInt _
    | exact tz _
    | exact datetime _ _ _ _ _ _ _
    | refine bind ?_ fun _ => ?_
theorem decodeFloat (vs : List Tag) : Fails Expected (EnergyManagement.decodeFloat vs) :=
  bind (textAt _ _) fun _ => pyFloat _
theorem charInt (vs : List Tag) (k : Nat) : Fails Expected (EnergyManagement.charInt vs k) :=
  bind (textAt _ _) fun _ => bind (index _ _) fun _ => pyInt _
theorem decodeActuator (vs : List Tag) : Fails Expected (EnergyManagement.decodeActuator vs) :=
  bind (charInt _ _) fun _ => bind (charInt _ _) fun _ => bind (charInt _ _) fun _ => bind (charInt _ _) fun _ =>
    bind (charInt _ _) fun _ => bind (charInt _ _) fun _ => pure _
theorem decodeTotalizers (vs : List Tag) : Fails Expected (EnergyManagement.decodeTotalizers vs) := by
  unfold EnergyManagement.decodeTotalizers
  repeat' first
    | exact decodeFloat _
    | exact textAt _ _
    | exact pyInt _
    | exact naive _ _ _ _ _
    | exact pure _
    | refine bind ?_ fun _ => ?_
theorem decodeLevel (vs : List Tag) : Fails Expected (EnergyManagement.decodeLevel vs) :=
  bind (textAt _ _) fun _ => pyInt _


theorem ofStr (s : Str) : Fails Expected (Tag.ofStr s) := ite (ok _) (error (.inl trivial))
theorem mono {α : Type} {P Q : Err → Prop} {x : Except Err α} (h : Fails P x) (hpq : ∀ e, P e → Q e) : Fails Q x :=
  fun e he => hpq e (h e he)
theorem tag (t : Tag) : Fails Expected t.tag := index _ _
theorem intAt (vs : List Tag) (k : Nat) : Fails Expected (_root_.intAt vs k) := bind (index _ _) fun _ => pyInt _

end Fails

theorem text_of_ofStr {s : Str} {t : Tag} (h : Tag.ofStr s = .ok t) : TagText t.string := by
  unfold Tag.ofStr at h
  split at h
  · rename_i hv; cases h; exact (isValidTag_iff s).1 hv
  · cases h

namespace Raises

theorem bind {α β : Type} {P : Err → Prop} {x : M α} {f : α → M β} (hx : Raises P x) (hf : ∀ a, Raises P (f a)) :
    Raises P (x >>= f) := by
  intro w e h
  have e1 : (x >>= f) w = M.bind x f w := rfl
  rw [e1] at h
  unfold M.bind at h
  rcases hw : x w with ⟨e' | a, w'⟩
  · rw [hw] at h; exact hx w e (by rw [hw]; cases h; rfl)
  · rw [hw] at h; exact hf a w' e h

theorem lift {α : Type} {P : Err → Prop} {x : Except Err α} (h : Fails P x) : Raises P (M.lift x) := fun _ e he => h e he

theorem mono {α : Type} {P Q : Err → Prop} {f : M α} (h : Raises P f) (hpq : ∀ e, P e → Q e) : Raises Q f :=
  fun w e he => hpq e (h w e he)

theorem pure {α : Type} {P : Err → Prop} (a : α) : Raises P (Pure.pure a : M α) := by intro w e h; cases h

/-- `lift x >>= f` where `f` is only run on a value of `x`. -/
theorem lift_bind {α β : Type} {P : Err → Prop} {x : Except Err α} {f : α → M β} (hx : Fails P x)
    (hf : ∀ a, x = .ok a → Raises P (f a)) : Raises P (M.lift x >>= f) := by
  rcases x with e' | a
  · intro w e h; exact hx e (by cases h; rfl)
  · exact fun w e h => hf a rfl w e h

theorem send (cfg : Config) {m : Msg} (hm : ∀ t ∈ m.tags, TagText t) : Raises Unanswered (Client.sendMessage cfg m false) := by
  intro w e h
  obtain ⟨b, hb⟩ := Client.bytes_ok hm
  unfold Client.sendMessage at h
  rw [hb] at h
  split at h
  · cases h; exact trivial
  · split at h
    · cases h; exact trivial
    · cases h

theorem read : Raises Unanswered Client.readMessage := by
  intro w e h
  unfold Client.readMessage at h
  split at h
  · cases h; exact trivial
  · rcases hi : w.inbox with _ | ⟨_ | _, r⟩ <;> rw [hi] at h <;> cases h <;> exact trivial

theorem command (cfg : Config) {m : Msg} (hm : ∀ t ∈ m.tags, TagText t) : Raises Unanswered (Item.command cfg m) := by
  unfold Item.command
  refine bind (send cfg hm) fun _ => bind read fun m => ?_
  split
  · intro w e h; cases h; exact trivial
  · exact pure _

theorem nextReply (want : Msg → Bool) : Raises Unanswered (Item.nextReply want) := by
  unfold Item.nextReply
  refine bind read fun m => ?_
  split
  · intro w e h; cases h; exact trivial
  · split
    · exact pure _
    · split
      · intro w e h; cases h; exact trivial
      · exact pure _

theorem nextReply_wanted {want : Msg → Bool} {w w' : World} {m : Msg} (h : Item.nextReply want w = (.ok (some m), w')) :
    want m = true := by
  unfold Item.nextReply Client.readMessage at h
  simp only [Bind.bind, M.bind] at h
  split_ifs at h <;> try cases h
  rcases hi : w.inbox with _ | ⟨_ | _, r⟩ <;> rw [hi] at h <;> try cases h
  dsimp only at h
  split_ifs at h <;> cases h
  rename_i hw
  simpa using hw

theorem drain {β : Type} {P : Err → Prop} (hp : ∀ e, Unanswered e → P e) (want : Msg → Bool)
    (body : Msg → Except Err (List β)) (hb : ∀ m, want m = true → Fails P (body m)) :
    RaisesGen P (Item.drain want body) := by
  have key : ∀ n w, w.inbox.length = n → ∀ e, (Item.drain want body w).1.2 = .error e → P e := by
    intro n
    induction n using Nat.strong_induction_on with
    | _ n ih =>
      intro w hn e h
      unfold Item.drain at h
      split at h
      · rename_i e' w' hr
        exact hp e (nextReply want w e (by rw [hr]; cases h; rfl))
      · cases h
      · rename_i m w' hr
        split at h
        · rename_i e' he
          cases h
          exact hb m (nextReply_wanted hr) e he
        · exact ih _ (hn ▸ Item.nextReply_shrinks hr) w' rfl e h
  exact fun w e h => key _ w rfl e h

theorem stream {β : Type} {P : Err → Prop} (hp : ∀ e, Unanswered e → P e) (cfg : Config) {m : Msg}
    (hm : ∀ t ∈ m.tags, TagText t) (want : Msg → Bool) (body : Msg → Except Err (List β))
    (hb : ∀ m, want m = true → Fails P (body m)) : RaisesGen P (Item.stream cfg m want body) := by
  intro w e h
  unfold Item.stream at h
  split at h
  · rename_i e' w' hs
    exact hp e (send cfg hm w e (by rw [hs]; cases h; rfl))
  · exact drain hp want body hb _ e h

theorem dimStream {β : Type} {P : Err → Prop} (hp : ∀ e, Unanswered e → P e) (cfg : Config) {i : Item}
    (hi : TagText i.wher.string) {d : Tag} (hd : TagText d.string) (body : Msg → Except Err (List β))
    (hb : ∀ wo we d vs, Fails P (body (.dimResp wo we d vs))) : RaisesGen P (Item.dimStream cfg i d body) := by
  refine stream hp cfg (Item.tags_request hi hd) _ _ fun m hm => ?_
  cases m <;> first | exact hb _ _ _ _ | cases hm

theorem statusStream {β : Type} {P : Err → Prop} (hp : ∀ e, Unanswered e → P e) (cfg : Config) {i : Item}
    (hi : TagText i.wher.string) (body : Msg → Except Err (List β))
    (hb : ∀ wo wa we, Fails P (body (.normal wo wa we))) : RaisesGen P (Item.statusStream cfg i body) := by
  refine stream hp cfg (Item.tags_status hi) _ _ fun m hm => ?_
  cases m <;> first | exact hb _ _ _ | cases hm

theorem dimStreamStr {β : Type} (cfg : Config) {i : Item} (hi : TagText i.wher.string) (s : Str)
    (body : Msg → Except Err (List β)) (hb : ∀ wo we d vs, Fails Expected (body (.dimResp wo we d vs))) :
    RaisesGen Expected (Item.dimStreamStr cfg i s body) := by
  intro w e h
  unfold Item.dimStreamStr at h
  split at h
  · rename_i e' he; exact Fails.ofStr s e (by cases h; exact he)
  · rename_i d hd
    exact dimStream unanswered_expected cfg hi (text_of_ofStr hd) body hb w e h

theorem singleDimReq (cfg : Config) {i : Item} (hi : TagText i.wher.string) {d : Tag} (hd : TagText d.string) :
    Raises Unanswered (Item.singleDimReq cfg i d) := by
  intro w e h
  unfold Item.singleDimReq at h
  split at h
  · rename_i ms e' w' hs
    exact dimStream (fun _ h => h) cfg hi hd _ (fun _ _ _ _ => Fails.ok _) w e (by rw [hs]; cases h; rfl)
  · cases h; exact trivial
  · cases h

/-- A getter of the gateway. -/
theorem gateway {α : Type} (cfg : Config) (what : Str) (message : Option Msg) {decode : Msg → Except Err α}
    (hd : ∀ m, Fails Expected (decode m)) :
    Raises Expected (Gateway.response cfg what message >>= fun m => M.lift (decode m)) := by
  refine bind ?_ fun m => lift (hd m)
  rcases message with _ | m
  · exact lift_bind (Fails.ofStr what) fun d h => mono (singleDimReq cfg (by intro c hc; cases hc) (text_of_ofStr h)) unanswered_expected
  · exact pure m

/-- A getter of an energy item. -/
theorem energy {α : Type} (cfg : Config) {i : Item} (hi : TagText i.wher.string) (message : Option Msg)
    {dim : Except Err Tag} (h1 : Fails Expected dim) (h2 : ∀ d, dim = .ok d → TagText d.string)
    {decode : Msg → Except Err α} (hd : ∀ m, Fails Expected (decode m)) :
    Raises Expected (EnergyManagement.response cfg i dim message >>= fun m => M.lift (decode m)) := by
  refine bind ?_ fun m => lift (hd m)
  rcases message with _ | m
  · exact lift_bind h1 fun d h => mono (singleDimReq cfg hi (h2 d h)) unanswered_expected
  · exact pure m

end Raises
