import Verif.Proofs.Timed
import Verif.Proofs.Raises
import Verif.Model.Examples

/-!
# Calls that stop at the first read that times out
-/

open Py Spec HmacAuth M

/-- Anything but `TimeoutError`. -/
def Prompt {α : Type} (x : Except Err α) : Prop := Fails (· ≠ .timeoutError) x

namespace Prompt

theorem strInt (n : Int) : Prompt (Py.strInt n) := Fails.ite (Fails.ok _) (Fails.error (by simp))
theorem index {α : Type} (l : List α) (k : Nat) : Prompt (Py.index l k) := by
  intro e h
  unfold Py.index at h
  split at h <;> cases h
  simp
theorem pyNat (r : Str) : Prompt (Py.pyNat r) := by
  intro e h
  unfold Py.pyNat at h
  split at h
  · split_ifs at h
    cases h
    simp
  · cases h
    simp
theorem pyInt (s : Str) : Prompt (Py.pyInt s) := by
  unfold Py.pyInt
  dsimp only
  split
  all_goals exact Fails.map (Fails.bind (pyNat _) fun _ => Fails.pure _)
theorem ownCalcPassStr (p n : Str) : Prompt (OpenAuth.ownCalcPassStr p n) := Fails.bind (pyInt _) fun _ => strInt _
theorem hashFunction (lib : Lib) (a : Int) : Prompt (HmacAuth.hashFunction lib a) :=
  Fails.ite (Fails.ok _) (Fails.ite (Fails.ok _) (Fails.error (by simp)))
theorem createKey (lib : Lib) (t : Bytes) (a : Int) : Prompt (HmacAuth.createKey lib t a) :=
  Fails.bind (hashFunction _ _) fun _ => Fails.pure _
theorem clientHmac (lib : Lib) (a b c d e : Str) (n : Int) : Prompt (HmacAuth.clientHmac lib a b c d e n) :=
  Fails.bind (hashFunction _ _) fun _ => Fails.pure _
theorem serverHmac (lib : Lib) (a b c : Str) (n : Int) : Prompt (HmacAuth.serverHmac lib a b c n) :=
  Fails.bind (hashFunction _ _) fun _ => Fails.pure _
theorem intChar (lib : Lib) (c : Char) : Prompt (HmacAuth.intChar lib c) := by
  unfold HmacAuth.intChar
  refine Fails.ite (Fails.ok _) (Fails.ite (Fails.error (by simp)) ?_)
  split
  · exact Fails.ok _
  · exact Fails.error (by simp)
theorem intChar16 (lib : Lib) (c : Char) : Prompt (HmacAuth.intChar16 lib c) :=
  Fails.ite (Fails.ok _) (Fails.ite (Fails.ok _) (intChar _ _))
theorem hexToDigits (lib : Lib) (s : Str) : Prompt (HmacAuth.hexToDigits lib s) := by
  unfold HmacAuth.hexToDigits
  generalize ([] : Str) = out
  induction s generalizing out with
  | nil => exact Fails.ok _
  | cons c s ih => exact Fails.bind (intChar16 _ _) fun _ => ih _
theorem fromHex (s : Str) : Prompt (HmacAuth.fromHex s) := by
  fun_induction HmacAuth.fromHex s
  all_goals first | exact Fails.ok _ | exact Fails.error (by simp) | assumption | skip
  exact Fails.bind ‹_› fun _ => Fails.ok _
theorem bytes (m : Msg) : Prompt m.bytes := Fails.ite (Fails.ok _) (Fails.error (by simp))
theorem ofStr (s : Str) : Prompt (Tag.ofStr s) := Fails.ite (Fails.ok _) (Fails.error (by simp))
theorem checkTags (ts : List Str) : Prompt (Msg.checkTags ts) := by
  induction ts with
  | nil => exact Fails.ok _
  | cons t ts ih => exact Fails.ite ih (Fails.error (by simp))
theorem toMessage (s : Session) : Prompt s.toMessage := Fails.bind (checkTags _) fun _ => Fails.pure _

end Prompt

namespace Patient

theorem still {ρ : Type} {raised : ρ → Option Err} {f : World → ρ × World} (hi : ∀ w, (f w).2.inbox = w.inbox)
    (hs : ∀ w, w.started = true → (f w).2.started = true)
    (ht : ∀ w, ∃ acts, (f w).2.trace = w.trace ++ acts ∧ gotten acts = [])
    (he : ∀ w, w.started = true → raised (f w).1 ≠ some .timeoutError) : Spec.Patient raised f := by
  intro w h
  obtain ⟨acts, h1, h2⟩ := ht w
  exact ⟨[], w.inbox, acts, rfl, h1, h2, hs w h, .inl ⟨hi w, he w h⟩⟩

theorem pure {α : Type} (a : α) : Spec.Patient raisedBy (Pure.pure a : M α) :=
  still (fun _ => rfl) (fun _ h => h) (fun w => ⟨[], (List.append_nil _).symm, rfl⟩) fun _ _ h => by cases h
theorem raise {α : Type} {e : Err} (he : e ≠ .timeoutError) : Spec.Patient raisedBy (M.raise e : M α) :=
  still (fun _ => rfl) (fun _ h => h) (fun w => ⟨[], (List.append_nil _).symm, rfl⟩) fun _ _ h => by cases h; exact he rfl
theorem lift {α : Type} {x : Except Err α} (hx : Prompt x) : Spec.Patient raisedBy (M.lift x) :=
  still (fun _ => rfl) (fun _ h => h) (fun w => ⟨[], (List.append_nil _).symm, rfl⟩) fun w _ h => by
    cases x with
    | ok a => cases h
    | error e => cases h; exact hx _ rfl rfl

theorem send (cfg : Config) (m : Msg) (force : Bool) : Spec.Patient raisedBy (Client.sendMessage cfg m force) := by
  apply still
  · intro w; unfold Client.sendMessage; split_ifs <;> try rfl
    split <;> rfl
  · intro w h; unfold Client.sendMessage; split_ifs <;> try exact h
    split <;> exact h
  · intro w; unfold Client.sendMessage
    split_ifs
    · exact ⟨[], (List.append_nil _).symm, rfl⟩
    · exact ⟨[], (List.append_nil _).symm, rfl⟩
    · split
      · exact ⟨[], (List.append_nil _).symm, rfl⟩
      · exact ⟨_, rfl, rfl⟩
  · intro w _ h; unfold Client.sendMessage at h
    split_ifs at h
    · cases h
    · cases h
    · split at h
      · rename_i e he
        cases h
        exact Prompt.bytes m _ he rfl
      · cases h

theorem read : Spec.Patient raisedBy Client.readMessage := by
  intro w hs
  rcases Client.read_cases hs with ⟨m, r, h1, h2⟩ | ⟨h1, h2⟩
  · rw [h2]
    exact ⟨[m], r, [.got m], h1, rfl, rfl, hs, .inl ⟨rfl, by intro h; cases h⟩⟩
  · rw [h2]
    exact ⟨[], w.inbox, [], rfl, (List.append_nil _).symm, rfl, hs, .inr ⟨rfl, h1, rfl⟩⟩

/-- One part after the other, for any way to go on. -/
theorem seq {α ρ : Type} {raised : ρ → Option Err} {f : M α} {g : α → World → ρ × World} {k : Err → ρ}
    {h : World → ρ × World} (hf : Spec.Patient raisedBy f) (hg : ∀ a, Spec.Patient raised (g a))
    (hk : ∀ e, raised (k e) = some e) (hok : ∀ w a w', f w = (.ok a, w') → h w = g a w')
    (herr : ∀ w e w', f w = (.error e, w') → h w = (k e, w')) : Spec.Patient raised h := by
  intro w hs
  obtain ⟨taken, rest, acts, a, c, d, e, hh⟩ := hf w hs
  rcases hr : f w with ⟨x | x, w'⟩
  · rw [hr] at c e hh
    rw [herr _ _ _ hr]
    refine ⟨taken, rest, acts, a, c, d, e, ?_⟩
    rcases hh with ⟨h1, h2⟩ | ⟨h1, h2, h3⟩
    · exact .inl ⟨h1, by rw [hk]; exact h2⟩
    · exact .inr ⟨by rw [hk]; exact h1, h2, h3⟩
  · rw [hr] at c e hh
    rw [hok _ _ _ hr]
    rcases hh with ⟨h1, _⟩ | ⟨h1, _⟩
    · obtain ⟨taken', rest', acts', a', c', d', e', h'⟩ := hg x w' e
      dsimp only at h1
      refine ⟨taken ++ taken', rest', acts ++ acts', ?_, ?_, ?_, e', h'⟩
      · rw [a, List.map_append, List.append_assoc, ← a', h1]
      · rw [c', c, List.append_assoc]
      · rw [gotten_append, d, d']
    · cases h1

theorem bind {α β : Type} {f : M α} {g : α → M β} (hf : Spec.Patient raisedBy f) (hg : ∀ a, Spec.Patient raisedBy (g a)) :
    Spec.Patient raisedBy (f >>= g) :=
  seq (g := g) (k := fun e => .error e) hf hg (fun _ => rfl) (fun _ _ _ h => bind_ok h) fun _ _ _ h => bind_error h

theorem ite {ρ : Type} {raised : ρ → Option Err} {c : Prop} [Decidable c] {f g : World → ρ × World}
    (hf : Spec.Patient raised f) (hg : Spec.Patient raised g) : Spec.Patient raised (if c then f else g) := by
  split_ifs <;> assumption

theorem handshake (cfg : Config) : Spec.Patient raisedBy (Client.handshake cfg) := by
  unfold Client.handshake
  refine bind read fun m => ite (raise (by simp)) ?_
  refine bind (lift (Prompt.toMessage _)) fun s => bind (send _ _ _) fun _ =>
    bind read fun r => ite (pure ()) (ite ?_ ?_)
  · refine bind (lift (Prompt.index _ _)) fun nonce => ?_
    unfold Client.authenticateOpen
    exact bind (lift (Prompt.ownCalcPassStr _ _)) fun enc => bind (send _ _ _) fun _ =>
      bind read fun r => ite (raise (by simp)) (pure ())
  · refine bind (lift (Prompt.index _ _)) fun first => ite ?_ (raise (by simp))
    refine bind (lift (Prompt.index _ _)) fun tag => ?_
    unfold Client.authenticateHmac
    split
    · exact bind (send _ _ _) fun _ => raise (by simp)
    · unfold Client.authenticateHmacWith
      refine bind (send _ _ _) fun _ => bind read fun r => ?_
      refine bind (lift (Prompt.index _ _)) fun _ => bind (lift (Prompt.createKey _ _ _)) fun _ => ?_
      refine bind (lift (Prompt.clientHmac _ _ _ _ _ _ _)) fun _ => bind (lift (Prompt.serverHmac _ _ _ _ _)) fun _ => ?_
      refine bind (lift (Prompt.hexToDigits _ _)) fun _ => bind (lift (Prompt.hexToDigits _ _)) fun _ => ?_
      refine bind (send _ _ _) fun _ => bind read fun r => ite (raise (by simp)) ?_
      refine bind (lift (Prompt.index _ _)) fun _ => bind (lift (Prompt.hexToDigits _ _)) fun _ => ?_
      refine bind (lift (Prompt.fromHex _)) fun _ => ?_
      exact ite (raise (by simp)) (send _ _ _)

theorem command (cfg : Config) (m : Msg) : Spec.Patient raisedBy (Item.command cfg m) := by
  unfold Item.command
  exact bind (send _ _ _) fun _ => bind read fun r => ite (raise (by simp)) (pure ())

theorem nextReply (want : Msg → Bool) : Spec.Patient raisedBy (Item.nextReply want) := by
  unfold Item.nextReply
  exact bind read fun r => ite (raise (by simp)) (ite (pure _) (ite (raise (by simp)) (pure _)))

theorem drain {β : Type} (want : Msg → Bool) (body : Msg → Except Err (List β)) (hb : ∀ m, want m = true → Prompt (body m)) :
    Spec.Patient raisedByGen (Item.drain want body) := by
  have key : ∀ n w, w.inbox.length = n → w.started = true → ∃ taken rest acts, w.inbox = taken.map InEv.msg ++ rest ∧
      (Item.drain want body w).2.trace = w.trace ++ acts ∧ gotten acts = taken ∧ (Item.drain want body w).2.started = true ∧
      ((Item.drain want body w).2.inbox = rest ∧ raisedByGen (Item.drain want body w).1 ≠ some .timeoutError ∨
        raisedByGen (Item.drain want body w).1 = some .timeoutError ∧ (∀ m r, rest ≠ .msg m :: r) ∧
          (Item.drain want body w).2.inbox = rest.drop 1) := by
    intro n
    induction n using Nat.strong_induction_on with
    | _ n ih =>
      intro w hn hs
      obtain ⟨taken, rest, acts, a, c, d, e, hh⟩ := nextReply want w hs
      unfold Item.drain
      split
      · rename_i e' w' hr
        rw [hr] at c e hh
        exact ⟨taken, rest, acts, a, c, d, e, hh⟩
      · rename_i w' hr
        rw [hr] at c e hh
        refine ⟨taken, rest, acts, a, c, d, e, ?_⟩
        rcases hh with ⟨h1, h2⟩ | ⟨h1, _⟩
        · exact .inl ⟨h1, by intro h; cases h⟩
        · cases h1
      · rename_i m w' hr
        rw [hr] at c e hh
        rcases hh with ⟨h1, h2⟩ | ⟨h1, _⟩
        · split
          · rename_i e' he
            refine ⟨taken, rest, acts, a, c, d, e, .inl ⟨h1, ?_⟩⟩
            intro h
            cases h
            exact hb m (Raises.nextReply_wanted hr) _ he rfl
          · rename_i ys hy
            obtain ⟨taken', rest', acts', a', c', d', e', h'⟩ := ih _ (hn ▸ Item.nextReply_shrinks hr) w' rfl e
            dsimp only at h1
            refine ⟨taken ++ taken', rest', acts ++ acts', ?_, ?_, ?_, e', h'⟩
            · rw [a, List.map_append, List.append_assoc, ← a', h1]
            · rw [c', c, List.append_assoc]
            · rw [gotten_append, d, d']
        · cases h1
  exact fun w hs => key _ w rfl hs

theorem stream {β : Type} (cfg : Config) (m : Msg) (want : Msg → Bool) (body : Msg → Except Err (List β))
    (hb : ∀ m, want m = true → Prompt (body m)) : Spec.Patient raisedByGen (Item.stream cfg m want body) := by
  refine seq (f := Client.sendMessage cfg m false) (g := fun _ => Item.drain want body) (k := fun e => ([], .error e))
    (send _ _ _) (fun _ => drain want body hb) (fun _ => rfl) ?_ ?_
  · intro w a w' h
    unfold Item.stream
    rw [h]
  · intro w a w' h
    unfold Item.stream
    rw [h]

theorem singleDimReq (cfg : Config) (i : Item) (dim : Tag) : Spec.Patient raisedBy (Item.singleDimReq cfg i dim) := by
  intro w hs
  obtain ⟨taken, rest, acts, a, c, d, e, hh⟩ :=
    stream cfg (i.requestMessage dim) Msg.isDimResp (fun m => .ok [m]) (fun _ _ => Fails.ok _) w hs
  unfold Item.singleDimReq Item.dimStream
  split
  · rename_i ys e' w' hr
    rw [hr] at c e hh
    exact ⟨taken, rest, acts, a, c, d, e, hh⟩
  · rename_i w' hr
    rw [hr] at c e hh
    refine ⟨taken, rest, acts, a, c, d, e, ?_⟩
    rcases hh with ⟨h1, h2⟩ | ⟨h1, _⟩
    · exact .inl ⟨h1, by intro h; cases h⟩
    · cases h1
  · rename_i m ms w' hr
    rw [hr] at c e hh
    refine ⟨taken, rest, acts, a, c, d, e, ?_⟩
    rcases hh with ⟨h1, h2⟩ | ⟨h1, _⟩
    · exact .inl ⟨h1, by intro h; cases h⟩
    · cases h1

end Patient
