import Verif.Props.Items
import Verif.Spec.History

/-!
# How long a call can take (C93)

Every wait for a message is limited by a timeout (`pyown/client/base.py:225`, `:238`), so a call ends in bounded time exactly
if it waits a bounded number of times.
-/

open Py Spec HmacAuth Client M

namespace Spec

/-- On a started client, whatever arrives, the call takes at most `k` messages, without a gap; it waits once more only to find
that nothing comes, and then raises `TimeoutError`. -/
def Takes {α : Type} (k : Nat) (f : M α) : Prop :=
  ∀ w, w.started = true → ∃ taken rest acts, w.inbox = taken.map InEv.msg ++ rest ∧ taken.length ≤ k ∧
    (f w).2.trace = w.trace ++ acts ∧ gotten acts = taken ∧ (f w).2.started = true ∧
    ((f w).2.inbox = rest ∨
      (f w).1 = .error .timeoutError ∧ taken.length < k ∧ (∀ m r, rest ≠ .msg m :: r) ∧ (f w).2.inbox = rest.drop 1)

end Spec

theorem gotten_append (a b : List CAct) : gotten (a ++ b) = gotten a ++ gotten b := by
  induction a with
  | nil => rfl
  | cons x a ih => cases x <;> simp [gotten, ih]

namespace Takes

theorem mono {α : Type} {f : M α} {k k' : Nat} (h : Takes k f) (hk : k ≤ k') : Takes k' f := by
  intro w hs
  obtain ⟨taken, rest, acts, a, b, c, d, e, g⟩ := h w hs
  refine ⟨taken, rest, acts, a, by omega, c, d, e, ?_⟩
  rcases g with g | ⟨g1, g2, g3⟩
  · exact .inl g
  · exact .inr ⟨g1, by omega, g3⟩

theorem still {α : Type} {f : M α} (hi : ∀ w, (f w).2.inbox = w.inbox) (hs : ∀ w, w.started = true → (f w).2.started = true)
    (ht : ∀ w, ∃ acts, (f w).2.trace = w.trace ++ acts ∧ gotten acts = []) : Takes 0 f := by
  intro w h
  obtain ⟨acts, h1, h2⟩ := ht w
  exact ⟨[], w.inbox, acts, rfl, by simp, h1, h2, hs w h, .inl (hi w)⟩

theorem pure {α : Type} (a : α) : Takes 0 (Pure.pure a : M α) :=
  still (fun _ => rfl) (fun _ h => h) fun w => ⟨[], (List.append_nil _).symm, rfl⟩
theorem raise {α : Type} (e : Err) : Takes 0 (M.raise e : M α) :=
  still (fun _ => rfl) (fun _ h => h) fun w => ⟨[], (List.append_nil _).symm, rfl⟩
theorem lift {α : Type} (x : Except Err α) : Takes 0 (M.lift x) :=
  still (fun _ => rfl) (fun _ h => h) fun w => ⟨[], (List.append_nil _).symm, rfl⟩

theorem send (cfg : Config) (m : Msg) (force : Bool) : Takes 0 (sendMessage cfg m force) := by
  apply still
  · intro w; unfold sendMessage; split_ifs <;> try rfl
    split <;> rfl
  · intro w h; unfold sendMessage; split_ifs <;> try exact h
    split <;> exact h
  · intro w; unfold sendMessage
    split_ifs
    · exact ⟨[], (List.append_nil _).symm, rfl⟩
    · exact ⟨[], (List.append_nil _).symm, rfl⟩
    · split
      · exact ⟨[], (List.append_nil _).symm, rfl⟩
      · exact ⟨_, rfl, rfl⟩

theorem read : Takes 1 readMessage := by
  intro w hs
  rcases read_cases hs with ⟨m, r, h1, h2⟩ | ⟨h1, h2⟩
  · rw [h2]
    exact ⟨[m], r, [.got m], h1, by simp, rfl, rfl, hs, .inl rfl⟩
  · rw [h2]
    exact ⟨[], w.inbox, [], rfl, by simp, (List.append_nil _).symm, rfl, hs, .inr ⟨rfl, by simp, h1, rfl⟩⟩

theorem bind {α β : Type} {f : M α} {g : α → M β} {j k : Nat} (hf : Takes j f) (hg : ∀ a, Takes k (g a)) :
    Takes (j + k) (f >>= g) := by
  intro w hs
  obtain ⟨taken, rest, acts, a, b, c, d, e, h⟩ := hf w hs
  rcases hr : f w with ⟨x | x, w'⟩
  · rw [hr] at c e h
    rw [bind_error hr]
    refine ⟨taken, rest, acts, a, by omega, c, d, e, ?_⟩
    rcases h with h | ⟨h1, h2, h3, h4⟩
    · exact .inl h
    · exact .inr ⟨by simpa using h1, by omega, h3, h4⟩
  · rw [hr] at c e h
    rw [bind_ok hr]
    rcases h with h | ⟨h1, _⟩
    · obtain ⟨taken', rest', acts', a', b', c', d', e', h'⟩ := hg x w' e
      dsimp only at h
      refine ⟨taken ++ taken', rest', acts ++ acts', ?_, by simp; omega, ?_, ?_, e', ?_⟩
      · rw [a, List.map_append, List.append_assoc, ← a', h]
      · rw [c', c, List.append_assoc]
      · rw [gotten_append, d, d']
      · rcases h' with h' | ⟨h1, h2, h3⟩
        · exact .inl h'
        · exact .inr ⟨h1, by simp; omega, h3⟩
    · cases h1

theorem ite {α : Type} {c : Prop} [Decidable c] {f g : M α} {k : Nat} (hf : Takes k f) (hg : Takes k g) :
    Takes k (if c then f else g) := by split_ifs <;> assumption

theorem handshake (cfg : Config) : Takes 4 (Client.handshake cfg) := by
  unfold Client.handshake
  refine bind (j := 1) (k := 3) read fun m => ite (mono (raise _) (by omega)) ?_
  refine bind (j := 0) (k := 3) (lift _) fun s => bind (j := 0) (k := 3) (send _ _ _) fun _ =>
    bind (j := 1) (k := 2) read fun r => ite (mono (pure ()) (by omega)) (ite ?_ ?_)
  · refine bind (j := 0) (k := 2) (lift _) fun nonce => ?_
    unfold authenticateOpen
    refine bind (j := 0) (k := 2) (lift _) fun enc => bind (j := 0) (k := 2) (send _ _ _) fun _ =>
      mono (bind (j := 1) (k := 0) read fun r => ite (raise _) (pure ())) (by omega)
  · refine bind (j := 0) (k := 2) (lift _) fun first => ite ?_ (mono (raise _) (by omega))
    refine bind (j := 0) (k := 2) (lift _) fun tag => ?_
    unfold authenticateHmac
    split
    · exact mono (bind (j := 0) (k := 0) (send _ _ _) fun _ => raise _) (by omega)
    · unfold authenticateHmacWith
      refine bind (j := 0) (k := 2) (send _ _ _) fun _ => bind (j := 1) (k := 1) read fun r => ?_
      repeat refine bind (j := 0) (k := 1) (lift _) fun _ => ?_
      refine bind (j := 0) (k := 1) (send _ _ _) fun _ => bind (j := 1) (k := 0) read fun r => ite (raise _) ?_
      repeat refine bind (j := 0) (k := 0) (lift _) fun _ => ?_
      exact ite (raise _) (send _ _ _)

end Takes

/-- C93: `start()` takes at most four messages of the connection it makes. -/
theorem C93_start (cfg : Config) (w : World) (inbox : List InEv) (net : List (Option (List InEv)))
    (hn : w.network = some inbox :: net) :
    ∃ taken rest acts, inbox = taken.map InEv.msg ++ rest ∧ taken.length ≤ 4 ∧ (start cfg w).2.trace = w.trace ++ acts ∧
      gotten acts = taken ∧ ((start cfg w).2.inbox = rest ∨
        (start cfg w).1 = .error .timeoutError ∧ taken.length < 4 ∧ (∀ m r, rest ≠ .msg m :: r) ∧
          (start cfg w).2.inbox = rest.drop 1) := by
  obtain ⟨taken, rest, acts, a, b, c, d, _, h⟩ := Takes.handshake cfg ⟨net, true, inbox, w.trace ++ [.connected]⟩ rfl
  have e : start cfg w = Client.handshake cfg ⟨net, true, inbox, w.trace ++ [.connected]⟩ := by
    unfold start
    rcases connect_run w with ⟨inbox', net', hn', hc⟩ | ⟨hn', _⟩
    · rw [hn] at hn'; cases hn'
      rw [bind_ok hc]
    · exact absurd hn (hn' _ _)
  rw [e]
  exact ⟨taken, rest, .connected :: acts, a, b, by rw [c]; simp, d, h⟩

/-- C93: a command takes at most one message. -/
theorem C93_command (cfg : Config) (m : Msg) : Takes 1 (Item.command cfg m) := by
  unfold Item.command
  exact Takes.bind (j := 0) (k := 1) (Takes.send _ _ _) fun _ =>
    Takes.bind (j := 1) (k := 0) Takes.read fun r => Takes.ite (Takes.raise _) (Takes.pure ())

/-- C93: and so do the sending methods of items. -/
theorem C93_methods (cfg : Config) (i : Item) (what dim : Str) (tag : Tag) (vs : List Tag) :
    Takes 1 (i.sendNormal cfg what) ∧ Takes 1 (i.sendNormalTag cfg tag) ∧ Takes 1 (i.sendWriting cfg dim vs) ∧
      Takes 1 (i.sendWritingTag cfg tag vs) :=
  ⟨Takes.bind (j := 0) (k := 1) (Takes.lift _) fun _ => C93_command cfg _, C93_command cfg _,
    Takes.bind (j := 0) (k := 1) (Takes.lift _) fun _ => C93_command cfg _, C93_command cfg _⟩

/-- C93 is refuted for the getters that want one value: no number bounds the messages taken by `_single_dim_req`. -/
theorem C93_single_refuted (cfg : Config) (hs : cfg.session ≠ .event) (i : Item) (hi : TagText i.wher.string) (dim : Tag)
    (hd : TagText dim.string) (n : Nat) : ¬ Takes n (Item.singleDimReq cfg i dim) := by
  intro h
  let m : Msg := .dimResp i.who i.wher dim []
  let w : World := ⟨[], true, (List.replicate (n + 1) m).map InEv.msg ++ [], []⟩
  obtain ⟨taken, rest, acts, _, b, c, d, _, _⟩ := h w rfl
  rw [C37_single cfg i hi dim hd w ⟨rfl, hs⟩ (List.replicate (n + 1) m)
    (fun x hx => ⟨_, _, _, _, (List.mem_replicate.1 hx).2⟩) [] rfl _ _ _ .nothing] at c
  have e : acts = .sent (frame ['#' :: i.who.code, i.wher.string, dim.string]) :: ((List.replicate (n + 1) m).map CAct.got ++ []) := by
    simpa [World.after, w] using c.symm
  have g : ∀ l : List Msg, gotten (l.map CAct.got) = l := by
    intro l; induction l with
    | nil => rfl
    | cons x l ih => simp [gotten, ih]
  rw [e, List.append_nil, show ∀ (t : Str) l, gotten (.sent t :: l) = gotten l from fun _ _ => rfl, g] at d
  rw [← d] at b
  simp at b

/-- A gateway that greets, challenges and accepts: three messages are taken. -/
example (lib : Lib) : gotten (start ⟨cs!"12345", .command, lib, []⟩
    ⟨[some [.msg .ack, .msg (.generic [cs!"603356072"]), .msg .ack, .msg .nack]], false, [], []⟩).2.trace =
      [.ack, .generic [cs!"603356072"], .ack] := by rfl
