import Verif.Proofs.Handshake

/-! # Coroutines and a gateway that stops talking -/

open Py Spec HmacAuth M

namespace Client

/-- The gateway says nothing more for now. -/
def Quiet (q : List InEv) : Prop := ∀ m r, q ≠ .msg m :: r

/-- A coroutine that only adds to the trace and, when the gateway stops talking after the messages `l`, either has enough
with them or raises `TimeoutError`, having done only what it would do anyway had the gateway continued. -/
structure Tame {α : Type} (f : M α) : Prop where
  mono : ∀ w, w.trace <+: (f w).2.trace
  keep : ∀ w, w.started = true → (f w).2.started = true
  cut : ∀ w, w.started = true → ∀ (l : List Msg) (q : List InEv), Quiet q → w.inbox = l.map .msg ++ q →
    (∃ done left, l = done ++ left ∧ (f w).2.inbox = left.map .msg ++ q ∧
      ∀ t, f { w with inbox := l.map .msg ++ t } = ((f w).1, { (f w).2 with inbox := left.map .msg ++ t })) ∨
    ((f w).1 = .error .timeoutError ∧ (f w).2.inbox = q.drop 1 ∧
      ∀ t, (f w).2.trace <+: (f { w with inbox := l.map .msg ++ t }).2.trace)

/-- A coroutine that does not read. -/
theorem Tame.of_still {α : Type} {f : M α} (mono : ∀ w, w.trace <+: (f w).2.trace)
    (keep : ∀ w, w.started = true → (f w).2.started = true)
    (still : ∀ w i, f { w with inbox := i } = ((f w).1, { (f w).2 with inbox := i })) : Tame f where
  mono := mono
  keep := keep
  cut w _ l q _ hi := by
    left
    refine ⟨[], l, rfl, ?_, fun t => still w _⟩
    rw [← hi]
    have := congrArg (fun p => p.2.inbox) (still w w.inbox)
    exact this

theorem Tame.pure {α : Type} (a : α) : Tame (Pure.pure a : M α) :=
  .of_still (fun _ => List.prefix_refl _) (fun _ h => h) (fun _ _ => rfl)
theorem Tame.raise {α : Type} (e : Err) : Tame (M.raise e : M α) :=
  .of_still (fun _ => List.prefix_refl _) (fun _ h => h) (fun _ _ => rfl)
theorem Tame.lift {α : Type} (x : Except Err α) : Tame (M.lift x) :=
  .of_still (fun _ => List.prefix_refl _) (fun _ h => h) (fun _ _ => rfl)

theorem Tame.send (cfg : Config) (m : Msg) (force : Bool) : Tame (sendMessage cfg m force) := by
  apply Tame.of_still
  · intro w; unfold sendMessage; split_ifs <;> try exact List.prefix_refl _
    split <;> simp
  · intro w h; unfold sendMessage; split_ifs <;> try exact h
    split <;> exact h
  · intro w i; unfold sendMessage; dsimp only; split_ifs <;> try rfl
    split <;> rfl

theorem Tame.read : Tame readMessage where
  mono w := by
    unfold readMessage; split_ifs
    · exact List.prefix_refl _
    · split <;> simp
  keep w h := by
    unfold readMessage; split_ifs
    · exact h
    · split <;> exact h
  cut w hs l q hq hi := by
    cases l with
    | nil =>
      right
      rcases read_cases hs with ⟨m, rest, h, _⟩ | ⟨_, h⟩
      · exact absurd (hi.symm.trans h) (hq m rest)
      · rw [h]
        refine ⟨rfl, by simp [hi], fun t => ?_⟩
        dsimp only
        rcases read_cases (w := { w with inbox := List.map InEv.msg [] ++ t }) hs with ⟨m, rest, _, h⟩ | ⟨_, h⟩ <;> rw [h] <;> simp
    | cons m l =>
      left
      refine ⟨[m], l, rfl, ?_, fun t => ?_⟩
      · rw [read_msg hs hi]; rfl
      · rw [read_msg hs hi, read_msg (w := { w with inbox := List.map InEv.msg (m :: l) ++ t }) hs rfl]; rfl

theorem Tame.bind {α β : Type} {f : M α} {g : α → M β} (hf : Tame f) (hg : ∀ a, Tame (g a)) : Tame (f >>= g) where
  mono w := by
    rw [bind_apply]
    have := hf.mono w
    rcases h : f w with ⟨_ | a, w'⟩ <;> rw [h] at this
    · exact this
    · exact this.trans ((hg a).mono w')
  keep w hw := by
    rw [bind_apply]
    have := hf.keep w hw
    rcases h : f w with ⟨_ | a, w'⟩ <;> rw [h] at this
    · exact this
    · exact (hg a).keep w' this
  cut w hw l q hq hi := by
    have keep := hf.keep w hw
    have cut := hf.cut w hw l q hq hi
    have mono : ∀ w', (f w').2.trace <+: ((f >>= g) w').2.trace := by
      intro w'
      rw [bind_apply]
      rcases h : f w' with ⟨_ | a, w''⟩
      · exact List.prefix_refl _
      · exact (hg a).mono w''
    rcases h : f w with ⟨e | a, w'⟩ <;> rw [h] at cut keep
    · rw [bind_error h]
      rcases cut with ⟨done, left, h1, h2, h3⟩ | ⟨h1, h2, h3⟩
      · left
        refine ⟨done, left, h1, h2, fun t => ?_⟩
        rw [bind_error (h3 t)]
      · right
        refine ⟨?_, h2, fun t => (h3 t).trans (mono _)⟩
        cases h1; rfl
    · rw [bind_ok h]
      rcases cut with ⟨done, left, h1, h2, h3⟩ | ⟨h1, _, _⟩
      · have h3 : ∀ t, (f >>= g) { w with inbox := l.map .msg ++ t } = g a { w' with inbox := left.map .msg ++ t } :=
          fun t => bind_ok (h3 t)
        rcases (hg a).cut w' keep left q hq h2 with ⟨done', left', h1', h2', h3'⟩ | ⟨h1', h2', h3'⟩
        · left
          refine ⟨done ++ done', left', by rw [h1, h1', List.append_assoc], h2', fun t => ?_⟩
          rw [h3, h3']
        · right
          refine ⟨h1', h2', fun t => ?_⟩
          rw [h3]; exact h3' t
      · cases h1

theorem Tame.ite {α : Type} {p : Prop} [Decidable p] {f g : M α} (hf : Tame f) (hg : Tame g) : Tame (if p then f else g) := by
  split_ifs
  · exact hf
  · exact hg

theorem tame_open (cfg : Config) (nonce : Str) : Tame (authenticateOpen cfg nonce) := by
  unfold authenticateOpen
  repeat' first | apply Tame.bind | apply Tame.ite | apply Tame.lift | apply Tame.send | apply Tame.read | apply Tame.raise | apply Tame.pure | intro _

theorem tame_hmac (cfg : Config) (tag : Str) : Tame (authenticateHmac cfg tag) := by
  unfold authenticateHmac
  split
  · repeat' first | apply Tame.bind | apply Tame.ite | apply Tame.lift | apply Tame.send | apply Tame.read | apply Tame.raise | apply Tame.pure | intro _
  · unfold authenticateHmacWith
    repeat' first | apply Tame.bind | apply Tame.ite | apply Tame.lift | apply Tame.send | apply Tame.read | apply Tame.raise | apply Tame.pure | intro _

theorem tame_handshake (cfg : Config) : Tame (handshake cfg) := by
  unfold handshake
  repeat' first | apply Tame.bind | apply Tame.ite | apply Tame.lift | apply Tame.send | apply Tame.read | apply Tame.raise | apply Tame.pure | apply tame_open | apply tame_hmac | intro _

theorem tame_challenge (cfg : Config) (c : Msg) : Tame (challenge cfg c) := by
  unfold challenge
  repeat' first | apply Tame.bind | apply Tame.ite | apply Tame.lift | apply Tame.send | apply Tame.read | apply Tame.raise | apply Tame.pure | apply tame_open | apply tame_hmac | intro _

end Client
