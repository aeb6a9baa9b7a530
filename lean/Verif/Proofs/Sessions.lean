import Verif.Model.Client

/-! # Helper lemmas on successive connections -/

open Py M Client

/-- An action on the messages of a connection, rather than on the connection itself. -/
def CAct.isTalk : CAct → Bool
  | .sent _ | .got _ => true
  | .connected | .closed => false

/-- The computation neither looks at nor changes the network and the earlier trace, keeps the connection, and only talks. -/
def Framed {α : Type} (x : M α) : Prop :=
  ∀ b q, ∃ r q' acts, (∀ a ∈ acts, a.isTalk = true) ∧ ∀ net t, x ⟨net, b, q, t⟩ = (r, ⟨net, b, q', t ++ acts⟩)

namespace Framed

theorem of_pure {α : Type} (a : α) : Framed (Pure.pure a : M α) := fun b q =>
  ⟨.ok a, q, [], by simp, fun net t => by simp [Pure.pure, M.pure]⟩

theorem raise {α : Type} (e : Err) : Framed (M.raise e : M α) := fun b q =>
  ⟨.error e, q, [], by simp, fun net t => by simp [M.raise]⟩

theorem lift {α : Type} (x : Except Err α) : Framed (M.lift x) := fun b q =>
  ⟨x, q, [], by simp, fun net t => by simp [M.lift]⟩

theorem bind {α β : Type} {x : M α} {f : α → M β} (hx : Framed x) (hf : ∀ a, Framed (f a)) : Framed (x >>= f) := by
  intro b q
  obtain ⟨r, q', acts, h1, h2⟩ := hx b q
  cases r with
  | error e =>
    refine ⟨.error e, q', acts, h1, fun net t => ?_⟩
    show M.bind x f _ = _
    simp only [M.bind, h2]
  | ok a =>
    obtain ⟨r, q'', acts', h1', h2'⟩ := hf a b q'
    refine ⟨r, q'', acts ++ acts', ?_, fun net t => ?_⟩
    · intro c hc
      rcases List.mem_append.1 hc with hc | hc
      · exact h1 c hc
      · exact h1' c hc
    · show M.bind x f _ = _
      simp only [M.bind, h2, h2', List.append_assoc]

theorem ite {α : Type} {c : Prop} [Decidable c] {x y : M α} (hx : Framed x) (hy : Framed y) :
    Framed (if c then x else y) := by
  split
  · exact hx
  · exact hy

theorem send (cfg : Config) (m : Msg) (force : Bool) : Framed (sendMessage cfg m force) := by
  intro b q
  unfold sendMessage
  by_cases h1 : (!isCmdSession cfg.session && !force) = true
  · exact ⟨.error .invalidSession, q, [], by simp, fun net t => by simp [h1]⟩
  · by_cases h2 : (!b) = true
    · exact ⟨.error .invalidSession, q, [], by simp, fun net t => by simp [h1, h2]⟩
    · cases hb : m.bytes with
      | error e => exact ⟨.error e, q, [], by simp, fun net t => by simp [h1, h2]⟩
      | ok bs => exact ⟨.ok (), q, [.sent m.str], by simp [CAct.isTalk], fun net t => by simp [h1, h2]⟩

theorem read : Framed readMessage := by
  intro b q
  unfold readMessage
  cases b with
  | false => exact ⟨.error .invalidSession, q, [], by simp, fun net t => by simp⟩
  | true =>
    rcases q with _ | ⟨m | _, rest⟩
    · exact ⟨.error .timeoutError, [], [], by simp, fun net t => by simp⟩
    · exact ⟨.ok m, rest, [.got m], by simp [CAct.isTalk], fun net t => by simp⟩
    · exact ⟨.error .timeoutError, rest, [], by simp, fun net t => by simp⟩

theorem open_ (cfg : Config) (nonce : Str) : Framed (authenticateOpen cfg nonce) :=
  bind (lift _) fun _ => bind (send _ _ _) fun _ => bind read fun _ => ite (raise _) (of_pure _)

theorem hmac (cfg : Config) (tag : Str) : Framed (authenticateHmac cfg tag) := by
  unfold authenticateHmac
  split
  · exact bind (send _ _ _) fun _ => raise _
  · unfold authenticateHmacWith
    refine bind (send _ _ _) fun _ => bind read fun _ => bind (lift _) fun _ => bind (lift _) fun _ => bind (lift _) fun _ =>
      bind (lift _) fun _ => bind (lift _) fun _ => bind (lift _) fun _ => bind (send _ _ _) fun _ => bind read fun _ => ite (raise _) ?_
    exact bind (lift _) fun _ => bind (lift _) fun _ => bind (lift _) fun _ => ite (raise _) (send _ _ _)

theorem handshake (cfg : Config) : Framed (Client.handshake cfg) := by
  unfold Client.handshake
  refine bind read fun _ => ite (raise _) (bind (lift _) fun _ => bind (send _ _ _) fun _ => bind read fun _ => ite (of_pure _)
    (ite (bind (lift _) fun _ => open_ _ _) (bind (lift _) fun _ => ite (bind (lift _) fun _ => hmac _ _) (raise _))))

end Framed

theorem count_talk {acts : List CAct} (h : ∀ a ∈ acts, a.isTalk = true) : acts.count .connected = 0 ∧ acts.count .closed = 0 := by
  constructor <;> rw [List.count_eq_zero] <;> intro hm <;> have := h _ hm <;> simp [CAct.isTalk] at this

theorem start_framed (cfg : Config) (inbox : List InEv) :
    ∃ r rest acts, (∀ a ∈ acts, a.isTalk = true) ∧ ∀ (w : World) (net : List (Option (List InEv))),
      w.network = some inbox :: net → start cfg w = (r, ⟨net, true, rest, w.trace ++ .connected :: acts⟩) := by
  obtain ⟨r, rest, acts, ht, h⟩ := Framed.handshake cfg true inbox
  refine ⟨r, rest, acts, ht, fun w net hn => ?_⟩
  obtain ⟨network, started, q, t⟩ := w
  simp only at hn
  subst hn
  unfold start
  simp only [Bind.bind, M.bind, connect, h]
  simp
