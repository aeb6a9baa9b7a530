import Verif.Proofs.Sessions
import Verif.Props.Client

/-! # Properties of successive connections of one client: C82, C83 -/

open Py M Client Spec

/-! ## C82: connecting again -/

/-- C82: what `start()` does depends only on what the gateway says on the new connection: the outcome, what is left to read,
and what is written and read are the same whatever happened to the client before. -/
theorem C82_reconnect (cfg : Config) (inbox : List InEv) :
    ∃ r rest acts, ∀ (w : World) (net : List (Option (List InEv))), w.network = some inbox :: net →
      start cfg w = (r, ⟨net, true, rest, w.trace ++ .connected :: acts⟩) := by
  obtain ⟨r, rest, acts, _, h⟩ := start_framed cfg inbox
  exact ⟨r, rest, acts, h⟩

/-- C82: so a client that was used and closed is as good as a new one. -/
theorem C82_as_new (cfg : Config) (calls : List Call) (w : World) (inbox : List InEv) (net : List (Option (List InEv)))
    (hn : (calls.foldl (Client.call cfg) w).network = some inbox :: net) :
    let old := calls.foldl (Client.call cfg) w
    let new : World := ⟨some inbox :: net, false, [], []⟩
    (start cfg old).1 = (start cfg new).1 ∧ (start cfg old).2.inbox = (start cfg new).2.inbox ∧
      (start cfg old).2.trace = old.trace ++ (start cfg new).2.trace := by
  intro old new
  obtain ⟨r, rest, acts, h⟩ := C82_reconnect cfg inbox
  rw [h old net hn, h new net rfl]
  exact ⟨rfl, rfl, rfl⟩

/-- The hypothesis is met: a second connection after an unread message on the first. -/
example : let lib : HmacAuth.Lib := ⟨fun _ => [], fun _ => [], fun _ _ _ => [], fun _ => none⟩
    let cfg : Config := ⟨cs!"12345", .command, lib, []⟩
    let w := [Call.start, .close].foldl (Client.call cfg)
      ⟨[some [.msg .ack, .msg .ack, .msg .nack], some [.msg .ack, .msg .ack]], false, [], []⟩
    w.network = [some [.msg .ack, .msg .ack]] ∧ (start cfg w).1 = .ok () ∧
      (readMessage (start cfg w).2).1 = .error .timeoutError := by
  decide +kernel

/-! ## C83: connections left open

The full claim: after `close()` no connection that the client opened is open. -/

namespace Spec

/-- Connections opened and not closed. -/
def stillOpen (t : List CAct) : Int := (t.count .connected : Int) - t.count .closed

/-- How often a `start()` that reached the gateway replaced a connection that was still there. -/
def replaced (up : Bool) : List (Option (List InEv)) → List Call → Nat
  | _, [] => 0
  | some _ :: net, .start :: l => up.toNat + replaced true net l
  | none :: net, .start :: l => replaced up net l
  | [], .start :: l => replaced up [] l
  | net, .close :: l => replaced false net l
  | net, .read :: l => replaced up net l
  | net, .send _ _ :: l => replaced up net l

end Spec

theorem Spec.live_close : ∀ (calls : List Call) (up : Bool) (net : List (Option (List InEv))),
    live up net (calls ++ [.close]) = false := by
  intro calls
  induction calls with
  | nil => intro up net; rcases net with _ | ⟨_ | _, _⟩ <;> rfl
  | cons c l ih =>
    intro up net
    rcases c with _ | _ | _ | _ <;> rcases net with _ | ⟨_ | _, _⟩ <;> simp [live, ih]

theorem Spec.replaced_close : ∀ (calls : List Call) (up : Bool) (net : List (Option (List InEv))),
    replaced up net (calls ++ [.close]) = replaced up net calls := by
  intro calls
  induction calls with
  | nil => intro up net; rcases net with _ | ⟨_ | _, _⟩ <;> rfl
  | cons c l ih =>
    intro up net
    rcases c with _ | _ | _ | _ <;> rcases net with _ | ⟨_ | _, _⟩ <;> simp [replaced, ih]

/-- C83: the connections left open are the current one, and every one that a later `start()` replaced. -/
theorem C83_exact (cfg : Config) (calls : List Call) (w : World) :
    stillOpen (calls.foldl (Client.call cfg) w).trace =
      stillOpen w.trace - w.started.toNat + replaced w.started w.network calls +
        (live w.started w.network calls).toNat := by
  have talk : ∀ {α : Type} {x : M α}, Framed x → ∀ w : World, (x w).2.network = w.network ∧
      (x w).2.started = w.started ∧ stillOpen (x w).2.trace = stillOpen w.trace := by
    intro α x hx w
    obtain ⟨network, started, q, t⟩ := w
    obtain ⟨r, q', acts, ht, h⟩ := hx started q
    rw [h]
    obtain ⟨h1, h2⟩ := count_talk ht
    simp [stillOpen, h1, h2]
  match calls with
  | [] => simp [live, replaced]
  | .start :: l =>
    rw [List.foldl_cons, C83_exact cfg l]
    rcases hn : w.network with _ | ⟨_ | i, net⟩
    · have : Client.call cfg w .start = w := by
        rcases start_started cfg w with ⟨i, net, h, _⟩ | ⟨_, h⟩
        · rw [hn] at h; cases h
        · obtain ⟨_, _, _, _⟩ := w; simp only at hn; subst hn; simp only [Client.call, h]; rfl
      rw [this, hn]
      simp [live, replaced]
    · have : Client.call cfg w .start = { w with network := net } := by
        rcases start_started cfg w with ⟨i, net, h, _⟩ | ⟨_, h⟩
        · rw [hn] at h; cases h
        · simp only [Client.call, h, hn]; simp
      rw [this]
      simp [live, replaced]
    · obtain ⟨r, rest, acts, ht, h⟩ := start_framed cfg i
      obtain ⟨h1, h2⟩ := count_talk ht
      have : Client.call cfg w .start = ⟨net, true, rest, w.trace ++ .connected :: acts⟩ := by
        rw [Client.call, h w net hn]
      rw [this]
      simp only [stillOpen, live, replaced, List.count_append, List.count_cons, h1, h2]
      cases w.started <;> simp <;> omega
  | .close :: l =>
    rw [List.foldl_cons, C83_exact cfg l]
    have h1 : ∀ net, live w.started net (.close :: l) = live false net l := by
      intro net
      rcases net with _ | ⟨_ | _, _⟩ <;> rfl
    have h2 : ∀ net, replaced w.started net (.close :: l) = replaced false net l := by
      intro net
      rcases net with _ | ⟨_ | _, _⟩ <;> rfl
    rw [h1, h2]
    simp only [Client.call, close]
    cases w.started <;> simp [stillOpen]
    all_goals omega
  | .read :: l =>
    rw [List.foldl_cons, C83_exact cfg l]
    have h1 : ∀ net, live w.started net (.read :: l) = live w.started net l := by
      intro net
      rcases net with _ | ⟨_ | _, _⟩ <;> rfl
    have h2 : ∀ net, replaced w.started net (.read :: l) = replaced w.started net l := by
      intro net
      rcases net with _ | ⟨_ | _, _⟩ <;> rfl
    obtain ⟨h3, h4, h5⟩ := talk Framed.read w
    rw [h1, h2]
    simp only [Client.call, h3, h4, h5]
  | .send m f :: l =>
    rw [List.foldl_cons, C83_exact cfg l]
    have h1 : ∀ net, live w.started net (.send m f :: l) = live w.started net l := by
      intro net
      rcases net with _ | ⟨_ | _, _⟩ <;> rfl
    have h2 : ∀ net, replaced w.started net (.send m f :: l) = replaced w.started net l := by
      intro net
      rcases net with _ | ⟨_ | _, _⟩ <;> rfl
    obtain ⟨h3, h4, h5⟩ := talk (Framed.send cfg m f) w
    rw [h1, h2]
    simp only [Client.call, h3, h4, h5]

/-- C83 is false: a `start()` that fails its handshake and is tried again leaves the first connection open for good. -/
theorem C83_close_refuted :
    ¬ ∀ (cfg : Config) (calls : List Call) (net : List (Option (List InEv))),
      stillOpen ((calls ++ [Call.close]).foldl (Client.call cfg) ⟨net, false, [], []⟩).trace = 0 := by
  intro h
  let lib : HmacAuth.Lib := ⟨fun _ => [], fun _ => [], fun _ _ _ => [], fun _ => none⟩
  have := h ⟨cs!"12345", .command, lib, []⟩ [.start, .start] [some [.silence], some [.msg .ack, .msg .ack]]
  rw [C83_exact] at this
  simp [stillOpen, replaced, live] at this

/-- C83, what holds: when no `start()` replaces a connection (each is preceded by `close()` once one has reached the
gateway), `close()` leaves nothing open; and it never closes more than was opened. -/
theorem C83_close_partial (cfg : Config) (calls : List Call) (net : List (Option (List InEv))) :
    (replaced false net calls = 0 →
      stillOpen ((calls ++ [Call.close]).foldl (Client.call cfg) ⟨net, false, [], []⟩).trace = 0) ∧
    0 ≤ stillOpen (calls.foldl (Client.call cfg) ⟨net, false, [], []⟩).trace := by
  constructor
  · intro hr
    rw [C83_exact, live_close, replaced_close, hr]
    simp [stillOpen]
  · rw [C83_exact]
    simp [stillOpen]
    omega

/-- The hypothesis of `C83_close_partial` is met by a history that connects twice. -/
example : replaced false [none, some [], some []] [.start, .start, .close, .start] = 0 := rfl
