import Verif.Proofs.Logs
import Verif.Props.Secrets

/-!
# What the log of a connection says, and what it gives away (C112)
-/

open Py Spec Logs

namespace Spec

/-- What somebody who reads a log shown at DEBUG takes the password for. -/
def overlooked (l : List Record) : Nat := overheard (l.filterMap learnt)

end Spec

/-! ## C112: logging -/

/-- C112: logging changes nothing about what `start` does. -/
theorem C112_erase (cfg : Config) (w : World) : (Logs.start cfg w).1 = Client.start cfg w := sim_start cfg w

/-- C112: the log of a call of `start` is what the traffic of the call and its outcome say. -/
theorem C112_exact (cfg : Config) (w : World) :
    ∃ acts, (Client.start cfg w).2.trace = w.trace ++ acts ∧ records cfg w = logOf acts (Client.start cfg w).1.isOk := by
  obtain ⟨acts, h1, h2, _⟩ := start_log cfg w
  rw [C112_erase] at h1 h2
  exact ⟨acts, h1, h2⟩

/-- C112: what is shown at INFO and above depends on what the gateway says and on whether `start` returned, nothing else. -/
theorem C112_shown (cfg : Config) (w : World) :
    shown (records cfg w) = shownOf w.network (Client.start cfg w).1.isOk := by
  obtain ⟨_, _, _, h, _⟩ := start_log cfg w
  rw [C112_erase] at h
  exact h

/-- C112: two clients, with whatever passwords, that meet the same gateway with the same success show the same log. -/
theorem C112_alike (cfg cfg' : Config) (w w' : World) (hn : w.network = w'.network)
    (ho : (Client.start cfg w).1.isOk = (Client.start cfg' w').1.isOk) :
    shown (records cfg w) = shown (records cfg' w') := by
  rw [C112_shown, C112_shown, hn, ho]

/-- C112: "Client ready" is logged exactly when `start` returns. -/
theorem C112_ready (cfg : Config) (w : World) : Record.ready ∈ records cfg w ↔ (Client.start cfg w).1 = .ok () := by
  have hs := C112_shown cfg w
  have hm : Record.ready ∈ records cfg w ↔ Record.ready ∈ shown (records cfg w) := by
    simp [shown, Record.level]
  have ha : ∀ r, Record.ready ∉ announced r := by
    intro r; unfold announced; split_ifs <;> simp
  rw [hm, hs]
  rcases hr : (Client.start cfg w).1 with e | u
  · simp only [Except.isOk, Except.toBool, reduceCtorEq, iff_false]
    unfold shownOf
    split <;> simp [ha]
  · cases u
    simp only [Except.isOk, Except.toBool, iff_true]
    obtain ⟨acts, h1, h2⟩ := C112_exact cfg w
    have hc := Client.start_cases cfg w
    have hr' : Client.start cfg w = (.ok (), (Client.start cfg w).2) := by rw [← hr]
    rw [hr'] at hc
    generalize (Client.start cfg w).2 = w' at hc
    generalize he : ((.ok (), w') : Except Err Unit × World) = r at hc
    cases hc with
    | unreachable h => cases he
    | mute _ _ h hq => cases he
    | refused _ _ _ h hm => cases he
    | unanswered _ _ h hq => cases he
    | answered c r net h => rw [h]; simp [shownOf]

/-- C112 is refuted at DEBUG for OPEN authentication: the log of one handshake contains the password. -/
theorem C112_debug_refuted (cfg : Config) (w : World) (nonce : Str) (c : Msg) (rest : List InEv)
    (net : List (Option (List InEv))) (hne : cfg.password ≠ []) (hd : Digits cfg.password)
    (hl : cfg.password.length ≤ 4300) (hp : value cfg.password < 2 ^ 32) (hc : c.tags = [nonce])
    (hn : ∃ d ∈ nonce, d ≠ '0') (hnet : w.network = some (.msg .ack :: .msg c :: rest) :: net) (ht : w.trace = []) :
    overlooked (records cfg w) = value cfg.password := by
  rw [← C91_open_refuted cfg w nonce c rest net hne hd hl hp hc hn hnet ht]
  obtain ⟨acts, h1, h2, _, h4⟩ := start_log cfg w
  rw [C112_erase, ht, List.nil_append] at h1
  rw [overlooked, h4, h1]
  have hcon : ∃ more, acts = .connected :: more := by
    rcases acts with _ | ⟨a, more⟩
    · rw [h2] at h4
      have hs := C112_shown cfg w
      rw [h2, hnet] at hs
      simp [logOf, shown, shownOf] at hs
    · cases a with
      | connected => exact ⟨_, rfl⟩
      | _ =>
        have hs := C112_shown cfg w
        rw [h2, hnet] at hs
        simp [logOf, shown, shownOf] at hs
  obtain ⟨more, rfl⟩ := hcon
  rfl

/-- C112 at DEBUG as far as it holds: unless the gateway sends a one-tag challenge, two clients whose passwords have the same
SHA-1 and SHA-256 digests leave the same log, at every level. -/
theorem C112_debug_partial (cfg : Config) (pw : Str) (w : World)
    (h1 : cfg.lib.sha1 (utf8 cfg.password) = cfg.lib.sha1 (utf8 pw))
    (h2 : cfg.lib.sha256 (utf8 cfg.password) = cfg.lib.sha256 (utf8 pw))
    (hn : ∀ c rest net, w.network = some (.msg .ack :: .msg c :: rest) :: net → c.tags.length ≠ 1) :
    records cfg w = records { cfg with password := pw } w := by
  obtain ⟨a1, k1, k2⟩ := C112_exact cfg w
  obtain ⟨a2, k3, k4⟩ := C112_exact { cfg with password := pw } w
  have he := C91_hmac_partial cfg pw w h1 h2 hn
  rw [← he] at k3 k4
  rw [k1] at k3
  rw [k2, k4, List.append_cancel_left k3]

/-! ## Example: an OPEN login, shown at INFO and at DEBUG -/

namespace Example112

/-- A client with the password 12345. -/
def cfg : Config := ⟨cs!"12345", .command, ⟨fun _ => [], fun _ => [], fun _ _ _ => [], fun _ => none⟩, []⟩

/-- A gateway that sends a nonce and accepts the answer. -/
def gate : World := ⟨[some [.msg .ack, .msg (.generic [cs!"603356072"]), .msg .ack]], false, [], []⟩

example : (Client.start cfg gate).1 = .ok () := by decide +kernel
example : shown (records cfg gate) = [.connectionMade, .usingOpen, .ready] := by decide +kernel
example : records cfg gate = [.connectionMade, .connectionStarted, .received .ack, .startingHandshake, .sent cs!"*99*9##",
    .received (.generic [cs!"603356072"]), .usingOpen, .sent cs!"*#25280520##", .received .ack, .ready] := by decide +kernel
example : overlooked (records cfg gate) = 12345 := by decide +kernel

end Example112
