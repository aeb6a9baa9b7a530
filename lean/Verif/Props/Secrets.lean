import Verif.Props.Login

/-!
# What a handshake gives away and what it proves (C91, C92)
-/

open Py Spec HmacAuth Client M

namespace Spec

/-- What somebody who hears a connection takes the password for: the challenge is the first one-tag message received, the
answer the frame written next. -/
def overheard : List CAct → Nat
  | .got c :: .sent text :: h =>
    match c.tags with
    | [nonce] => (Open.recover nonce (BitVec.ofNat 32 (value ((text.drop 2).take (text.length - 4))))).toNat
    | _ => overheard (.sent text :: h)
  | _ :: h => overheard h
  | [] => 0

/-- A gateway that says these things, whatever it is told, and is silent afterwards. -/
def parrot (said : List Msg) : World := ⟨[some (said.map InEv.msg)], false, [], []⟩

end Spec

theorem answer_text (enc : Str) (hd : Digits enc) :
    ((frame ['#' :: enc]).drop 2).take ((frame ['#' :: enc]).length - 4) = enc := by
  simp [frame, body]

/-! ## C91: what the password is revealed to -/

/-- C91 is refuted for OPEN authentication: from the messages of one handshake, whether it succeeds or not, one reads the
password.  The gateway need not know it, and chooses the challenge. -/
theorem C91_open_refuted (cfg : Config) (w : World) (nonce : Str) (c : Msg) (rest : List InEv)
    (net : List (Option (List InEv))) (hne : cfg.password ≠ []) (hd : Digits cfg.password)
    (hl : cfg.password.length ≤ 4300) (hp : value cfg.password < 2 ^ 32) (hc : c.tags = [nonce])
    (hn : ∃ d ∈ nonce, d ≠ '0') (hnet : w.network = some (.msg .ack :: .msg c :: rest) :: net) (ht : w.trace = []) :
    overheard (start cfg w).2.trace = value cfg.password := by
  have hs := start_cases cfg w
  generalize start cfg w = r at hs
  cases hs with
  | unreachable h => exact absurd hnet (h _ _)
  | mute inbox _ h hq => rw [hnet] at h; cases h; exact absurd rfl (hq _ _)
  | refused _ _ _ h hm => rw [hnet] at h; cases h; exact absurd rfl hm
  | unanswered _ _ h hq => rw [hnet] at h; cases h; exact absurd rfl (hq _ _)
  | answered c' r' net' h =>
    rw [hnet] at h
    cases h
    rw [ht]
    obtain ⟨enc, he, hnum⟩ := C23_text_password cfg.password hne hd hl hp nonce
    have hch := challenge_cases cfg c ⟨net, true, rest, [] ++ [.connected, .got .ack, .sent (sessionFrame cfg), .got c]⟩ rfl
    generalize challenge cfg c ⟨net, true, rest, [] ++ [.connected, .got .ack, .sent (sessionFrame cfg), .got c]⟩ = r at hch
    cases hch with
    | free h => subst h; simp [Msg.tags] at hc
    | open_error nonce' e hc' he' =>
      rw [hc] at hc'; cases hc'; rw [he] at he'; cases he'
    | open_answer nonce' enc' hc' he' =>
      rw [hc] at hc'; cases hc'; rw [he] at he'; cases he'
      have key : ∀ more, overheard ([.connected, .got .ack, .sent (sessionFrame cfg), .got c, .sent (frame ['#' :: enc])] ++ more) =
          value cfg.password := by
        intro more
        have hack : Msg.ack.tags = [cs!"#", cs!"1"] := rfl
        have hed : Digits enc := hnum.2.1
        simp only [List.cons_append, List.nil_append, overheard, hc, hack]
        rw [answer_text enc hed, hnum.2.2.1]
        unfold Open.answer
        rw [if_pos hn, BitVec.ofNat_toNat, BitVec.setWidth_eq, OpenAuth.recover_fold, BitVec.toNat_ofNat, Nat.mod_eq_of_lt hp]
      unfold awaitAck
      rcases read_cases (w := ⟨net, true, rest, ([] ++ [.connected, .got .ack, .sent (sessionFrame cfg), .got c]) ++
        [.sent (frame ['#' :: enc])]⟩) rfl with ⟨m, rest', h1, h2⟩ | ⟨h1, h2⟩
      · rw [bind_ok h2]
        split_ifs
        · simpa [raise] using key [.got m]
        · simpa using key [.got m]
      · rw [bind_error h2]
        simpa using key []
    | hmac _ _ _ hc' _ => rw [hc] at hc'; cases hc'
    | unsupported _ _ hc' _ => rw [hc] at hc'; cases hc'
    | other _ _ _ hc' _ _ => rw [hc] at hc'; cases hc'
    | empty hc' => rw [hc] at hc'; cases hc'

/-- C91 as far as it holds: unless the gateway sends a one-tag challenge, two clients whose passwords have the same SHA-1 and
SHA-256 digests behave identically, so nothing but the digests can be learnt. -/
theorem C91_hmac_partial (cfg : Config) (pw : Str) (w : World)
    (h1 : cfg.lib.sha1 (utf8 cfg.password) = cfg.lib.sha1 (utf8 pw))
    (h2 : cfg.lib.sha256 (utf8 cfg.password) = cfg.lib.sha256 (utf8 pw))
    (hn : ∀ c rest net, w.network = some (.msg .ack :: .msg c :: rest) :: net → c.tags.length ≠ 1) :
    start cfg w = start { cfg with password := pw } w := by
  have hh : ∀ alg, hashOf cfg.lib alg (utf8 cfg.password) = hashOf cfg.lib alg (utf8 pw) := by
    intro alg; cases alg <;> assumption
  have e1 : ∀ alg ra rb a b, clientHmac cfg.lib ra rb cfg.password a b (Alg.value alg) =
      clientHmac cfg.lib ra rb pw a b (Alg.value alg) := by
    intro alg ra rb a b
    rw [C27_client_partial, C27_client_partial, hh]
  have e2 : ∀ alg ra rb, serverHmac cfg.lib ra rb cfg.password (Alg.value alg) =
      serverHmac cfg.lib ra rb pw (Alg.value alg) := by
    intro alg ra rb
    rw [C27_server_partial, C27_server_partial, hh]
  have e3 : ∀ alg, authenticateHmacWith cfg alg = authenticateHmacWith { cfg with password := pw } alg := by
    intro alg
    unfold authenticateHmacWith
    simp only [e1, e2]
    rfl
  have e4 : ∀ tag, authenticateHmac cfg tag = authenticateHmac { cfg with password := pw } tag := by
    intro tag
    unfold authenticateHmac
    simp only [e3]
    rfl
  unfold start
  rcases connect_run w with ⟨inbox, net, hnet, hc⟩ | ⟨_, hc⟩
  · rw [bind_ok hc, bind_ok hc]
    rcases read_cases (w := ⟨net, true, inbox, w.trace ++ [.connected]⟩) rfl with ⟨m, r1, g1, g2⟩ | ⟨_, g2⟩
    · simp only at g1
      subst g1
      by_cases hm : m = .ack
      · subst hm
        rw [handshake_ack rfl rfl, handshake_ack rfl rfl]
        unfold negotiate
        rw [show sessionFrame { cfg with password := pw } = sessionFrame cfg from rfl]
        rcases read_cases (w := ⟨net, true, r1, (w.trace ++ [.connected]) ++ [.got .ack, .sent (sessionFrame cfg)]⟩) rfl
          with ⟨c, r2, k1, k2⟩ | ⟨_, k2⟩
        · rw [bind_ok k2, bind_ok k2]
          simp only at k1
          subst k1
          simp only [hn c r2 net hnet, if_false, e4]
        · rw [bind_error k2, bind_error k2]
      · rw [handshake_other rfl rfl hm, handshake_other rfl rfl hm]
    · unfold handshake
      rw [bind_error g2, bind_error g2]
  · rw [bind_error hc, bind_error hc]

/-! ## C92: what a success proves -/

/-- C92 is refuted for OPEN authentication: a gateway that says three fixed things, whatever the client answers, is accepted by
every client whose password is a number. -/
theorem C92_open_refuted (cfg : Config) (hne : cfg.password ≠ []) (hd : Digits cfg.password)
    (hl : cfg.password.length ≤ 4300) (hp : value cfg.password < 2 ^ 32) (nonce : Str) :
    (start cfg (parrot [.ack, .generic [nonce], .ack])).1 = .ok () := by
  obtain ⟨enc, he, _⟩ := C23_text_password cfg.password hne hd hl hp nonce
  have := (C29_start_iff cfg (parrot [.ack, .generic [nonce], .ack]) _).2
    ⟨[.ack, .generic [nonce], .ack], [], [], _, rfl, .open (.generic [nonce]) nonce enc rfl he, rfl⟩
  rw [this]

/-- C92 is refuted without authentication too: a client with a password accepts a gateway that asks for none. -/
theorem C92_free_refuted (cfg : Config) : (start cfg (parrot [.ack, .ack])).1 = .ok () := by
  have := (C29_start_iff cfg (parrot [.ack, .ack]) _).2 ⟨[.ack, .ack], [], [], _, rfl, .free, rfl⟩
  rw [this]

/-- C92 as far as it holds: a gateway that announces an algorithm is accepted only if its last message carries the HMAC made
with the client's key, its own key and the hash of the password. -/
theorem C92_hmac_partial (cfg : Config) (w w' : World) (c : Msg) (rest : List InEv) (net : List (Option (List InEv)))
    (hnet : w.network = some (.msg .ack :: .msg c :: rest) :: net) (hc : 2 ≤ c.tags.length) (hack : c ≠ .ack)
    (h : start cfg w = (.ok (), w')) :
    ∃ alg name more ra tag k r rest', c.tags = cs!"98" :: name :: more ∧ Announces name alg ∧
      rest = .msg k :: .msg r :: rest' ∧ k.tags.head? = some ra ∧ r.tags.head? = some tag ∧
      Accepts cfg.lib tag (cfg.lib.hmac (hashOf cfg.lib alg) (utf8 ra)
        (utf8 (hexText (hashOf cfg.lib alg cfg.token)) ++ utf8 ra ++
          utf8 (hexText (hashOf cfg.lib alg (utf8 cfg.password))))) := by
  obtain ⟨said, rest', net', acts, e, hh, _⟩ := (C29_start_iff cfg w w').1 h
  rw [hnet] at e
  cases hh with
  | free => simp at e; exact absurd e.1.1 hack
  | «open» c' nonce enc htag _ =>
    simp at e
    rw [e.1.1, htag] at hc
    simp at hc
  | hmac c' k r name more alg ra tag htag ha hk hr ht hacc =>
    simp at e
    obtain ⟨⟨rfl, rfl⟩, _⟩ := e
    refine ⟨alg, name, more, ra, tag, k, r, rest', htag, ha, rfl, hk, ht, ?_⟩
    simpa [serverProof, mac, clientKey, sharedKey] using hacc

theorem accepts_unique {lib : Lib} {tag : Str} {d d' : Bytes} (h : Accepts lib tag d) (h' : Accepts lib tag d') : d = d' := by
  obtain ⟨x, a, b⟩ := h
  obtain ⟨y, a', b'⟩ := h'
  cases Except.ok.inj (a.symm.trans a')
  exact Except.ok.inj (b.symm.trans b')

/-- C92: and the gateway answers for the password it knows: a client with another password rejects the same conversation when
the digest the client computes differs. -/
theorem C92_other_password_partial (cfg : Config) (pw : Str) (w w' : World) (c : Msg) (name : Str) (more : List Str) (alg : Alg)
    (k r : Msg) (ra : Str) (rest : List InEv) (net : List (Option (List InEv)))
    (hnet : w.network = some (.msg .ack :: .msg c :: .msg k :: .msg r :: rest) :: net)
    (hc : c.tags = cs!"98" :: name :: more) (ha : Announces name alg) (hk : k.tags.head? = some ra)
    (hdiff : serverProof cfg alg ra ≠ serverProof { cfg with password := pw } alg ra)
    (h : start cfg w = (.ok (), w')) : (start { cfg with password := pw } w).1 ≠ .ok () := by
  intro h'
  have h2 : start { cfg with password := pw } w = (.ok (), (start { cfg with password := pw } w).2) := Prod.ext h' rfl
  have hack : c ≠ .ack := by rintro rfl; simp [Msg.tags] at hc
  have key : ∀ cfg' : Config, cfg'.lib = cfg.lib → ∀ w'', start cfg' w = (.ok (), w'') →
      ∃ tag, r.tags.head? = some tag ∧ Accepts cfg.lib tag (serverProof cfg' alg ra) := by
    intro cfg' hlib w'' h
    obtain ⟨said, rest', net', acts, e, hh, _⟩ := (C29_start_iff cfg' w w'').1 h
    rw [hnet] at e
    cases hh with
    | free => simp at e; exact absurd e.1.1 hack
    | «open» c' nonce enc htag _ =>
      simp at e
      rw [e.1.1, htag] at hc
      simp at hc
    | hmac c' k' r' name' more' alg' ra' tag htag ha' hk' hr ht hacc =>
      simp at e
      obtain ⟨⟨rfl, rfl, rfl, rfl⟩, _⟩ := e
      rw [hc] at htag
      cases htag
      rw [hk] at hk'
      cases hk'
      have : alg' = alg := Except.ok.inj (((fromString_iff _ _).2 ha').symm.trans ((fromString_iff _ _).2 ha))
      subst this
      rw [hlib] at hacc
      exact ⟨tag, ht, hacc⟩
  obtain ⟨t1, a1, k1⟩ := key cfg rfl w' h
  obtain ⟨t2, a2, k2⟩ := key { cfg with password := pw } rfl (start { cfg with password := pw } w).2 h2
  cases Option.some.inj (a1.symm.trans a2)
  exact hdiff (accepts_unique k1 k2)

/-- A handshake with the documented challenge, overheard. -/
example (lib : Lib) : overheard (start ⟨cs!"12345", .command, lib, []⟩
    (parrot [.ack, .generic [cs!"603356072"], .nack])).2.trace = 12345 :=
  C91_open_refuted _ _ cs!"603356072" (.generic [cs!"603356072"]) [.msg .nack] []
    (show cs!"12345" ≠ [] by decide) (show Digits cs!"12345" by unfold Digits; decide)
    (show cs!"12345".length ≤ 4300 by decide) (show value cs!"12345" < 2 ^ 32 by decide) rfl ⟨'6', by simp, by decide⟩ rfl rfl

/-- Non-vacuity of the partial theorems: an HMAC handshake that succeeds, with a library whose digests are one byte long, and
a password with another digest. -/
example : let lib : Lib := ⟨id, fun b => [(b.map UInt8.toNat).sum.toUInt8], fun _ _ m => [(m.map UInt8.toNat).sum.toUInt8 % 10], fun _ => none⟩
    let said := [Msg.ack, .generic [cs!"98", cs!"2"], .generic [cs!"11"], .generic [cs!"5"]]
    ∃ p q : Str, (start ⟨p, .command, lib, []⟩ (parrot said)).1 = .ok () ∧
      (start ⟨q, .command, lib, []⟩ (parrot said)).1 = .error .invalidAuthentication :=
  ⟨cs!"8", cs!"2", by decide +kernel, by decide +kernel⟩
