import Verif.Props.Secrets

/-!
# Logins that were listened to (C134)
-/

open Py Spec HmacAuth Client M

namespace Spec

/-- The confirmation expected by a client, before the HMAC: what it drew, what the gateway drew, and the hash of the
password. -/
def confirmed (cfg : Config) (alg : Alg) (ra : Str) : Bytes :=
  utf8 (hexText (hashOf cfg.lib alg cfg.token)) ++ utf8 ra ++ utf8 (hexText (hashOf cfg.lib alg (utf8 cfg.password)))

/-- The proof of the client, before the HMAC. -/
def proved (cfg : Config) (alg : Alg) (ra : Str) : Bytes :=
  utf8 ra ++ utf8 (hexText (hashOf cfg.lib alg cfg.token)) ++ utf8 cs!"736F70653E" ++ utf8 cs!"636F70653E" ++
    utf8 (hexText (hashOf cfg.lib alg (utf8 cfg.password)))

/-- The HMACs with keys `ra` and `rb` of two texts are no collision. -/
def NoCollision (lib : Lib) (alg : Alg) (ra rb : Str) (m m' : Bytes) : Prop :=
  lib.hmac (hashOf lib alg) (utf8 ra) m = lib.hmac (hashOf lib alg) (utf8 rb) m' → m = m'

end Spec

theorem utf8_inj {s t : Str} (h : utf8 s = utf8 t) : s = t := by
  unfold utf8 at h
  have h1 : (String.ofList s).toByteArray = (String.ofList t).toByteArray := by
    have := Array.toList_inj.1 h
    cases e : (String.ofList s).toByteArray
    cases e' : (String.ofList t).toByteArray
    rw [e, e'] at this
    simp at this
    rw [this]
  have h2 := String.toByteArray_inj.1 h1
  simpa using congrArg String.toList h2

theorem digit_unique {c : Char} {v w : Nat} (h : Hex.Digit c v) (h' : Hex.Digit c w) : v = w := by
  have a := intChar16_digit ⟨id, id, fun _ _ => id, fun _ => none⟩ h
  have b := intChar16_digit ⟨id, id, fun _ _ => id, fun _ => none⟩ h'
  exact Except.ok.inj (a.symm.trans b)

theorem text_unique {s : Str} {vs ws : List Nat} (h : Hex.Text s vs) (h' : Hex.Text s ws) : vs = ws := by
  induction h generalizing ws with
  | nil => cases h'; rfl
  | cons hd _ ih =>
    cases h' with
    | cons hd' ht' => rw [digit_unique hd hd', ih ht']

theorem nibbles_inj : ∀ {a b : Bytes}, nibblesOf a = nibblesOf b → a = b
  | [], [], _ => rfl
  | [], y :: b, h => by simp [nibblesOf] at h
  | x :: a, [], h => by simp [nibblesOf] at h
  | x :: a, y :: b, h => by
    simp only [nibblesOf, List.flatMap_cons, List.cons_append, List.nil_append, List.cons.injEq] at h
    obtain ⟨h1, h2, h3⟩ := h
    have : x = y := by
      apply UInt8.toNat_inj.1
      omega
    rw [this, nibbles_inj (a := a) (b := b) h3]

theorem hexText_inj {a b : Bytes} (h : hexText a = hexText b) : a = b :=
  nibbles_inj (text_unique (hexText_text a) (h ▸ hexText_text b))

namespace Client

theorem confirm_rejects {cfg : Config} {sp d : Bytes} {w : World} (hs : w.started = true) {r : Msg} {rest : List InEv}
    {tag : Str} (hi : w.inbox = .msg r :: rest) (hr : r ≠ .nack) (ht : r.tags.head? = some tag) (ha : Accepts cfg.lib tag d)
    (hd : d ≠ sp) : (confirm cfg sp w).1 = .error .invalidAuthentication := by
  obtain ⟨x, h1, h2⟩ := ha
  unfold confirm
  rcases read_cases hs with ⟨m, rest', e, h⟩ | ⟨e, _⟩
  · rw [hi] at e
    cases e
    rw [bind_ok h, if_neg (by rw [type_nack]; exact hr), index_zero.2 ht, lift_bind_ok, h1, lift_bind_ok, h2, lift_bind_ok,
      if_pos (by simpa [compareHmac] using fun h => hd h.symm)]
    rfl
  · exact absurd hi (e _ _)

theorem exchange_rejects {cfg : Config} {alg : Alg} {d : Bytes} {w : World} (hs : w.started = true) {k r : Msg}
    {rest : List InEv} {ra tag : Str} (hi : w.inbox = .msg k :: .msg r :: rest) (hk : k.tags.head? = some ra) (hr : r ≠ .nack)
    (ht : r.tags.head? = some tag) (ha : Accepts cfg.lib tag d) (hd : d ≠ serverProof cfg alg ra) :
    (exchange cfg alg w).1 = .error .invalidAuthentication := by
  unfold exchange
  rcases read_cases hs with ⟨m, rest', e, h⟩ | ⟨e, _⟩
  · rw [hi] at e
    cases e
    rw [bind_ok h, index_zero.2 hk]
    change (confirm cfg (serverProof cfg alg ra) _).1 = _
    exact confirm_rejects (by exact hs) rfl hr ht ha hd
  · exact absurd hi (e _ _)

/-- A start whose challenge announces an algorithm. -/
theorem start_hmac {cfg : Config} {w : World} {c : Msg} {rest : List InEv} {net : List (Option (List InEv))} {name : Str}
    {more : List Str} {alg : Alg} (hw : w.network = some (.msg .ack :: .msg c :: rest) :: net)
    (hc : c.tags = cs!"98" :: name :: more) (ha : Announces name alg) :
    start cfg w = exchange cfg alg ⟨net, true, rest, w.trace ++ [.connected, .got .ack, .sent (sessionFrame cfg), .got c] ++
      [.sent (frame [cs!"#", cs!"1"])]⟩ := by
  have hs := start_cases cfg w
  generalize start cfg w = x at hs
  cases hs with
  | unreachable h => exact absurd hw (h _ _)
  | mute inbox _ h hq => rw [hw] at h; cases h; exact absurd rfl (hq _ _)
  | refused _ _ _ h hm => rw [hw] at h; cases h; exact absurd rfl hm
  | unanswered _ _ h hq => rw [hw] at h; cases h; exact absurd rfl (hq _ _)
  | answered c' r' net' h =>
    rw [hw] at h
    cases h
    have hch := challenge_cases cfg c ⟨net, true, rest, w.trace ++ [.connected, .got .ack, .sent (sessionFrame cfg), .got c]⟩ rfl
    generalize challenge cfg c ⟨net, true, rest, w.trace ++ [.connected, .got .ack, .sent (sessionFrame cfg), .got c]⟩ = y at hch
    cases hch with
    | free h => subst h; simp [Msg.tags] at hc
    | open_error _ _ hc' _ => rw [hc] at hc'; cases hc'
    | open_answer _ _ hc' _ => rw [hc] at hc'; cases hc'
    | hmac name' more' alg' hc' ha' =>
      rw [hc] at hc'
      cases hc'
      have : alg' = alg := Except.ok.inj (((fromString_iff _ _).2 ha').symm.trans ((fromString_iff _ _).2 ha))
      rw [this]
    | unsupported name' _ hc' ha' => rw [hc] at hc'; cases hc'; exact absurd ha (ha' alg)
    | other _ _ _ hc' hf _ => rw [hc] at hc'; cases hc'; exact absurd rfl hf
    | empty hc' => rw [hc] at hc'; cases hc'

end Client

/-! ## C134 -/

/-- C134 for somebody who plays a gateway: what a gateway said in a login with HMAC is no login for a client that has drawn
another number. -/
theorem C134_gateway_partial (cfg : Config) (token : Bytes) (w v : World) (c k r : Msg) (name : Str)
    (more : List Str) (alg : Alg) (ra : Str) (rest rest' : List InEv) (net net' : List (Option (List InEv)))
    (hc : c.tags = cs!"98" :: name :: more) (ha : Announces name alg) (hk : k.tags.head? = some ra)
    (hw : w.network = some (.msg .ack :: .msg c :: .msg k :: .msg r :: rest) :: net) (h : (start cfg w).1 = .ok ())
    (hv : v.network = some (.msg .ack :: .msg c :: .msg k :: .msg r :: rest') :: net')
    (hnew : hashOf cfg.lib alg cfg.token ≠ hashOf cfg.lib alg token)
    (hcol : NoCollision cfg.lib alg ra ra (confirmed cfg alg ra) (confirmed { cfg with token := token } alg ra)) :
    (start { cfg with token := token } v).1 = .error .invalidAuthentication := by
  rw [start_hmac hw hc ha] at h
  obtain ⟨k', r', rest'', ra', tag, e, hk', hr, ht, hacc, _⟩ := (exchange_ok rfl).1 (Prod.ext h rfl)
  simp only [List.cons.injEq, InEv.msg.injEq] at e
  obtain ⟨rfl, rfl, _⟩ := e
  cases Option.some.inj (hk.symm.trans hk')
  rw [start_hmac hv hc ha]
  refine exchange_rejects rfl rfl hk hr ht hacc fun hd => hnew ?_
  have := hcol (by simpa [serverProof, mac, clientKey, sharedKey, confirmed] using hd)
  unfold confirmed at this
  exact hexText_inj (utf8_inj (List.append_cancel_right (List.append_cancel_right this)))

/-- C134 for somebody who plays a client: what a client wrote in one login with HMAC is not what it writes when the gateway
has drawn another number, even if the client has not. -/
theorem C134_client_partial (cfg : Config) (w v : World) (c k r c' k' r' : Msg) (name name' : Str) (more more' : List Str)
    (alg : Alg) (ra rb : Str) (rest rest' : List InEv) (net net' : List (Option (List InEv)))
    (hc : c.tags = cs!"98" :: name :: more) (ha : Announces name alg) (hk : k.tags.head? = some ra)
    (hw : w.network = some (.msg .ack :: .msg c :: .msg k :: .msg r :: rest) :: net) (h : (start cfg w).1 = .ok ())
    (hc' : c'.tags = cs!"98" :: name' :: more') (ha' : Announces name' alg) (hk' : k'.tags.head? = some rb)
    (hv : v.network = some (.msg .ack :: .msg c' :: .msg k' :: .msg r' :: rest') :: net') (h' : (start cfg v).1 = .ok ())
    (hw0 : w.trace = []) (hv0 : v.trace = []) (hnew : ra ≠ rb)
    (hcol : NoCollision cfg.lib alg ra rb (proved cfg alg ra) (proved cfg alg rb)) :
    written (start cfg w).2.trace ≠ written (start cfg v).2.trace := by
  rw [start_hmac hw hc ha] at h ⊢
  rw [start_hmac hv hc' ha'] at h' ⊢
  obtain ⟨k1, r1, rest1, ra1, tag, e, g1, hr, ht, hacc, t1⟩ := (exchange_ok rfl).1 (Prod.ext h rfl)
  obtain ⟨k2, r2, rest2, ra2, tag2, e2, g2, hr2, ht2, hacc2, t2⟩ := (exchange_ok rfl).1 (Prod.ext h' rfl)
  intro hh
  have hh := (congrArg (fun x => written x.trace) t1).symm.trans (hh.trans (congrArg (fun x => written x.trace) t2))
  simp only [hw0, hv0] at hh
  clear t1 t2
  simp only [List.cons.injEq, InEv.msg.injEq] at e e2
  obtain ⟨rfl, rfl, _⟩ := e
  obtain ⟨rfl, rfl, _⟩ := e2
  cases Option.some.inj (hk.symm.trans g1)
  cases Option.some.inj (hk'.symm.trans g2)
  apply hnew
  have hf : proofFrame cfg alg ra = proofFrame cfg alg rb := by
    simpa [written] using hh
  unfold proofFrame at hf
  rw [frame_eq_iff (by simp) ?_ (by simp) ?_] at hf
  · simp only [List.cons.injEq, and_true, true_and] at hf
    have hp : clientProof cfg alg ra = clientProof cfg alg rb := by
      have a := digitsToHexLoop_transcription cfg.lib (text_lt (hexText_text (clientProof cfg alg ra))) []
      rw [hf, digitsToHexLoop_transcription cfg.lib (text_lt (hexText_text (clientProof cfg alg rb)))] at a
      exact (hexText_inj (Except.ok.inj a)).symm
    have := hcol (by simpa [clientProof, mac, clientKey, sharedKey, proved, List.append_assoc] using hp)
    unfold proved at this
    exact utf8_inj (List.append_cancel_right (List.append_cancel_right (List.append_cancel_right (List.append_cancel_right this))))
  · simpa using ⟨transcription_tagText _, transcription_tagText _⟩
  · simpa using ⟨transcription_tagText _, transcription_tagText _⟩

/-- C134 is false with OPEN authentication, for somebody who plays a gateway: what a gateway said in one login is a login
whenever it is said again, whatever the client draws. -/
theorem C134_open_gateway_refuted (cfg : Config) (token : Bytes) (w v : World) (c : Msg) (nonce : Str)
    (rest rest' : List InEv) (net net' : List (Option (List InEv))) (hc : c.tags = [nonce])
    (hw : w.network = some (.msg .ack :: .msg c :: .msg .ack :: rest) :: net) (h : (start cfg w).1 = .ok ())
    (hv : v.network = some (.msg .ack :: .msg c :: .msg .ack :: rest') :: net') :
    (start { cfg with token := token } v).1 = .ok () := by
  obtain ⟨said, r, n, acts, e, hh, _⟩ := (C29_start_iff cfg w _).1 (Prod.ext h rfl)
  rw [hw] at e
  cases hh with
  | free => simp at e; rw [e.1.1] at hc; simp [Msg.tags] at hc
  | «open» c' nonce' enc htag he =>
    simp at e
    rw [e.1.1] at hc
    have := (C29_start_iff { cfg with token := token } v _).2
      ⟨[.ack, c, .ack], rest', net', _, by simpa using hv, .open c nonce' enc (e.1.1 ▸ htag) he, rfl⟩
    rw [this]
  | hmac c' k r name more alg ra tag htag _ _ _ _ _ =>
    simp at e
    rw [e.1.1, htag] at hc
    cases hc

/-- C134 is false with OPEN authentication, for somebody who plays a client: a client writes the same for all challenges that
differ in zeros only, so what it wrote in one login is a login with the other challenges. -/
theorem C134_open_client_refuted (cfg : Config) (w v : World) (a b : Str) (rest rest' : List InEv)
    (net net' : List (Option (List InEv))) (hz : a.filter (· ≠ '0') = b.filter (· ≠ '0'))
    (hw : w.network = some (.msg .ack :: .msg (.generic [a]) :: .msg .ack :: rest) :: net)
    (hv : v.network = some (.msg .ack :: .msg (.generic [b]) :: .msg .ack :: rest') :: net')
    (hw0 : w.trace = []) (hv0 : v.trace = []) (h : (start cfg w).1 = .ok ()) :
    (start cfg v).1 = .ok () ∧ written (start cfg w).2.trace = written (start cfg v).2.trace := by
  obtain ⟨said, r, n, acts, e, hh, t⟩ := (C29_start_iff cfg w _).1 (Prod.ext h rfl)
  rw [hw] at e
  cases hh with
  | free => simp at e
  | «open» c' nonce enc htag he =>
    simp at e
    obtain ⟨⟨rfl, _⟩, _⟩ := e
    cases htag
    have he' : OpenAuth.ownCalcPassStr cfg.password b = .ok enc := by
      unfold OpenAuth.ownCalcPassStr at he ⊢
      simpa only [C25_zeros_irrelevant _ a b hz] using he
    have := (C29_start_iff cfg v _).2 ⟨[.ack, .generic [b], .ack], rest', net', _, by simpa using hv, .open (.generic [b]) b enc rfl he', rfl⟩
    refine ⟨by rw [this], (congrArg (fun x => written x.trace) t).trans ?_⟩
    rw [this]
    simp [written, hw0, hv0]
  | hmac c' k r name more alg ra tag htag _ _ _ _ _ =>
    simp at e
    rw [← e.1.1] at htag
    cases htag

/-- Digests of one byte, to have an example. -/
def tinyLib : Lib :=
  ⟨id, fun b => [(b.map UInt8.toNat).sum.toUInt8], fun _ _ m => [(m.map UInt8.toNat).sum.toUInt8 % 10], fun _ => none⟩

/-- A login with HMAC that is listened to, and played to a client that has drawn another number. -/
example : (start ⟨cs!"8", .command, tinyLib, [1]⟩
    (parrot [.ack, .generic [cs!"98", cs!"2"], .generic [cs!"11"], .generic [cs!"5"]])).1 = .error .invalidAuthentication :=
  C134_gateway_partial ⟨cs!"8", .command, tinyLib, []⟩ [1]
    (parrot [.ack, .generic [cs!"98", cs!"2"], .generic [cs!"11"], .generic [cs!"5"]]) _ (.generic [cs!"98", cs!"2"])
    (.generic [cs!"11"]) (.generic [cs!"5"]) cs!"2" [] .sha256 cs!"11" [] [] [] [] rfl rfl rfl rfl (by decide +kernel) rfl
    (by decide +kernel) (fun h => absurd h (by decide +kernel))

/-- Two logins of one client, with different numbers of the gateway. -/
example : written (start ⟨cs!"8", .command, tinyLib, []⟩
      (parrot [.ack, .generic [cs!"98", cs!"2"], .generic [cs!"11"], .generic [cs!"5"]])).2.trace ≠
    written (start ⟨cs!"8", .command, tinyLib, []⟩
      (parrot [.ack, .generic [cs!"98", cs!"2"], .generic [cs!"12"], .generic [cs!"6"]])).2.trace :=
  C134_client_partial ⟨cs!"8", .command, tinyLib, []⟩ _ _ (.generic [cs!"98", cs!"2"]) (.generic [cs!"11"])
    (.generic [cs!"5"]) (.generic [cs!"98", cs!"2"]) (.generic [cs!"12"]) (.generic [cs!"6"]) cs!"2" cs!"2" [] [] .sha256
    cs!"11" cs!"12" [] [] [] [] rfl rfl rfl rfl (by decide +kernel) rfl rfl rfl rfl (by decide +kernel) rfl rfl (by decide)
    (fun h => absurd h (by decide +kernel))

/-- The documented challenge and one with zeros inserted. -/
example (lib : Lib) (h : (start ⟨cs!"12345", .command, lib, []⟩ (parrot [.ack, .generic [cs!"603356072"], .ack])).1 = .ok ()) :
    (start ⟨cs!"12345", .command, lib, []⟩ (parrot [.ack, .generic [cs!"63003560720"], .ack])).1 = .ok () :=
  (C134_open_client_refuted _ _ _ cs!"603356072" cs!"63003560720" [] [] [] [] (by decide) rfl rfl rfl rfl h).1

example (lib : Lib) : (start ⟨cs!"12345", .command, lib, []⟩ (parrot [.ack, .generic [cs!"603356072"], .ack])).1 = .ok () :=
  C92_open_refuted _ (show cs!"12345" ≠ [] by decide) (show Digits cs!"12345" by unfold Digits; decide)
    (show cs!"12345".length ≤ 4300 by decide) (show value cs!"12345" < 2 ^ 32 by decide) _
