import Verif.Proofs.Texts

/-!
# What exceptions say (C121 to C124)
-/

open Py HmacAuth Spec Texts

/-! ## C121: what the gateway answered -/

/-- C121: the texts change nothing about what commands and queries do. -/
theorem C121_same {β : Type} (cfg : Config) (w : World) :
    (∀ m, noText (Texts.command cfg m w).1 = (Item.command cfg m w).1 ∧ (Texts.command cfg m w).2 = (Item.command cfg m w).2) ∧
    (∀ q k (body : Msg → Except Err (List β)),
      (Texts.stream cfg q k body w).1.1 = (Item.stream cfg q k.want body w).1.1 ∧
      noText (Texts.stream cfg q k body w).1.2 = (Item.stream cfg q k.want body w).1.2 ∧
      (Texts.stream cfg q k body w).2 = (Item.stream cfg q k.want body w).2) ∧
    (∀ i dim, noText (Texts.singleDimReq cfg i dim w).1 = (Item.singleDimReq cfg i dim w).1 ∧
      (Texts.singleDimReq cfg i dim w).2 = (Item.singleDimReq cfg i dim w).2) :=
  ⟨fun m => like_command cfg m w, fun q k body => like_stream cfg q k body w, fun i dim => like_single cfg i dim w⟩

/-- C121, commands: a `ResponseError` quotes the answer to the command and says that an ACK was expected. -/
theorem C121_command (cfg : Config) (m : Msg) (w : World) (t : Option Str)
    (h : (Texts.command cfg m w).1 = .error ⟨.responseError, t⟩) :
    ∃ r text, (Texts.command cfg m w).2.trace = w.trace ++ [.sent m.str, .got r] ∧ r ≠ .ack ∧ t = some text ∧
      Honest (fun a => a = .ack) r text := by
  unfold Texts.command at h ⊢
  rw [Texts.bind_apply] at h ⊢
  rcases hs : Texts.sendMessage cfg m false w with ⟨e | _, w1⟩ <;> rw [hs] at h
  · simp only [Except.error.injEq] at h
    subst h
    have hl := like_send cfg m false w
    rw [hs] at hl
    have hl1 : (Client.sendMessage cfg m false w).1 = .error .responseError := hl.1.symm
    unfold Client.sendMessage at hl1
    split_ifs at hl1
    · simp at hl1
    · simp at hl1
    · cases hb : m.bytes with
      | ok b => rw [hb] at hl1; simp at hl1
      | error e =>
        rw [hb] at hl1
        simp only [Except.error.injEq] at hl1
        subst hl1
        exact absurd hb (by
          unfold Msg.bytes Msg.encodeAscii
          split_ifs <;> simp)
  · have h1 : w1.trace = w.trace ++ [.sent m.str] := by
      unfold Texts.sendMessage at hs
      split_ifs at hs
      · cases hs
      · cases hs
      · cases hb : m.bytes with
        | error e => rw [hb] at hs; cases hs
        | ok b => rw [hb] at hs; cases hs; rfl
    dsimp only at h ⊢
    rw [Texts.bind_apply] at h ⊢
    unfold Texts.readMessage at h ⊢
    split_ifs at h ⊢
    · cases h
    · rcases hi : w1.inbox with _ | ⟨r | _, rest⟩ <;> rw [hi] at h
      · cases h
      · dsimp only at h ⊢
        unfold checkAck at h ⊢
        split_ifs at h ⊢ with hr
        · cases h
          refine ⟨r, _, by simp [X.raise, h1], fun h => hr (Client.type_ack.2 h), rfl, cs!"ACK", .ack, .ack, rfl, ?_⟩
          simp [quoting]
        · cases h
      · cases h

/-- C121, queries, is refuted: asked for anything, a gateway that answers NACK is reported to have sent it "instead of NACK". -/
theorem C121_query_refuted {β : Type} (cfg : Config) (q : Msg) (hq : ∀ t ∈ q.tags, TagText t) (k : Kind)
    (body : Msg → Except Err (List β)) (w : World) (hw : Ready cfg w) (rest : List InEv) (hi : w.inbox = .msg .nack :: rest) :
    ∃ text, (Texts.stream cfg q k body w).1.2 = .error ⟨.responseError, some text⟩ ∧
      text = cs!"Received *#*0## instead of NACK" ∧ ¬ Honest (expects k) .nack text := by
  have hs : Texts.sendMessage cfg q false w = (.ok (), { w with trace := w.trace ++ [.sent q.str] }) := by
    obtain ⟨b, hb⟩ := Client.bytes_ok hq
    unfold Texts.sendMessage Client.isCmdSession
    obtain ⟨h1, h2⟩ := hw
    cases hc : cfg.session <;> simp_all
  refine ⟨_, ?_, rfl, ?_⟩
  · unfold Texts.stream
    rw [hs]
    dsimp only
    unfold Texts.drain Texts.nextReply
    rw [Texts.bind_apply]
    unfold Texts.readMessage
    simp only [hw.1, hi]
    rfl
  · rintro ⟨x, m, hc, hm, he⟩
    have he' : quoting .nack cs!"NACK" = quoting .nack x := he
    obtain ⟨_, rfl⟩ := quoting_inj .nack hc he'
    cases hc
    cases k <;> exact hm

/-- C121, queries: a `ResponseError` quotes the message that ended the query.  Unless that is a NACK it also says what was
expected. -/
theorem C121_query_partial {β : Type} (cfg : Config) (q : Msg) (k : Kind) (body : Msg → Except Err (List β))
    (hb : ∀ m e, body m = .error e → e ≠ .responseError) (w : World) (t : Option Str)
    (h : (Texts.stream cfg q k body w).1.2 = .error ⟨.responseError, t⟩) :
    ∃ acts r text, (Texts.stream cfg q k body w).2.trace = w.trace ++ acts ++ [.got r] ∧ ¬ expects k r ∧ t = some text ∧
      (∃ x, text = quoting r x) ∧ (r ≠ .nack → Honest (expects k) r text) := by
  have hw : ∀ r, r ≠ .ack → k.want r = false → ¬ expects k r := by
    intro r h1 h2
    cases k <;> cases r <;> simp_all [expects, Kind.want, Msg.isNormal, Msg.isDimResp]
  unfold Texts.stream at h ⊢
  rcases hs : Texts.sendMessage cfg q false w with ⟨e | _, w1⟩ <;> rw [hs] at h
  · simp only [Except.error.injEq] at h
    subst h
    unfold Texts.sendMessage at hs
    split_ifs at hs
    · cases hs
    · cases hs
    · cases hb' : q.bytes with
      | ok b => rw [hb'] at hs; cases hs
      | error e =>
        rw [hb'] at hs
        cases hs
        exact absurd hb' (by
          unfold Msg.bytes Msg.encodeAscii
          split_ifs <;> simp)
  · have h1 : ∃ a, w1.trace = w.trace ++ a := by
      unfold Texts.sendMessage at hs
      split_ifs at hs
      · cases hs
      · cases hs
      · cases hb : q.bytes with
        | error e => rw [hb] at hs; cases hs
        | ok b => rw [hb] at hs; cases hs; exact ⟨_, rfl⟩
    obtain ⟨a, h1⟩ := h1
    obtain ⟨acts, r, h2, h3, h4, rfl⟩ := drain_text hb _ w1 t h
    refine ⟨a ++ acts, r, _, by rw [h2, h1]; simp, hw r h3 h4, rfl, ⟨_, rfl⟩, fun hn => ?_⟩
    rw [if_neg hn]
    cases k with
    | normal => exact ⟨_, .normal .lighting ⟨[]⟩ ⟨[]⟩, .normal _ _ _, trivial, rfl⟩
    | dimension => exact ⟨_, .dimResp .lighting ⟨[]⟩ ⟨[]⟩ [], .dimension _ _ _ _, trivial, rfl⟩

/-- C121: what was received and what was expected can be read off the text. -/
theorem C121_readable (r r' m m' : Msg) (x x' : Str) (hx : Called x m) (hx' : Called x' m')
    (h : quoting r x = quoting r' x') : r.str = r'.str ∧ x = x' := quoting_inj hx hx' h

/-- C121: "The server did not respond with data." is said exactly when the answer is an ACK and nothing before it. -/
theorem C121_no_data (cfg : Config) (i : Item) (dim : Tag) (hd : ∀ t ∈ (i.requestMessage dim).tags, TagText t) (w : World)
    (hw : Ready cfg w) :
    (Texts.singleDimReq cfg i dim w).1 = .error ⟨.responseError, some cs!"The server did not respond with data."⟩ ↔
      ∃ rest, w.inbox = .msg .ack :: rest := by
  have hs : Texts.sendMessage cfg (i.requestMessage dim) false w =
      (.ok (), { w with trace := w.trace ++ [.sent (i.requestMessage dim).str] }) := by
    obtain ⟨b, hb⟩ := Client.bytes_ok hd
    unfold Texts.sendMessage Client.isCmdSession
    obtain ⟨h1, h2⟩ := hw
    cases hc : cfg.session <;> simp_all
  constructor
  · intro h
    unfold Texts.singleDimReq Texts.stream at h
    rw [hs] at h
    dsimp only at h
    generalize hr : Texts.drain .dimension (fun m => .ok [m]) _ _ = res at h
    obtain ⟨⟨l, o⟩, w'⟩ := res
    rcases o with e | _
    · simp only [Except.error.injEq] at h
      subst h
      obtain ⟨acts, r, _, _, _, h4⟩ := drain_text (β := Msg) (k := .dimension) (body := fun m => .ok [m]) (by simp) _ _ _
        (by rw [hr])
      simp only [Option.some.injEq] at h4
      have := congrArg List.head? h4
      simp [quoting] at this
    · cases l with
      | cons m l => simp at h
      | nil =>
        unfold Texts.drain Texts.nextReply at hr
        rw [Texts.bind_apply] at hr
        unfold Texts.readMessage at hr
        simp only [hw.1] at hr
        rcases hi : w.inbox with _ | ⟨m | _, rest⟩
        · rw [hi] at hr; cases hr
        · rw [hi] at hr
          refine ⟨rest, ?_⟩
          by_cases hm : m = .ack
          · rw [hm]
          · exfalso
            simp only [Bool.not_true, Bool.false_eq_true, if_false] at hr
            rw [Texts.bind_apply] at hr
            unfold checkNack at hr
            by_cases hn : m = .nack
            · rw [if_pos (Client.type_nack.2 hn)] at hr
              cases hr
            · rw [if_neg (by rw [Client.type_nack]; exact hn)] at hr
              simp only [Pure.pure, X.pure] at hr
              rw [if_neg (by rw [Client.type_ack]; exact hm)] at hr
              split_ifs at hr
              · cases hr
              · simp [X.pure] at hr
        · rw [hi] at hr; cases hr
  · rintro ⟨rest, hi⟩
    unfold Texts.singleDimReq Texts.stream
    rw [hs]
    dsimp only
    unfold Texts.drain Texts.nextReply
    rw [Texts.bind_apply]
    unfold Texts.readMessage
    simp only [hw.1, hi]
    rfl

/-- Non-vacuity: a command and a query that are refused, and one that gets the wrong kind of reply. -/
example (lib : Lib) :
    let cfg : Config := ⟨cs!"12345", .command, lib, []⟩
    let w (said : List Msg) : World := ⟨[], true, said.map InEv.msg, []⟩
    (Texts.command cfg (.normal .lighting ⟨cs!"1"⟩ ⟨cs!"12"⟩) (w [.nack])).1 =
        .error ⟨.responseError, some cs!"Received *#*0## instead of ACK"⟩ ∧
      (Texts.singleDimReq cfg ⟨.gateway, ⟨[]⟩⟩ ⟨cs!"15"⟩ (w [.nack])).1 =
        .error ⟨.responseError, some cs!"Received *#*0## instead of NACK"⟩ ∧
      (Texts.singleDimReq cfg ⟨.gateway, ⟨[]⟩⟩ ⟨cs!"15"⟩ (w [.generic [cs!"7"]])).1 =
        .error ⟨.responseError, some cs!"Received *7## instead of a dimension response message"⟩ ∧
      (Texts.singleDimReq cfg ⟨.gateway, ⟨[]⟩⟩ ⟨cs!"15"⟩ (w [.ack])).1 =
        .error ⟨.responseError, some cs!"The server did not respond with data."⟩ := by
  refine ⟨?_, ?_, ?_, ?_⟩ <;> rfl

/-! ## C122: why the login failed -/

/-- C122: the texts change nothing about what `start` does. -/
theorem C122_same (cfg : Config) (w : World) :
    noText (Texts.start cfg w).1 = (Client.start cfg w).1 ∧ (Texts.start cfg w).2 = (Client.start cfg w).2 := like_start cfg w

/-- C122: the text of `InvalidAuthentication` is what the conversation says, and a conversation that is a failed login is
reported with its text. -/
theorem C122_exact (cfg : Config) (w : World) : ∃ acts, (Texts.start cfg w).2.trace = w.trace ++ acts ∧
    ∀ text, (Texts.start cfg w).1 = .error ⟨.invalidAuthentication, some text⟩ ↔ LoginFailure cfg acts text := by
  obtain ⟨acts, h1, h2⟩ := start_ends cfg w
  refine ⟨acts, h1, fun text => ?_⟩
  rcases h2 with ⟨t, ht, hr⟩ | ⟨hno, ho⟩
  · rw [hr]
    constructor
    · intro h; cases h; exact ht
    · intro h; rw [failure_unique ht h]
  · constructor
    · intro h
      rcases ho with ho | ⟨e, t, ho, hne, _⟩ <;> rw [ho] at h <;> cases h
      exact absurd rfl hne
    · intro h; exact absurd h (hno text)

/-- C122: every `InvalidAuthentication` has a text. -/
theorem C122_said (cfg : Config) (w : World) (t : Option Str)
    (h : (Texts.start cfg w).1 = .error ⟨.invalidAuthentication, t⟩) : ∃ text, t = some text := by
  obtain ⟨acts, h1, h2⟩ := start_ends cfg w
  rcases h2 with ⟨text, _, hr⟩ | ⟨_, ho | ⟨e, t, ho, hne, _⟩⟩
  · rw [hr] at h; cases h; exact ⟨_, rfl⟩
  · rw [ho] at h; cases h
  · rw [ho] at h; cases h; exact absurd rfl hne

/-- C122 is refuted for "Invalid password" with OPEN authentication: it is said of any answer but an ACK, though the gateway
refused nothing. -/
theorem C122_open_refuted (cfg : Config) (w : World) (c r : Msg) (nonce enc : Str) (rest : List InEv)
    (net : List (Option (List InEv))) (hn : w.network = some (.msg .ack :: .msg c :: .msg r :: rest) :: net)
    (ht : c.tags = [nonce]) (he : OpenAuth.ownCalcPassStr cfg.password nonce = .ok enc) (hr : r ≠ .ack) (hr' : r ≠ .nack) :
    (Texts.start cfg w).1 = .error ⟨.invalidAuthentication, some cs!"Invalid password"⟩ ∧
      ∃ acts, (Texts.start cfg w).2.trace = w.trace ++ acts ∧ .got .nack ∉ acts := by
  have hc : c ≠ .nack := by rintro rfl; simp [Msg.tags] at ht
  have hst : (Client.start cfg w).2.trace = w.trace ++ (opening cfg c ++ [.sent (frame ['#' :: enc]), .got r]) := by
    have hs := Client.start_cases cfg w
    generalize Client.start cfg w = res at hs
    cases hs with
    | unreachable h => exact absurd hn (h _ _)
    | mute _ _ h hq => rw [hn] at h; cases h; exact absurd rfl (hq _ _)
    | refused _ _ _ h hm => rw [hn] at h; cases h; exact absurd rfl hm
    | unanswered _ _ h hq => rw [hn] at h; cases h; exact absurd rfl (hq _ _)
    | answered c' r' net' h =>
      rw [hn] at h; cases h
      generalize hw : (⟨_, true, _, _⟩ : World) = w'
      have hch := Client.challenge_cases cfg c w' (by rw [← hw])
      generalize Client.challenge cfg c w' = res at hch
      cases hch with
      | free h => rw [h] at ht; simp [Msg.tags] at ht
      | open_error n e h h' => rw [ht] at h; cases h; rw [he] at h'; cases h'
      | open_answer n e h h' =>
        rw [ht] at h; cases h; rw [he] at h'; cases h'
        unfold Client.awaitAck
        rw [M.bind_ok (Client.read_msg (by rw [← hw]) (by rw [← hw])),
          if_pos (by rw [Ne, Client.type_ack]; exact hr)]
        simp [← hw, opening, Client.sessionFrame]
      | hmac _ _ _ h => rw [ht] at h; cases h
      | unsupported _ _ h => rw [ht] at h; cases h
      | other _ _ _ h => rw [ht] at h; cases h
      | empty h => rw [ht] at h; cases h
  obtain ⟨acts, h1, h2⟩ := C122_exact cfg w
  have ha : acts = opening cfg c ++ [.sent (frame ['#' :: enc]), .got r] := by
    rw [(C122_same cfg w).2, hst] at h1
    exact (List.append_cancel_left h1).symm
  refine ⟨(h2 _).2 (ha ▸ .password c r nonce enc ht he hr), acts, h1, ?_⟩
  rw [ha]
  simp [opening, Ne.symm hc, Ne.symm hr']

/-- C122 is refuted for "Invalid password" with HMAC authentication: it is also said when the gateway accepted the client's
proof and its own is not the one expected, as when the gateway is an impostor. -/
theorem C122_hmac_refuted (cfg : Config) (w : World) (c k r : Msg) (name : Str) (more : List Str) (alg : Alg) (ra tag : Str)
    (proof : Bytes) (rest : List InEv) (net : List (Option (List InEv)))
    (hn : w.network = some (.msg .ack :: .msg c :: .msg k :: .msg r :: rest) :: net)
    (ht : c.tags = cs!"98" :: name :: more) (ha : Announces name alg) (hk : k.tags.head? = some ra) (hk' : k ≠ .nack)
    (hr : r ≠ .nack) (hg : r.tags.head? = some tag) (hp : Accepts cfg.lib tag proof) (hne : proof ≠ serverProof cfg alg ra) :
    (Texts.start cfg w).1 = .error ⟨.invalidAuthentication, some cs!"Invalid password"⟩ ∧
      ∃ acts, (Texts.start cfg w).2.trace = w.trace ++ acts ∧ .got .nack ∉ acts := by
  have hc : c ≠ .nack := by rintro rfl; simp [Msg.tags] at ht
  have hst : (Client.start cfg w).2.trace = w.trace ++ (opening cfg c ++
      [.sent (frame [cs!"#", cs!"1"]), .got k, .sent (proofFrame cfg alg ra), .got r]) := by
    have hs := Client.start_cases cfg w
    generalize Client.start cfg w = res at hs
    cases hs with
    | unreachable h => exact absurd hn (h _ _)
    | mute _ _ h hq => rw [hn] at h; cases h; exact absurd rfl (hq _ _)
    | refused _ _ _ h hm => rw [hn] at h; cases h; exact absurd rfl hm
    | unanswered _ _ h hq => rw [hn] at h; cases h; exact absurd rfl (hq _ _)
    | answered c' r' net' h =>
      rw [hn] at h; cases h
      generalize hw : (⟨_, true, _, _⟩ : World) = w'
      have hch := Client.challenge_cases cfg c w' (by rw [← hw])
      generalize Client.challenge cfg c w' = res at hch
      cases hch with
      | free h => rw [h] at ht; simp [Msg.tags] at ht
      | open_error n e h h' => rw [ht] at h; cases h
      | open_answer n e h h' => rw [ht] at h; cases h
      | hmac n m a h h' =>
        rw [ht] at h; cases h
        obtain rfl := announces_unique ha h'
        obtain ⟨d, hd, hb⟩ := hp
        unfold Client.exchange
        rw [M.bind_ok (Client.read_msg (by rw [← hw]) (by rw [← hw])), Client.index_zero.2 hk]
        erw [M.lift_bind_ok]
        unfold Client.confirm
        rw [M.bind_ok (Client.read_msg (by rw [← hw]) (by rfl)), if_neg (by rw [Client.type_nack]; exact hr),
          Client.index_zero.2 hg, M.lift_bind_ok, hd, M.lift_bind_ok, hb, M.lift_bind_ok,
          if_pos (by simpa [compareHmac] using Ne.symm hne)]
        simp [← hw, opening, Client.sessionFrame]
      | unsupported n m h h' => rw [ht] at h; cases h; exact absurd ha (h' alg)
      | other _ _ _ h h' => rw [ht] at h; cases h; exact absurd rfl h'
      | empty h => rw [ht] at h; cases h
  obtain ⟨acts, h1, h2⟩ := C122_exact cfg w
  have hacts : acts = opening cfg c ++ [.sent (frame [cs!"#", cs!"1"]), .got k, .sent (proofFrame cfg alg ra), .got r] := by
    rw [(C122_same cfg w).2, hst] at h1
    exact (List.append_cancel_left h1).symm
  refine ⟨(h2 _).2 (hacts ▸ .unproven c k r name more alg ra tag proof ht ha hk hr hg hp hne), acts, h1, ?_⟩
  rw [hacts]
  simp [opening, Ne.symm hc, Ne.symm hk', Ne.symm hr]

/-- C122: "Invalid password" is said only after an answer was sent to a challenge of the gateway and the gateway replied. -/
theorem C122_password_partial (cfg : Config) (w : World)
    (h : (Texts.start cfg w).1 = .error ⟨.invalidAuthentication, some cs!"Invalid password"⟩) :
    ∃ c r answer before, (Texts.start cfg w).2.trace = w.trace ++ opening cfg c ++ before ++ [.sent answer, .got r] ∧
      ((∃ nonce, c.tags = [nonce]) ∨ ∃ name more, c.tags = cs!"98" :: name :: more) := by
  obtain ⟨acts, h1, h2⟩ := C122_exact cfg w
  have hf := (h2 _).1 h
  rw [failure_iff] at hf
  rcases hf with ⟨m, _, _, h⟩ | ⟨c, rest, rfl, ⟨_, _, _, h⟩ | ⟨_, _, h⟩ | ⟨nonce, enc, r, ht, _, _, rfl, _⟩ |
    ⟨name, more, alg, k, ra, r, ht, _, _, _, rfl, _⟩⟩
  · simp at h
  · simp at h
  · simp at h
  · exact ⟨c, r, frame ['#' :: enc], [], by rw [h1]; simp, .inl ⟨nonce, ht⟩⟩
  · exact ⟨c, r, proofFrame cfg alg ra, [.sent (frame [cs!"#", cs!"1"]), .got k], by rw [h1]; simp, .inr ⟨name, more, ht⟩⟩

/-- Non-vacuity: one login for each text. -/
example :
    let cfg : Config := ⟨cs!"12345", .command, ⟨id, id, fun _ _ m => m, fun _ => none⟩, []⟩
    let w (said : List Msg) : World := ⟨[some (said.map InEv.msg)], false, [], []⟩
    (Texts.start cfg (w [.nack])).1 = .error ⟨.invalidAuthentication, some cs!"Expected ACK message"⟩ ∧
      (Texts.start cfg (w [.ack, .nack])).1 = .error ⟨.invalidAuthentication, some cs!"Invalid authentication response"⟩ ∧
      (Texts.start cfg (w [.ack, .generic [cs!"98", cs!"3"]])).1 =
        .error ⟨.invalidAuthentication, some cs!"Invalid hash algorithm"⟩ ∧
      (Texts.start cfg (w [.ack, .generic [cs!"603356072"], .nack])).1 =
        .error ⟨.invalidAuthentication, some cs!"Invalid password"⟩ ∧
      (Texts.start cfg (w [.ack, .generic [cs!"603356072"], .generic [cs!"7"]])).1 =
        .error ⟨.invalidAuthentication, some cs!"Invalid password"⟩ := by
  decide +kernel

/-! ## C123: the password -/

/-- C123 is refuted with OPEN authentication: a password that is no number is put into the text of the exception. -/
theorem C123_refuted (cfg : Config) (w : World) (c : Msg) (nonce : Str) (rest : List InEv) (net : List (Option (List InEv)))
    (hn : w.network = some (.msg .ack :: .msg c :: rest) :: net) (ht : c.tags = [nonce])
    (hp : pyInt cfg.password = .error .valueError) (hl : cfg.password.length ≤ 198)
    (ha : ∀ x ∈ cfg.password, printsAsIs x = true) :
    ∃ text, (Texts.start cfg w).1 = .error ⟨.valueError, some text⟩ ∧ Contains text cfg.password := by
  have hi : intText cfg.password = some (cs!"invalid literal for int() with base 10: '" ++ cfg.password ++ cs!"'") := by
    unfold intText
    rw [if_pos ⟨hl, by simpa using ha⟩]
  refine ⟨cs!"invalid literal for int() with base 10: '" ++ cfg.password ++ cs!"'", ?_, _, _, rfl⟩
  have hack : c ≠ .ack := by rintro rfl; simp [Msg.tags] at ht
  rw [start_answered cfg w c rest net hn]
  unfold react
  rw [if_neg (by rw [Client.type_ack]; exact hack), ht, if_pos (by rfl), show index [nonce] 0 = .ok nonce from rfl]
  rw [plain_bind_ok]
  unfold authenticateOpen
  rw [Texts.bind_error (w' := _) (e := ⟨.valueError, intText cfg.password⟩) (by unfold openAnswer; rw [hp]), hi]

/-- What `start` can say when the password is a number. -/
def Spec.loginTexts : List Str :=
  [cs!"Could not connect to the server", cs!"Expected ACK message", cs!"Invalid authentication response",
    cs!"Invalid hash algorithm", cs!"Invalid password"]

/-- C123: with a password that is a number, what an exception of `start` says is one of five fixed texts, or what Python says
of a timeout or of what the gateway sent. -/
theorem C123_fixed_partial (cfg : Config) (n : Int) (hp : pyInt cfg.password = .ok n) (w : World) (e : Err) (text : Str)
    (h : (Texts.start cfg w).1 = .error ⟨e, some text⟩) : text ∈ loginTexts := by
  obtain ⟨acts, h1, h2⟩ := start_ends cfg w
  rcases h2 with ⟨t, ht, hr⟩ | ⟨_, ho | ⟨e', t, ho, _, ho'⟩⟩
  · rw [hr] at h; cases h
    cases ht <;> simp [loginTexts]
  · rw [ho] at h; cases h
  · rw [ho] at h; cases h
    rcases ho' with h | h | ⟨_, h⟩
    · cases h
    · cases h; simp [loginTexts]
    · rw [hp] at h; cases h

/-- C123: a password of digits is in none of the texts. -/
theorem C123_digits_partial (cfg : Config) (hne : cfg.password ≠ []) (hd : Digits cfg.password)
    (hl : cfg.password.length ≤ 4300) (w : World) (e : Err) (text : Str)
    (h : (Texts.start cfg w).1 = .error ⟨e, some text⟩) : ¬ Contains text cfg.password := by
  have hm := C123_fixed_partial cfg _ (pyInt_digits hd hne hl) w e text h
  rintro ⟨a, b, rfl⟩
  obtain ⟨x, s, hx⟩ := List.exists_cons_of_ne_nil hne
  have hall : ∀ t ∈ loginTexts, ∀ y ∈ t, y ∉ ['0', '1', '2', '3', '4', '5', '6', '7', '8', '9'] := by decide
  exact hall _ hm x (by rw [hx]; simp) (hd x (by rw [hx]; simp))

/-- Non-vacuity: a password with letters, and a gateway with OPEN authentication. -/
example : (Texts.start ⟨cs!"s3cret", .command, ⟨id, id, fun _ _ m => m, fun _ => none⟩, []⟩
    ⟨[some [.msg .ack, .msg (.generic [cs!"603356072"])]], false, [], []⟩).1 =
      .error ⟨.valueError, some cs!"invalid literal for int() with base 10: 's3cret'"⟩ := by decide +kernel

/-! ## C124: sessions -/

/-- C124: `InvalidSession` from a command says that the session is an event session exactly when it is one, and that the
client is not started exactly when that is what is wrong. -/
theorem C124_command (cfg : Config) (m : Msg) (w : World) (t : Option Str) :
    (Texts.command cfg m w).1 = .error ⟨.invalidSession, t⟩ ↔
      (cfg.session = .event ∧ t = some cs!"Cannot send messages in an event session") ∨
      (cfg.session ≠ .event ∧ w.started = false ∧ t = some cs!"Client not started") := by
  unfold Texts.command
  rw [Texts.bind_apply]
  unfold Texts.sendMessage
  by_cases hs : cfg.session = .event
  · rw [hs]
    simp only [Client.isCmdSession]
    constructor
    · intro h
      have : (Except.error ⟨.invalidSession, some cs!"Cannot send messages in an event session"⟩ : Except Raised Unit) =
        .error ⟨.invalidSession, t⟩ := h
      cases this
      simp
    · intro h
      simp only [ne_eq, not_true_eq_false, false_and, or_false, true_and] at h
      subst h
      rfl
  · have hc : Client.isCmdSession cfg.session = true := by
      cases h : cfg.session <;> simp_all [Client.isCmdSession]
    simp only [hc, hs, false_and, false_or, ne_eq, not_false_eq_true, true_and, Bool.not_true, Bool.false_and,
      Bool.false_eq_true, if_false]
    cases hst : w.started with
    | false =>
      simp
      exact eq_comm
    | true =>
      simp only [Bool.not_true, Bool.false_eq_true, if_false, Bool.true_eq_false, false_and, iff_false]
      cases hb : m.bytes with
      | error e =>
        have : e = .unicodeError := by
          unfold Msg.bytes Msg.encodeAscii at hb
          split_ifs at hb
          cases hb; rfl
        subst this
        simp
      | ok b =>
        dsimp only
        rw [Texts.bind_apply]
        unfold Texts.readMessage
        simp only [Bool.not_true, Bool.false_eq_true, if_false]
        rcases w.inbox with _ | ⟨r | _, rest⟩
        · simp
        · dsimp only
          unfold checkAck
          split_ifs <;> simp [X.raise, Pure.pure, X.pure]
        · simp

/-- C124: `InvalidSession` from `read_message` says that the client is not started, exactly when it is not. -/
theorem C124_read (w : World) (t : Option Str) :
    (Texts.readMessage w).1 = .error ⟨.invalidSession, t⟩ ↔ w.started = false ∧ t = some cs!"Client not started" := by
  unfold Texts.readMessage
  cases hst : w.started with
  | false =>
    simp
    exact eq_comm
  | true =>
    simp only [Bool.not_true, Bool.false_eq_true, if_false, Bool.true_eq_false, false_and, iff_false]
    rcases w.inbox with _ | ⟨r | _, rest⟩ <;> simp
