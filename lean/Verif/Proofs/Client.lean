import Verif.Model.Client
import Verif.Props.Messages
import Verif.Props.OpenAuth
import Verif.Props.HmacAuth

/-! # Running coroutines -/

open Py Spec HmacAuth

namespace M
variable {α β : Type}

theorem bind_apply (x : M α) (f : α → M β) (w : World) :
    (x >>= f) w = match x w with | (.ok a, w') => f a w' | (.error e, w') => (.error e, w') := rfl
@[simp] theorem pure_apply (a : α) (w : World) : (Pure.pure a : M α) w = (.ok a, w) := rfl
@[simp] theorem raise_apply (e : Err) (w : World) : (raise e : M α) w = (.error e, w) := rfl
@[simp] theorem lift_apply (x : Except Err α) (w : World) : lift x w = (x, w) := rfl

theorem bind_ok {x : M α} {f : α → M β} {w w' : World} {a : α} (h : x w = (.ok a, w')) : (x >>= f) w = f a w' := by
  rw [bind_apply, h]
theorem bind_error {x : M α} {f : α → M β} {w w' : World} {e : Err} (h : x w = (.error e, w')) :
    (x >>= f) w = (.error e, w') := by
  rw [bind_apply, h]
theorem lift_bind_ok {f : α → M β} {w : World} {a : α} : (lift (.ok a) >>= f) w = f a w := rfl
theorem lift_bind_error {f : α → M β} {w : World} {e : Err} : (lift (.error e) >>= f) w = (.error e, w) := rfl

end M

instance (s : Str) : Decidable (TagText s) := by unfold TagText TagChar; infer_instance

namespace Client
open M

/-- Read with something in the inbox. -/
theorem read_msg {w : World} (hs : w.started = true) {m : Msg} {rest : List InEv} (h : w.inbox = .msg m :: rest) :
    readMessage w = (.ok m, { w with inbox := rest, trace := w.trace ++ [.got m] }) := by
  unfold readMessage; simp [hs, h]

theorem read_cases {w : World} (hs : w.started = true) :
    (∃ m rest, w.inbox = .msg m :: rest ∧ readMessage w = (.ok m, { w with inbox := rest, trace := w.trace ++ [.got m] })) ∨
    ((∀ m rest, w.inbox ≠ .msg m :: rest) ∧ readMessage w = (.error .timeoutError, { w with inbox := w.inbox.drop 1 })) := by
  cases h : w.inbox with
  | nil => right; refine ⟨by simp, ?_⟩; cases w; simp only at h hs; subst h hs; rfl
  | cons e r =>
    cases e with
    | msg m => left; exact ⟨m, r, rfl, read_msg hs h⟩
    | silence => right; refine ⟨by simp, ?_⟩; unfold readMessage; simp [hs, h]

theorem bytes_ok {m : Msg} (h : ∀ t ∈ m.tags, TagText t) : ∃ b, m.bytes = .ok b := by
  obtain ⟨x, h, _⟩ := C13_bytes m h
  exact ⟨_, h⟩

theorem send_force {cfg : Config} {w : World} {m : Msg} (hs : w.started = true) (h : ∀ t ∈ m.tags, TagText t) :
    sendMessage cfg m true w = (.ok (), { w with trace := w.trace ++ [.sent m.str] }) := by
  obtain ⟨b, hb⟩ := bytes_ok h
  unfold sendMessage
  simp [hs, hb]

theorem toMessage_eq (s : Session) : s.toMessage = .ok (.generic [cs!"99", s.value]) := by
  cases s <;> rfl

theorem digits_tagText {s : Str} (h : ∀ c ∈ s, isDigit c = true) : TagText s := by
  intro c hc
  have := h c hc
  have h2 := digitChar_digitVal this
  have h3 := digitVal_lt this
  rw [← h2]
  generalize digitVal c = n at *
  interval_cases n <;> simp [TagChar, digitChar]

/-- The OPEN answer is a numeral. -/
theorem open_tagText {pw nonce enc : Str} (h : OpenAuth.ownCalcPassStr pw nonce = .ok enc) : TagText enc := by
  rcases C22_answer_32bit_text pw nonce with ⟨e, _, h2⟩ | ⟨s, n, h2, hn, _⟩
  · rw [h] at h2; cases h2
  · rw [h] at h2; cases h2
    exact TagText.of_digits hn.2.1

theorem hash_tagText {s : Str} (h : TagText s) : TagText (cs!"#" ++ s) := by
  intro c hc
  simp at hc
  rcases hc with rfl | hc
  · simp [TagChar]
  · exact h c hc

/-- `handshake` after the greeting. -/
def negotiate (cfg : Config) : M Unit := do
  let resp ← readMessage
  if resp.type = .ack then return ()
  else if resp.tags.length = 1 then do
    authenticateOpen cfg (← lift (index resp.tags 0))
  else do
    let first ← lift (index resp.tags 0)
    if first = cs!"98" then do
      authenticateHmac cfg (← lift (index resp.tags 1))
    else raise .invalidAuthentication

/-- The session frame. -/
def sessionFrame (cfg : Config) : Str := frame [cs!"99", cfg.session.value]

theorem type_ack {m : Msg} : m.type = .ack ↔ m = .ack := by cases m <;> simp [Msg.type]
theorem type_nack {m : Msg} : m.type = .nack ↔ m = .nack := by cases m <;> simp [Msg.type]

theorem handshake_ack {cfg : Config} {w : World} (hs : w.started = true) {rest : List InEv}
    (h : w.inbox = .msg .ack :: rest) :
    handshake cfg w =
      negotiate cfg { w with inbox := rest, trace := w.trace ++ [.got .ack, .sent (sessionFrame cfg)] } := by
  unfold handshake
  rw [bind_ok (read_msg hs h), if_neg (by simp [Msg.type]), toMessage_eq, lift_bind_ok, bind_ok (send_force ?_ ?_)]
  · have e : (Msg.generic [cs!"99", cfg.session.value]).str = sessionFrame cfg := by
      simp [Msg.str, sessionFrame, frame, body, join]
    rw [e]
    simp only [List.append_assoc]
    rfl
  · exact hs
  · cases cfg.session <;> simp only [Msg.tags, Session.value] <;> decide

theorem handshake_other {cfg : Config} {w : World} (hs : w.started = true) {m : Msg} {rest : List InEv}
    (h : w.inbox = .msg m :: rest) (hm : m ≠ .ack) :
    handshake cfg w = (.error .invalidAuthentication, { w with inbox := rest, trace := w.trace ++ [.got m] }) := by
  unfold handshake
  rw [bind_ok (read_msg hs h), if_pos (by rw [Ne, type_ack]; exact hm)]
  rfl

theorem index_zero {α : Type} {l : List α} {a : α} : index l 0 = .ok a ↔ l.head? = some a := by
  cases l <;> simp [index]

/-- The wait for the verdict on the OPEN answer. -/
def awaitAck : M Unit := do
  let resp ← readMessage
  if resp.type ≠ .ack then raise .invalidAuthentication
  else return ()

theorem authenticateOpen_run {cfg : Config} {w : World} (hs : w.started = true) (nonce : Str) :
    (∃ e, OpenAuth.ownCalcPassStr cfg.password nonce = .error e ∧ authenticateOpen cfg nonce w = (.error e, w)) ∨
    ∃ enc, OpenAuth.ownCalcPassStr cfg.password nonce = .ok enc ∧
      authenticateOpen cfg nonce w = awaitAck { w with trace := w.trace ++ [.sent (frame [cs!"#" ++ enc])] } := by
  unfold authenticateOpen
  cases h : OpenAuth.ownCalcPassStr cfg.password nonce with
  | error e => exact .inl ⟨e, rfl, rfl⟩
  | ok enc =>
    refine .inr ⟨enc, rfl, ?_⟩
    rw [lift_bind_ok, bind_ok (send_force hs ?_)]
    · have e : (Msg.generic [cs!"#" ++ enc]).str = frame [cs!"#" ++ enc] := by simp [Msg.str, frame, body, join]
      rw [e]
      rfl
    · intro t ht
      simp [Msg.tags] at ht
      subst ht
      exact hash_tagText (open_tagText h)

/-- `_authenticate_hmac` after the client's proof was sent. -/
def confirm (cfg : Config) (serverAuth : Bytes) : M Unit := do
  let resp ← readMessage
  if resp.type = .nack then raise .invalidAuthentication
  else do
    let tag ← lift (index resp.tags 0)
    let digits ← lift (hexToDigits cfg.lib tag)
    let confirmation ← lift (fromHex digits)
    if compareHmac serverAuth confirmation = false then raise .invalidAuthentication
    else sendMessage cfg .ack true

end Client

namespace Client
open M

theorem hexText_text (b : Bytes) : Hex.Text (hexText b) (nibblesOf b) := by
  unfold hexText
  apply lower_text
  intro v hv
  obtain ⟨x, _, hv⟩ := List.mem_flatMap.1 hv
  have hx : x.toNat < 256 := x.toNat_lt
  simp at hv
  omega

theorem transcription_tagText (b : Bytes) : TagText (Hex.transcription (nibblesOf b)) :=
  digits_tagText (transcription_digits (text_lt (hexText_text b)))

theorem ack_valid : ∀ t ∈ Msg.ack.tags, TagText t := by
  have h1 : TagText cs!"#" := by intro c hc; simp at hc; subst hc; simp [TagChar]
  have h2 : TagText cs!"1" := by intro c hc; simp at hc; subst hc; simp [TagChar]
  intro t ht
  simp [Msg.tags] at ht
  rcases ht with rfl | rfl <;> assumption

theorem nack_valid : ∀ t ∈ Msg.nack.tags, TagText t := by
  have h1 : TagText cs!"#" := by intro c hc; simp at hc; subst hc; simp [TagChar]
  have h2 : TagText cs!"0" := by intro c hc; simp at hc; subst hc; simp [TagChar]
  intro t ht
  simp [Msg.tags] at ht
  rcases ht with rfl | rfl <;> assumption

/-- The exchange of keys and proofs. -/
def exchange (cfg : Config) (alg : Alg) : M Unit := do
  let resp ← readMessage
  let ra ← lift (index resp.tags 0)
  fun w => confirm cfg (serverProof cfg alg ra) { w with trace := w.trace ++ [.sent (proofFrame cfg alg ra)] }

/-- The ACK accepting the algorithm, up to the server key. -/
theorem authenticateHmacWith_run {cfg : Config} {w : World} (hs : w.started = true) (alg : Alg) :
    authenticateHmacWith cfg alg w = exchange cfg alg { w with trace := w.trace ++ [.sent (frame [cs!"#", cs!"1"])] } := by
  unfold authenticateHmacWith exchange
  rw [bind_ok (send_force hs ack_valid)]
  have e1 : Msg.ack.str = frame [cs!"#", cs!"1"] := rfl
  rw [e1]
  rw [bind_apply, bind_apply]
  rcases read_cases (w := { w with trace := w.trace ++ [.sent (frame [cs!"#", cs!"1"])] }) hs with
    ⟨m, rest, _, h2⟩ | ⟨_, h2⟩
  · rw [h2]
    dsimp only
    cases hi : index m.tags 0 with
    | error e => rfl
    | ok ra =>
      rw [lift_bind_ok]
      have k1 : createKey cfg.lib cfg.token alg.value = .ok (clientKey cfg alg) := by
        unfold createKey clientKey
        rw [hashFunction_value, ok_bind, hexdigest_eq]; rfl
      rw [k1, lift_bind_ok, C27_client_partial, lift_bind_ok, C27_server_partial, lift_bind_ok]
      have k2 : hexToDigits cfg.lib (clientKey cfg alg) =
          .ok (Hex.transcription (nibblesOf (hashOf cfg.lib alg cfg.token))) :=
        hexToDigits_text cfg.lib (hexText_text _)
      rw [k2, lift_bind_ok, hexdigest_eq, hexToDigits_text cfg.lib (hexText_text _), lift_bind_ok]
      rw [bind_ok (send_force ?_ ?_)]
      · have e2 : ∀ a b : Str, (Msg.generic [a, b]).str = frame [a, b] := by
          intro a b; simp [Msg.str, frame, body, join]
        rw [e2]
        rfl
      · exact hs
      · intro t ht
        simp [Msg.tags] at ht
        rcases ht with rfl | rfl <;> exact transcription_tagText _
  · rw [h2]

end Client
