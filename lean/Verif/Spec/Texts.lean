import Verif.Spec.Handshake
import Verif.Model.Texts

/-!
# What the texts of exceptions should say
-/

open Py HmacAuth

namespace Spec

/-- The exception without its text. -/
def noText {α : Type} : Except Raised α → Except Err α
  | .ok a => .ok a
  | .error r => .error r.err

/-- A text that quotes what was received and says what was expected. -/
def quoting (r : Msg) (expected : Str) : Str := cs!"Received " ++ r.str ++ cs!" instead of " ++ expected

/-- What the texts call messages. -/
inductive Called : Str → Msg → Prop
  | ack : Called cs!"ACK" .ack
  | nack : Called cs!"NACK" .nack
  | normal (who : Who) (what wher : Tag) : Called cs!"a normal message" (.normal who what wher)
  | dimension (who : Who) (wher dim : Tag) (vs : List Tag) :
      Called cs!"a dimension response message" (.dimResp who wher dim vs)

/-- The text quotes `r`, and what it says was expected is something that is accepted. -/
def Honest (accepted : Msg → Prop) (r : Msg) (text : Str) : Prop :=
  ∃ expected m, Called expected m ∧ accepted m ∧ text = quoting r expected

/-- What the replies of each kind of query are; the ACK that ends it is accepted too. -/
def expects : Texts.Kind → Msg → Prop
  | _, .ack => True
  | .normal, .normal .. => True
  | .dimension, .dimResp .. => True
  | _, _ => False

/-- The start of every login the gateway greets: the greeting, the session type, the answer `c`. -/
def opening (cfg : Config) (c : Msg) : List CAct :=
  [.connected, .got .ack, .sent (frame [cs!"99", cfg.session.value]), .got c]

/-- Logins that fail with `InvalidAuthentication`: what happened on the connection, and what the exception says. -/
inductive LoginFailure (cfg : Config) : List CAct → Str → Prop
  /-- the gateway does not begin with an ACK -/
  | greeting (m : Msg) (hm : m ≠ .ack) : LoginFailure cfg [.connected, .got m] cs!"Expected ACK message"
  /-- the answer to the session type is no ACK and no challenge -/
  | answer (c : Msg) (hc : c ≠ .ack) (first second : Str) (more : List Str) (ht : c.tags = first :: second :: more)
      (hf : first ≠ cs!"98") : LoginFailure cfg (opening cfg c) cs!"Invalid authentication response"
  /-- the gateway wants an algorithm there is not -/
  | algorithm (c : Msg) (name : Str) (more : List Str) (ht : c.tags = cs!"98" :: name :: more)
      (hn : ∀ alg, ¬ Announces name alg) :
      LoginFailure cfg (opening cfg c ++ [.sent (frame [cs!"#", cs!"0"])]) cs!"Invalid hash algorithm"
  /-- OPEN: the answer to the challenge is not acknowledged -/
  | password (c r : Msg) (nonce enc : Str) (ht : c.tags = [nonce])
      (he : OpenAuth.ownCalcPassStr cfg.password nonce = .ok enc) (hr : r ≠ .ack) :
      LoginFailure cfg (opening cfg c ++ [.sent (frame ['#' :: enc]), .got r]) cs!"Invalid password"
  /-- HMAC: the gateway refuses the client's proof -/
  | refused (c k : Msg) (name : Str) (more : List Str) (alg : Alg) (ra : Str) (ht : c.tags = cs!"98" :: name :: more)
      (ha : Announces name alg) (hk : k.tags.head? = some ra) :
      LoginFailure cfg (opening cfg c ++ [.sent (frame [cs!"#", cs!"1"]), .got k, .sent (proofFrame cfg alg ra), .got .nack])
        cs!"Invalid password"
  /-- HMAC: the gateway's proof is not the one expected -/
  | unproven (c k r : Msg) (name : Str) (more : List Str) (alg : Alg) (ra tag : Str) (proof : Bytes)
      (ht : c.tags = cs!"98" :: name :: more) (ha : Announces name alg) (hk : k.tags.head? = some ra) (hr : r ≠ .nack)
      (hg : r.tags.head? = some tag) (hp : Accepts cfg.lib tag proof) (hne : proof ≠ serverProof cfg alg ra) :
      LoginFailure cfg (opening cfg c ++ [.sent (frame [cs!"#", cs!"1"]), .got k, .sent (proofFrame cfg alg ra), .got r])
        cs!"Invalid password"

/-- `part` occurs in `text`. -/
def Contains (text part : Str) : Prop := ∃ a b, text = a ++ part ++ b

end Spec
