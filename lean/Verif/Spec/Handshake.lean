import Verif.Spec.HexText
import Verif.Spec.Frames
import Verif.Model.Client

/-!
# The handshake as documented

The messages of `docs/original/hmac.md`, and the conversations after which a session is open.
-/

open Py HmacAuth

namespace Spec

/-- The UTF-8 bytes of a text, by Lean's own `String`. -/
def utf8 (s : Str) : Bytes := (String.ofList s).toByteArray.data.toList

/-- The lower case hexadecimal text of bytes, high digit first. -/
def hexText (b : Bytes) : Str := Hex.lower (b.flatMap (fun x => [x.toNat / 16, x.toNat % 16]))

/-- The hash function of each algorithm. -/
def hashOf (lib : Lib) : Alg → Bytes → Bytes
  | .sha1 => lib.sha1
  | .sha256 => lib.sha256

/-- The HMAC with key `Ra` of the concatenation of `parts`. -/
def mac (lib : Lib) (alg : Alg) (ra : Str) (parts : List Str) : Bytes :=
  lib.hmac (hashOf lib alg) (utf8 ra) (parts.map utf8).flatten


/-- The client's random key `Rb`. -/
def clientKey (cfg : Config) (alg : Alg) : Str := hexText (hashOf cfg.lib alg cfg.token)

/-- `Kab` -/
def sharedKey (cfg : Config) (alg : Alg) : Str := hexText (hashOf cfg.lib alg (utf8 cfg.password))

/-- `HMAC(Ra, Rb, A, B, Kab)` with `A = 736F70653E` and `B = 636F70653E`. -/
def clientProof (cfg : Config) (alg : Alg) (ra : Str) : Bytes :=
  mac cfg.lib alg ra [ra, clientKey cfg alg, cs!"736F70653E", cs!"636F70653E", sharedKey cfg alg]

/-- The confirmation the code computes: keys in the order `Rb, Ra`. -/
def serverProof (cfg : Config) (alg : Alg) (ra : Str) : Bytes :=
  mac cfg.lib alg ra [clientKey cfg alg, ra, sharedKey cfg alg]

/-- The digit values of hexadecimal text of bytes. -/
def nibblesOf (b : Bytes) : List Nat := b.flatMap (fun x => [x.toNat / 16, x.toNat % 16])

/-- The frame with the client's key and proof. -/
def proofFrame (cfg : Config) (alg : Alg) (ra : Str) : Str :=
  frame [Hex.transcription (nibblesOf (hashOf cfg.lib alg cfg.token)),
    Hex.transcription (nibblesOf (clientProof cfg alg ra))]


/-- The confirmation tag is accepted for the expected digest, by `hex_to_digits`, `bytes.fromhex` and a comparison. -/
def Accepts (lib : Lib) (tag : Str) (digest : Bytes) : Prop :=
  ∃ d, hexToDigits lib tag = .ok d ∧ fromHex d = .ok digest

/-- The algorithm announced by a tag. -/
def Announces : Str → Alg → Prop
  | tag, .sha1 => tag = cs!"1"
  | tag, .sha256 => tag = cs!"2"

/-- Complete handshakes: what the gateway says, and what happens on the connection. -/
inductive Handshake (cfg : Config) : List Msg → List CAct → Prop
  /-- no authentication -/
  | free : Handshake cfg [.ack, .ack] [.got .ack, .sent (frame [cs!"99", cfg.session.value]), .got .ack]
  /-- OPEN: a one-tag challenge, the answer, an ACK -/
  | open (c : Msg) (nonce enc : Str) (hc : c.tags = [nonce])
      (he : OpenAuth.ownCalcPassStr cfg.password nonce = .ok enc) :
      Handshake cfg [.ack, c, .ack]
        [.got .ack, .sent (frame [cs!"99", cfg.session.value]), .got c, .sent (frame ['#' :: enc]), .got .ack]
  /-- HMAC: a supported algorithm, the server key, the client's key and proof, an accepted confirmation -/
  | hmac (c k r : Msg) (name : Str) (more : List Str) (alg : Alg) (ra tag : Str)
      (hc : c.tags = cs!"98" :: name :: more) (ha : Announces name alg) (hk : k.tags.head? = some ra)
      (hr : r ≠ .nack) (ht : r.tags.head? = some tag) (hacc : Accepts cfg.lib tag (serverProof cfg alg ra)) :
      Handshake cfg [.ack, c, k, r]
        [.got .ack, .sent (frame [cs!"99", cfg.session.value]), .got c, .sent (frame [cs!"#", cs!"1"]), .got k,
         .sent (proofFrame cfg alg ra), .got r, .sent (frame [cs!"#", cs!"1"])]

end Spec
