import Verif.Spec.Replies
import Verif.Spec.Calendar

/-!
# Queries: requests answered by a stream of replies

Written from `docs/original/who1.md` (status and dimension requests) and `who2.md`.
-/

open Py

namespace Spec

/-- A generator that writes `text` once, takes the wanted replies one by one and yields what `reads` relates to each, up to
the end of the stream.  A reply that cannot be read raises at once; the later replies stay in the queue.  Outside a
connected command session it raises `InvalidSession` and does nothing. -/
def Queries {β : Type} (cfg : Config) (query : World → (List β × Except Err Unit) × World) (text : Str)
    (wanted : Msg → Prop) (reads : Msg → Except Err (List β) → Prop) : Prop :=
  ∀ w, (¬ Ready cfg w → query w = (([], .error .invalidSession), w)) ∧
    (Ready cfg w → ∀ (good : List Msg) (tail : List InEv) (yss : List (List β)),
      (∀ m ∈ good, wanted m) → w.inbox = good.map .msg ++ tail →
      List.Forall₂ (fun m ys => reads m (.ok ys)) good yss →
      (∀ r rest acts, Ending wanted tail r rest acts →
        query w = ((yss.flatten, r), w.after rest (.sent text :: (good.map .got ++ acts)))) ∧
      (∀ bad rest e, tail = .msg bad :: rest → wanted bad → reads bad (.error e) →
        query w = ((yss.flatten, .error e), w.after rest (.sent text :: (good.map .got ++ [.got bad])))))

/-- The messages that answer a status request. -/
def StatusReply (m : Msg) : Prop := ∃ wo wa we, m = .normal wo wa we

/-- The messages that answer a dimension request. -/
def DimReply (m : Msg) : Prop := ∃ wo we d vs, m = .dimResp wo we d vs

/-- What a reply says about a light: 1 is on, 0 is off, anything else says nothing about it. -/
inductive LightReply : Msg → Except Err (List (Tag × Bool)) → Prop
  | on (wo we) : LightReply (.normal wo ⟨cs!"1"⟩ we) (.ok [(we, true)])
  | off (wo we) : LightReply (.normal wo ⟨cs!"0"⟩ we) (.ok [(we, false)])
  | other (wo wa we) : wa.string ≠ cs!"1" → wa.string ≠ cs!"0" → LightReply (.normal wo wa we) (.ok [])

/-- `v` is the part of `s` before the first `#`. -/
def Head (s v : Str) : Prop := '#' ∉ v ∧ (s = v ∨ ∃ p, s = v ++ '#' :: p)

/-- What a reply says about a dimmer: the level in tenths.  (Tags hold digits and `#` only.) -/
inductive DimmerReply : Msg → Except Err (List (Tag × Int)) → Prop
  | level (wo wa we v n) : TagText wa.string → Head wa.string v → decimal v = some n → DimmerReply (.normal wo wa we) (.ok [(we, (10 * n : Nat))])
  | bad (wo wa we v) : TagText wa.string → Head wa.string v → decimal v = none → DimmerReply (.normal wo wa we) (.error .valueError)

/-- What a reply says about an automation: 0 stopped, 1 going up, 2 going down. -/
inductive AutomationReply : Msg → Except Err (List (Tag × Str)) → Prop
  | state (wo wa we) : wa.string ∈ [cs!"0", cs!"1", cs!"2"] → AutomationReply (.normal wo wa we) (.ok [(we, wa.string)])
  | bad (wo wa we) : wa.string ∉ [cs!"0", cs!"1", cs!"2"] → AutomationReply (.normal wo wa we) (.error .valueError)

/-- A value without its leading `#`, if it has one. -/
def bare : Str → Str
  | '#' :: s => s
  | s => s

/-- The first `n` values as numbers: a missing one is an `IndexError`, one that is not a number a `ValueError`. -/
def numbers : Nat → List Tag → Except Err (List Nat)
  | 0, _ => .ok []
  | _ + 1, [] => .error .indexError
  | n + 1, v :: vs =>
    match decimal (bare v.string) with
    | none => .error .valueError
    | some a => (numbers n vs).map (a :: ·)

/-- What a dimension reply says: the place, and the first `n` values as numbers, put together by `pack`.
(Tags hold digits and `#` only.) -/
inductive NumbersReply {β : Type} (n : Nat) (pack : Tag → List Nat → Option β) : Msg → Except Err (List β) → Prop
  | values (wo we d vs ns b) : (∀ v ∈ vs, TagText v.string) → numbers n vs = .ok ns → pack we ns = some b →
      NumbersReply n pack (.dimResp wo we d vs) (.ok [b])
  | bad (wo we d vs e) : (∀ v ∈ vs, TagText v.string) → numbers n vs = .error e →
      NumbersReply n pack (.dimResp wo we d vs) (.error e)

/-- The place and one number. -/
def pack1 (we : Tag) : List Nat → Option (Tag × Int)
  | [a] => some (we, (a : Int))
  | _ => none

/-- The place and two numbers. -/
def pack2 (we : Tag) : List Nat → Option (Tag × Int × Int)
  | [a, b] => some (we, (a : Int), (b : Int))
  | _ => none

/-- The place and three numbers. -/
def pack3 (we : Tag) : List Nat → Option (Tag × Int × Int × Int)
  | [a, b, c] => some (we, (a : Int), (b : Int), (c : Int))
  | _ => none

/-- A getter that asks: the request `text` is written, the responses up to the end of the stream are consumed, and the values
of the first one are decoded. -/
def Asks {α : Type} (cfg : Config) (getter : M α) (text : Str) (decode : List Tag → Except Err α) : Prop :=
  ∀ w, (¬ Ready cfg w → getter w = (.error .invalidSession, w)) ∧
    (Ready cfg w → ∀ (rs : List Msg) (tail : List InEv) (r : Except Err Unit) (rest : List InEv) (acts : List CAct),
      (∀ m ∈ rs, DimReply m) → w.inbox = rs.map .msg ++ tail → Ending DimReply tail r rest acts →
      getter w =
        (match r, rs with
          | .error e, _ => .error e
          | .ok (), [] => .error .responseError
          | .ok (), m :: _ => decode m.values,
         w.after rest (.sent text :: (rs.map .got ++ acts))))

end Spec
