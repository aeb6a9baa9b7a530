import Verif.Props.Failure
import Verif.Spec.History

/-!
# Logging in to a gateway that knows a password (C88)
-/

open Py Spec HmacAuth Client M

namespace Spec

/-- A gateway with an OPEN password: what it says, as text, after the history `h` of the connection.  It greets, answers the
session frame with the challenge `*#nonce##`, and accepts or refuses the answer. -/
inductive OpenGateway (password : BitVec 32) (nonce : Str) : List CAct → Str → Prop
  | greeting {h : List CAct} (hw : written h = []) : OpenGateway password nonce h cs!"*#*1##"
  | challenge {h : List CAct} {s : Str} (hw : written h = [s]) : OpenGateway password nonce h (frame ['#' :: nonce])
  | accepts {h : List CAct} {s a : Str} (ha : Numeral a (Open.answer password nonce).toNat)
      (hw : written h = [s, frame ['#' :: a]]) : OpenGateway password nonce h cs!"*#*1##"
  | refuses {h : List CAct} {s b : Str} (hb : ∀ a, Numeral a (Open.answer password nonce).toNat → b ≠ frame ['#' :: a])
      (hw : written h = [s, b]) : OpenGateway password nonce h cs!"*#*0##"

/-- Every message received in `h` is what the gateway says at that moment. -/
def Plays (gateway : List CAct → Str → Prop) (h : List CAct) : Prop :=
  ∀ pre m post, h = pre ++ .got m :: post → ∃ text, gateway pre text ∧ parseMessage text = .ok m

end Spec

theorem frame_parse {ts : List Str} {m : Msg} (hne : ts ≠ []) (hv : ∀ t ∈ ts, TagText t) (hs : ¬ Structured ts)
    (h : parseMessage (frame ts) = .ok m) : m = .generic ts := by
  obtain ⟨us, hf, hm⟩ := (C07_classified _ _).1 h
  have hp : PyFrame (frame ts) ts := ⟨hne, hv, ⟨[], [], by simp, by simp, by simp⟩, hf.2.2.2⟩
  have := pyFrame_unique hf hp
  subst this
  exact (C07_unique _ _ _ _ _ hp hp hm (.generic hs)).2

theorem not_structured_one (t : Str) : ¬ Structured [t] := by
  rintro (h | h | ⟨_, _, _, h, _⟩ | ⟨_, _, _, h, _⟩) <;> simp at h

theorem answer_hash (pw : BitVec 32) (nonce : Str) (hn : ∃ c ∈ nonce, c ≠ '0') :
    Open.answer pw ('#' :: nonce) = Open.answer pw nonce := by
  unfold Open.answer
  rw [if_pos hn, if_pos ⟨'#', by simp, by decide⟩]
  rfl

/-- C88: against a gateway that answers in time and knows an OPEN password, `start()` succeeds exactly if the client has the
same password, and raises `InvalidAuthentication` otherwise. -/
theorem C88_login_iff (cfg : Config) (w : World) (q : Nat) (nonce : Str) (hq : q < 2 ^ 32)
    (hne : cfg.password ≠ []) (hd : Digits cfg.password) (hl : cfg.password.length ≤ 4300)
    (hp : value cfg.password < 2 ^ 32) (hnd : Digits nonce) (hn : ∃ c ∈ nonce, c ≠ '0') (h : List CAct)
    (ht : (start cfg w).2.trace = w.trace ++ h) (hplay : Plays (OpenGateway (BitVec.ofNat 32 q) nonce) h)
    (hin : (start cfg w).1 ≠ .error .timeoutError) :
    ((start cfg w).1 = .ok () ↔ value cfg.password = q) ∧
    ((start cfg w).1 = .error .invalidAuthentication ↔ value cfg.password ≠ q) := by
  suffices key : ((start cfg w).1 = .ok () ∧ value cfg.password = q) ∨
      ((start cfg w).1 = .error .invalidAuthentication ∧ value cfg.password ≠ q) by
    rcases key with ⟨h1, h2⟩ | ⟨h1, h2⟩ <;> rw [h1] <;> simp [h2]
  have hs := start_cases cfg w
  generalize start cfg w = r at *
  cases hs with
  | unreachable _ => exact absurd rfl hin
  | mute _ _ _ _ => exact absurd rfl hin
  | unanswered _ _ _ _ => exact absurd rfl hin
  | refused m _ _ _ hm =>
    exfalso
    have e : h = [.connected] ++ .got m :: [] := by simpa using ht.symm
    obtain ⟨text, hg, hpm⟩ := hplay _ _ _ e
    cases hg with
    | greeting _ => rw [show parseMessage cs!"*#*1##" = .ok .ack by decide +kernel] at hpm; cases hpm; exact hm rfl
    | challenge hw => cases hw
    | accepts _ hw => cases hw
    | refuses _ hw => cases hw
  | answered c rest net hnet =>
    have hpre : ∃ t, h = [.connected, .got .ack, .sent (sessionFrame cfg)] ++ .got c :: t := by
      obtain ⟨t, hm⟩ := (tame_challenge cfg c).mono
        ⟨net, true, rest, w.trace ++ [.connected, .got .ack, .sent (sessionFrame cfg), .got c]⟩
      rw [ht] at hm
      exact ⟨t, by simpa using hm.symm⟩
    obtain ⟨t, e⟩ := hpre
    obtain ⟨text, hg, hpm⟩ := hplay _ _ _ e
    have hct : c = .generic ['#' :: nonce] := by
      cases hg with
      | greeting hw => cases hw
      | challenge _ =>
        exact frame_parse (by simp) (by simp [TagText.cons_hash, TagText.of_digits hnd]) (not_structured_one _) hpm
      | accepts _ hw => cases hw
      | refuses _ hw => cases hw
    subst hct
    obtain ⟨enc, he, hnum⟩ := C23_text_password cfg.password hne hd hl hp ('#' :: nonce)
    rw [answer_hash _ _ hn] at hnum
    have hch := challenge_cases cfg (.generic ['#' :: nonce])
      ⟨net, true, rest, w.trace ++ [.connected, .got .ack, .sent (sessionFrame cfg), .got (.generic ['#' :: nonce])]⟩ rfl
    generalize challenge cfg (.generic ['#' :: nonce]) ⟨net, true, rest,
      w.trace ++ [.connected, .got .ack, .sent (sessionFrame cfg), .got (.generic ['#' :: nonce])]⟩ = r at *
    cases hch with
    | free h => cases h
    | open_error nonce' e' hc' he' => cases hc'; rw [he] at he'; cases he'
    | open_answer nonce' enc' hc' he' =>
      cases hc'
      rw [he] at he'; cases he'
      unfold awaitAck at *
      rcases read_cases (w := ⟨net, true, rest, (w.trace ++ [.connected, .got .ack, .sent (sessionFrame cfg),
        .got (.generic ['#' :: nonce])]) ++ [.sent (frame ['#' :: enc])]⟩) rfl with ⟨m, rest', h1, h2⟩ | ⟨h1, h2⟩
      · rw [bind_ok h2] at *
        have e2 : h = [.connected, .got .ack, .sent (sessionFrame cfg), .got (.generic ['#' :: nonce]),
            .sent (frame ['#' :: enc])] ++ .got m :: [] := by
          split_ifs at ht <;> simpa using ht.symm
        obtain ⟨text, hg, hpm⟩ := hplay _ _ _ e2
        have inj : ∀ a b : Str, frame ['#' :: a] = frame ['#' :: b] → a = b := by
          intro a b hab
          simp [frame, body] at hab
          exact hab
        cases hg with
        | greeting hw => cases hw
        | challenge hw => cases hw
        | accepts ha hw =>
          rename_i s a
          rw [show parseMessage cs!"*#*1##" = .ok .ack by decide +kernel] at hpm
          cases hpm
          refine .inl ⟨rfl, ?_⟩
          simp [written] at hw
          obtain rfl := inj _ _ hw.2
          obtain ⟨x, x1, x2⟩ := C23_register_algorithm _ hp nonce
          obtain ⟨y, y1, y2⟩ := C23_register_algorithm _ hq nonce
          refine C24_injective _ _ hp hq nonce hn ?_
          rw [x1, y1, numeral_unique x2 hnum, numeral_unique y2 ha]
        | refuses hb hw =>
          rename_i s b
          rw [show parseMessage cs!"*#*0##" = .ok .nack by decide +kernel] at hpm
          cases hpm
          refine .inr ⟨rfl, ?_⟩
          simp [written] at hw
          rintro rfl
          exact hb enc hnum hw.2.symm
      · rw [bind_error h2] at hin
        exact absurd rfl hin
    | hmac _ _ _ hc' _ => cases hc'
    | unsupported _ _ hc' _ => cases hc'
    | other _ _ _ hc' _ _ => cases hc'
    | empty hc' => cases hc'

/-- The challenge frame is read as one tag. -/
theorem challenge_parse {nonce : Str} (hnd : Digits nonce) (hne : nonce ≠ []) :
    parseMessage (frame ['#' :: nonce]) = .ok (.generic ['#' :: nonce]) := by
  rw [C07_classified]
  refine ⟨_, ⟨by simp, by simp [TagText.cons_hash, TagText.of_digits hnd], ⟨[], [], by simp, by simp, by simp⟩,
    oneHH_frame ((not_hasHH_body_hash (by simp)).2 ⟨?_, ?_⟩)⟩, .generic (not_structured_one _)⟩
  · intro t ht
    simp at ht
    subst ht
    rw [hasHH_cons_iff]
    rintro (⟨_, h⟩ | ⟨u, v, h⟩)
    · cases nonce with
      | nil => exact hne rfl
      | cons d l => simp at h; subst h; exact Digits.not_hash hnd (by simp)
    · exact Digits.not_hash hnd (by rw [h]; simp)
  · intro t ht h
    simp at ht
    subst ht
    obtain ⟨d, hd⟩ := List.getLast?_isSome.2 hne |> Option.isSome_iff_exists.1
    rw [List.getLast?_cons, hd] at h
    simp at h
    subst h
    exact Digits.not_hash hnd (List.mem_of_getLast? hd)

/-- C88, the gateway side: with the right password there is such a conversation, `start()` returns, and what was written is
the session frame and the answer. -/
theorem C88_login_succeeds (cfg : Config) (w : World) (nonce : Str)
    (hne : cfg.password ≠ []) (hd : Digits cfg.password) (hl : cfg.password.length ≤ 4300)
    (hp : value cfg.password < 2 ^ 32) (hnd : Digits nonce) (hn : ∃ c ∈ nonce, c ≠ '0')
    (rest : List InEv) (net : List (Option (List InEv)))
    (hnet : w.network = some ([.msg .ack, .msg (.generic ['#' :: nonce]), .msg .ack] ++ rest) :: net) :
    ∃ h a, start cfg w = (.ok (), ⟨net, true, rest, w.trace ++ h⟩) ∧
      Plays (OpenGateway (BitVec.ofNat 32 (value cfg.password)) nonce) h ∧
      Numeral a (Open.answer (BitVec.ofNat 32 (value cfg.password)) nonce).toNat ∧
      written h = [frame [cs!"99", cfg.session.value], frame ['#' :: a]] := by
  obtain ⟨enc, he, hnum⟩ := C23_text_password cfg.password hne hd hl hp ('#' :: nonce)
  rw [answer_hash _ _ hn] at hnum
  refine ⟨_, enc, (C29_start_iff cfg w _).2 ⟨[.ack, .generic ['#' :: nonce], .ack], rest, net, _, hnet, .open (.generic ['#' :: nonce]) ('#' :: nonce) enc rfl he, rfl⟩,
    ?_, hnum, rfl⟩
  intro pre m post h
  have hack : parseMessage cs!"*#*1##" = .ok .ack := by decide +kernel
  rcases pre with _ | ⟨a0, _ | ⟨a1, _ | ⟨a2, _ | ⟨a3, _ | ⟨a4, _ | ⟨a5, pre⟩⟩⟩⟩⟩⟩ <;> simp at h
  · obtain ⟨rfl, rfl, _⟩ := h
    exact ⟨_, .greeting rfl, hack⟩
  · obtain ⟨rfl, rfl, rfl, rfl, _⟩ := h
    exact ⟨_, .challenge rfl, challenge_parse hnd (by rintro rfl; simp at hn)⟩
  · obtain ⟨rfl, rfl, rfl, rfl, rfl, rfl, _⟩ := h
    exact ⟨_, .accepts hnum rfl, hack⟩

/-- With a challenge of zeros only, the answer written is the password itself. -/
theorem C88_zero_challenge (cfg : Config) (w : World) (zeros : Str) (hz : ∀ c ∈ zeros, c = '0')
    (hne : cfg.password ≠ []) (hd : Digits cfg.password) (hl : cfg.password.length ≤ 4300)
    (hp : value cfg.password < 2 ^ 32) (inbox : List InEv) (net : List (Option (List InEv)))
    (hnet : w.network = some (.msg .ack :: .msg (.generic ['#' :: zeros]) :: inbox) :: net) :
    ∃ a, Numeral a (value cfg.password) ∧
      w.trace ++ [.connected, .got .ack, .sent (frame [cs!"99", cfg.session.value]), .got (.generic ['#' :: zeros]),
        .sent (frame ['#' :: a])] <+: (start cfg w).2.trace := by
  obtain ⟨enc, he, hnum⟩ := C23_text_password cfg.password hne hd hl hp ('#' :: zeros)
  have e : (Open.answer (BitVec.ofNat 32 (value cfg.password)) ('#' :: zeros)).toNat = value cfg.password := by
    unfold Open.answer
    rw [if_pos ⟨'#', by simp, by decide⟩, List.foldl_cons]
    have : ∀ (l : Str) (r : BitVec 32), (∀ c ∈ l, c = '0') → l.foldl (fun r c => Open.op c r) r = r := by
      intro l
      induction l with
      | nil => intros; rfl
      | cons c l ih =>
        intro r h
        obtain rfl := h c (by simp)
        exact ih _ (fun c hc => h c (by simp [hc]))
    rw [this _ _ hz]
    change (BitVec.ofNat 32 _).toNat = _
    rw [BitVec.toNat_ofNat, Nat.mod_eq_of_lt hp]
  rw [e] at hnum
  refine ⟨enc, hnum, ?_⟩
  have hs := start_cases cfg w
  generalize start cfg w = r at *
  cases hs with
  | unreachable h => exact absurd hnet (h _ _)
  | mute _ _ h hq => rw [hnet] at h; cases h; exact absurd rfl (hq _ _)
  | refused m _ _ h hm => rw [hnet] at h; cases h; exact absurd rfl hm
  | unanswered _ _ h hq => rw [hnet] at h; cases h; exact absurd rfl (hq _ _)
  | answered c q net' h =>
    rw [hnet] at h; cases h
    have hch := challenge_cases cfg (.generic ['#' :: zeros])
      ⟨net, true, inbox, w.trace ++ [.connected, .got .ack, .sent (sessionFrame cfg), .got (.generic ['#' :: zeros])]⟩ rfl
    generalize challenge cfg (.generic ['#' :: zeros]) ⟨net, true, inbox,
      w.trace ++ [.connected, .got .ack, .sent (sessionFrame cfg), .got (.generic ['#' :: zeros])]⟩ = r at *
    cases hch with
    | free h => cases h
    | open_error nonce' e' hc' he' => cases hc'; rw [he] at he'; cases he'
    | open_answer nonce' enc' hc' he' =>
      cases hc'
      rw [he] at he'; cases he'
      have : Tame awaitAck := .bind .read fun _ => .ite (.raise _) (.pure _)
      refine List.IsPrefix.trans ?_ (this.mono _)
      simp [sessionFrame]
    | hmac _ _ _ hc' _ => cases hc'
    | unsupported _ _ hc' _ => cases hc'
    | other _ _ _ hc' _ _ => cases hc'
    | empty hc' => cases hc'

/-- The password and the challenge of the project's test. -/
example (lib : Lib) : ∃ h a, start ⟨cs!"12345", .command, lib, []⟩
      ⟨[some [.msg .ack, .msg (.generic [cs!"#844308954"]), .msg .ack]], false, [], []⟩ =
        (.ok (), ⟨[], true, [], [] ++ h⟩) ∧
      Plays (OpenGateway 12345#32 cs!"844308954") h ∧ Numeral a 4294506975 ∧
      written h = [cs!"*99*9##", frame ['#' :: a]] := by
  have := C88_login_succeeds ⟨cs!"12345", .command, lib, []⟩
    ⟨[some [.msg .ack, .msg (.generic [cs!"#844308954"]), .msg .ack]], false, [], []⟩ cs!"844308954"
    (show cs!"12345" ≠ [] by decide) (show Digits cs!"12345" by decide) (show 5 ≤ 4300 by decide)
    (show value cs!"12345" < 2 ^ 32 by decide) (by decide) ⟨'8', by simp, by decide⟩ [] [] rfl
  rw [show BitVec.ofNat 32 (value cs!"12345") = 12345#32 by decide +kernel,
    show (Open.answer 12345#32 cs!"844308954").toNat = 4294506975 by decide +kernel] at this
  exact this

/-- A gateway with another password. -/
example (lib : Lib) (w : World) (h : List CAct)
    (ht : (start ⟨cs!"12345", .command, lib, []⟩ w).2.trace = w.trace ++ h)
    (hplay : Plays (OpenGateway 54321#32 cs!"844308954") h)
    (hin : (start ⟨cs!"12345", .command, lib, []⟩ w).1 ≠ .error .timeoutError) :
    (start ⟨cs!"12345", .command, lib, []⟩ w).1 = .error .invalidAuthentication :=
  (C88_login_iff ⟨cs!"12345", .command, lib, []⟩ w 54321 cs!"844308954" (by decide) (show cs!"12345" ≠ [] by decide)
    (show Digits cs!"12345" by decide) (show 5 ≤ 4300 by decide) (show value cs!"12345" < 2 ^ 32 by decide) (by decide)
    ⟨'8', by simp, by decide⟩ h ht hplay hin).2.2 (show value cs!"12345" ≠ 54321 by decide)
