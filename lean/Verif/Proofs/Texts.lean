import Verif.Spec.Texts
import Verif.Proofs.Items
import Verif.Proofs.Handshake
import Verif.Props.Failure

/-! # The coroutines with texts against those without -/

open Py HmacAuth Spec

namespace Texts
open X
variable {α β : Type}

/-- `x` does what `y` does. -/
def Like (x : X α) (y : M α) : Prop := ∀ w, noText (x w).1 = (y w).1 ∧ (x w).2 = (y w).2

theorem bind_apply (x : X α) (f : α → X β) (w : World) :
    (x >>= f) w = match x w with
      | (.ok a, w') => f a w'
      | (.error e, w') => (.error e, w') := rfl

theorem Like.plain (y : M α) : Like (plain y) y := by
  intro w
  unfold X.plain
  rcases y w with ⟨e | a, w'⟩ <;> exact ⟨rfl, rfl⟩

theorem Like.pure (a : α) : Like (Pure.pure a : X α) (Pure.pure a) := fun _ => ⟨rfl, rfl⟩

theorem Like.raise (e : Err) (t : Str) : Like (X.raise e t : X α) (M.raise e) := fun _ => ⟨rfl, rfl⟩

theorem Like.bind {x : X α} {y : M α} {f : α → X β} {g : α → M β} (h : Like x y) (hf : ∀ a, Like (f a) (g a)) :
    Like (x >>= f) (y >>= g) := by
  intro w
  have hw := h w
  rw [bind_apply, M.bind_apply]
  generalize x w = p at hw ⊢
  generalize y w = q at hw ⊢
  obtain ⟨e | a, w1⟩ := p <;> obtain ⟨e' | a', w2⟩ := q <;> simp only [noText] at hw
  · obtain ⟨h1, rfl⟩ := hw
    cases h1
    exact ⟨rfl, rfl⟩
  · cases hw.1
  · cases hw.1
  · obtain ⟨h1, rfl⟩ := hw
    cases h1
    exact hf _ _

theorem Like.ite {c : Prop} [Decidable c] {x x' : X α} {y y' : M α} (h : Like x y) (h' : Like x' y') :
    Like (if c then x else x') (if c then y else y') := by
  split_ifs <;> assumption

theorem like_connect : Like connect Client.connect := by
  intro w
  unfold connect
  rcases Client.connect w with ⟨e | a, w'⟩ <;> exact ⟨rfl, rfl⟩

theorem like_send (cfg : Config) (m : Msg) (f : Bool) : Like (sendMessage cfg m f) (Client.sendMessage cfg m f) := by
  intro w
  unfold sendMessage Client.sendMessage
  split_ifs
  · exact ⟨rfl, rfl⟩
  · exact ⟨rfl, rfl⟩
  · cases m.bytes <;> exact ⟨rfl, rfl⟩

theorem like_read : Like readMessage Client.readMessage := by
  intro w
  unfold readMessage Client.readMessage
  split_ifs
  · exact ⟨rfl, rfl⟩
  · rcases w.inbox with _ | ⟨_ | _, r⟩ <;> exact ⟨rfl, rfl⟩

theorem like_openAnswer (pw nonce : Str) : Like (openAnswer pw nonce) (M.lift (OpenAuth.ownCalcPassStr pw nonce)) := by
  intro w
  unfold openAnswer OpenAuth.ownCalcPassStr
  cases h : pyInt pw with
  | error e => exact ⟨rfl, rfl⟩
  | ok n => exact Like.plain (M.lift (OpenAuth.ownCalcPass n nonce)) w

theorem like_open (cfg : Config) (nonce : Str) : Like (authenticateOpen cfg nonce) (Client.authenticateOpen cfg nonce) :=
  Like.bind (like_openAnswer _ _) fun _ => Like.bind (like_send _ _ _) fun _ => Like.bind like_read fun _ =>
    Like.ite (Like.raise _ _) (Like.pure _)

theorem like_hmacWith (cfg : Config) (alg : Alg) :
    Like (authenticateHmacWith cfg alg) (Client.authenticateHmacWith cfg alg) :=
  Like.bind (like_send _ _ _) fun _ => Like.bind like_read fun _ => Like.bind (Like.plain _) fun _ =>
  Like.bind (Like.plain _) fun _ => Like.bind (Like.plain _) fun _ => Like.bind (Like.plain _) fun _ =>
  Like.bind (Like.plain _) fun _ => Like.bind (Like.plain _) fun _ => Like.bind (like_send _ _ _) fun _ =>
  Like.bind like_read fun _ => Like.ite (Like.raise _ _)
    (Like.bind (Like.plain _) fun _ => Like.bind (Like.plain _) fun _ => Like.bind (Like.plain _) fun _ =>
      Like.ite (Like.raise _ _) (like_send _ _ _))

theorem like_hmac (cfg : Config) (tag : Str) : Like (authenticateHmac cfg tag) (Client.authenticateHmac cfg tag) := by
  unfold authenticateHmac Client.authenticateHmac
  cases Alg.fromString tag
  · exact Like.bind (like_send _ _ _) fun _ => Like.raise _ _
  · exact like_hmacWith _ _

theorem like_handshake (cfg : Config) : Like (handshake cfg) (Client.handshake cfg) :=
  Like.bind like_read fun _ => Like.ite (Like.raise _ _) (Like.bind (Like.plain _) fun _ =>
    Like.bind (like_send _ _ _) fun _ => Like.bind like_read fun _ =>
      Like.ite (Like.pure _) (Like.ite (Like.bind (Like.plain _) fun _ => like_open _ _)
        (Like.bind (Like.plain _) fun _ => Like.ite (Like.bind (Like.plain _) fun _ => like_hmac _ _) (Like.raise _ _))))

theorem like_start (cfg : Config) : Like (start cfg) (Client.start cfg) :=
  Like.bind like_connect fun _ => like_handshake cfg

theorem like_command (cfg : Config) (m : Msg) : Like (command cfg m) (Item.command cfg m) :=
  Like.bind (like_send _ _ _) fun _ => Like.bind like_read fun _ => Like.ite (Like.raise _ _) (Like.pure _)

theorem like_nextReply (k : Kind) : Like (nextReply k) (Item.nextReply k.want) := by
  intro w
  unfold nextReply Item.nextReply
  refine Like.bind like_read (fun r => ?_) w
  intro w
  rw [bind_apply]
  unfold checkNack
  split_ifs <;> exact ⟨rfl, rfl⟩

theorem drain_error {want : Msg → Bool} {body : Msg → Except Err (List β)} {w w1 : World} {e : Err}
    (hq : Item.nextReply want w = (.error e, w1)) : Item.drain want body w = (([], .error e), w1) := by
  rw [Item.drain]
  split <;> rename_i h' <;> rw [hq] at h' <;> cases h'
  rfl

theorem drain_none {want : Msg → Bool} {body : Msg → Except Err (List β)} {w w1 : World}
    (hq : Item.nextReply want w = (.ok none, w1)) : Item.drain want body w = (([], .ok ()), w1) := by
  rw [Item.drain]
  split <;> rename_i h' <;> rw [hq] at h' <;> cases h'
  rfl

theorem drain_some {want : Msg → Bool} {body : Msg → Except Err (List β)} {w w1 : World} {m : Msg}
    (hq : Item.nextReply want w = (.ok (some m), w1)) :
    Item.drain want body w = match body m with
      | .error e => (([], .error e), w1)
      | .ok ys => ((ys ++ (Item.drain want body w1).1.1, (Item.drain want body w1).1.2), (Item.drain want body w1).2) := by
  conv => lhs; rw [Item.drain]
  split <;> rename_i h' <;> rw [hq] at h' <;> cases h'
  rfl

theorem like_drain (k : Kind) (body : Msg → Except Err (List β)) (n : Nat) (w : World) (hn : w.inbox.length < n) :
    (drain k body n w).1.1 = (Item.drain k.want body w).1.1 ∧
    noText (drain k body n w).1.2 = (Item.drain k.want body w).1.2 ∧
    (drain k body n w).2 = (Item.drain k.want body w).2 := by
  induction n generalizing w with
  | zero => omega
  | succ n ih =>
    have hl := like_nextReply k w
    unfold drain
    generalize nextReply k w = p at hl ⊢
    obtain ⟨e | _ | m, w1⟩ := p <;> simp only [noText] at hl
    · rw [drain_error (Prod.ext hl.1.symm hl.2.symm)]
      exact ⟨rfl, rfl, rfl⟩
    · rw [drain_none (Prod.ext hl.1.symm hl.2.symm)]
      exact ⟨rfl, rfl, rfl⟩
    · have hq : Item.nextReply k.want w = (.ok (some m), w1) := Prod.ext hl.1.symm hl.2.symm
      have hs := Item.nextReply_shrinks hq
      obtain ⟨i1, i2, i3⟩ := ih w1 (by omega)
      rw [drain_some hq]
      dsimp only
      cases body m with
      | error e => exact ⟨rfl, rfl, rfl⟩
      | ok ys => exact ⟨by dsimp only; rw [i1], i2, i3⟩

theorem like_stream (cfg : Config) (q : Msg) (k : Kind) (body : Msg → Except Err (List β)) (w : World) :
    (stream cfg q k body w).1.1 = (Item.stream cfg q k.want body w).1.1 ∧
    noText (stream cfg q k body w).1.2 = (Item.stream cfg q k.want body w).1.2 ∧
    (stream cfg q k body w).2 = (Item.stream cfg q k.want body w).2 := by
  have hl := like_send cfg q false w
  unfold stream Item.stream
  generalize sendMessage cfg q false w = p at hl ⊢
  generalize Client.sendMessage cfg q false w = p' at hl ⊢
  obtain ⟨e | a, w1⟩ := p <;> obtain ⟨e' | a', w2⟩ := p' <;> simp only [noText] at hl
  · obtain ⟨h1, rfl⟩ := hl
    cases h1
    exact ⟨rfl, rfl, rfl⟩
  · cases hl.1
  · cases hl.1
  · obtain ⟨_, rfl⟩ := hl
    exact like_drain k body _ w1 (by omega)

theorem like_single (cfg : Config) (i : Item) (dim : Tag) : Like (singleDimReq cfg i dim) (Item.singleDimReq cfg i dim) := by
  intro w
  have hl := like_stream cfg (i.requestMessage dim) .dimension (fun m => .ok [m]) w
  unfold singleDimReq Item.singleDimReq Item.dimStream
  rw [show Msg.isDimResp = Kind.dimension.want from rfl]
  generalize stream cfg (i.requestMessage dim) .dimension (fun m => .ok [m]) w = p at hl ⊢
  generalize Item.stream cfg (i.requestMessage dim) Kind.dimension.want (fun m => .ok [m]) w = p' at hl ⊢
  obtain ⟨⟨l, r⟩, w1⟩ := p
  obtain ⟨⟨l', r'⟩, w2⟩ := p'
  obtain ⟨h1, h2, h3⟩ := hl
  dsimp only at h1 h2 h3
  subst h1 h2 h3
  rcases r with e | u
  · exact ⟨rfl, rfl⟩
  · cases l <;> exact ⟨rfl, rfl⟩

/-! ## Texts that quote -/

theorem quoting_inj {r r' : Msg} {x x' : Str} {m m' : Msg} (hx : Called x m) (hx' : Called x' m')
    (h : quoting r x = quoting r' x') : r.str = r'.str ∧ x = x' := by
  unfold quoting at h
  have h' := congrArg List.reverse h
  cases hx <;> cases hx' <;>
    first
    | (refine ⟨?_, rfl⟩; simpa using h)
    | (exfalso; simp at h')

/-! ## The course of `start` -/

theorem bind_ok {x : X α} {f : α → X β} {w w' : World} {a : α} (h : x w = (.ok a, w')) : (x >>= f) w = f a w' := by
  rw [bind_apply, h]

theorem bind_error {x : X α} {f : α → X β} {w w' : World} {e : Raised} (h : x w = (.error e, w')) :
    (x >>= f) w = (.error e, w') := by
  rw [bind_apply, h]

theorem plain_bind_ok {f : α → X β} {w : World} {a : α} : (plain (M.lift (.ok a)) >>= f) w = f a w := rfl
theorem plain_bind_error {f : α → X β} {w : World} {e : Err} :
    (plain (M.lift (.error e)) >>= f) w = (.error ⟨e, own e⟩, w) := rfl

theorem send_force {cfg : Config} {w : World} {m : Msg} (hs : w.started = true) (h : ∀ t ∈ m.tags, TagText t) :
    sendMessage cfg m true w = (.ok (), { w with trace := w.trace ++ [.sent m.str] }) := by
  obtain ⟨b, hb⟩ := Client.bytes_ok h
  unfold sendMessage
  simp [hs, hb]

theorem read_cases {w : World} (hs : w.started = true) :
    (∃ m rest, w.inbox = .msg m :: rest ∧
      readMessage w = (.ok m, { w with inbox := rest, trace := w.trace ++ [.got m] })) ∨
    (readMessage w = (.error ⟨.timeoutError, none⟩, { w with inbox := w.inbox.drop 1 })) := by
  unfold readMessage
  rw [hs]
  rcases hi : w.inbox with _ | ⟨m | _, rest⟩
  · right; cases w; simp_all
  · exact .inl ⟨m, rest, rfl, rfl⟩
  · exact .inr rfl

/-- A piece of `start` from a connected client: what happened, and how it ended. -/
def Runs (x : X Unit) (P : List CAct → Except Raised Unit → Prop) : Prop :=
  ∀ w, w.started = true → ∃ acts, (x w).2.trace = w.trace ++ acts ∧ P acts (x w).1

theorem Runs.mono {x : X Unit} {P Q : List CAct → Except Raised Unit → Prop} (h : Runs x P) (hpq : ∀ a r, P a r → Q a r) :
    Runs x Q := by
  intro w hw
  obtain ⟨a, h1, h2⟩ := h w hw
  exact ⟨a, h1, hpq _ _ h2⟩

theorem Runs.send {cfg : Config} {m : Msg} (h : ∀ t ∈ m.tags, TagText t) {f : Unit → X Unit}
    {P : List CAct → Except Raised Unit → Prop} (hf : Runs (f ()) P) :
    Runs (sendMessage cfg m true >>= f) (fun a r => ∃ a', a = .sent m.str :: a' ∧ P a' r) := by
  intro w hw
  rw [bind_ok (send_force hw h)]
  obtain ⟨a, h1, h2⟩ := hf { w with trace := w.trace ++ [.sent m.str] } hw
  exact ⟨.sent m.str :: a, by rw [h1]; simp, a, rfl, h2⟩

theorem Runs.read {f : Msg → X Unit} {P : Msg → List CAct → Except Raised Unit → Prop} (hf : ∀ m, Runs (f m) (P m)) :
    Runs (readMessage >>= f) (fun a r => (a = [] ∧ r = .error ⟨.timeoutError, none⟩) ∨ ∃ m a', a = .got m :: a' ∧ P m a' r) := by
  intro w hw
  rcases read_cases hw with ⟨m, rest, _, h⟩ | h
  · rw [bind_ok h]
    obtain ⟨a, h1, h2⟩ := hf m { w with inbox := rest, trace := w.trace ++ [.got m] } hw
    exact ⟨.got m :: a, by rw [h1]; simp, .inr ⟨m, a, rfl, h2⟩⟩
  · rw [bind_error h]
    exact ⟨[], by simp, .inl ⟨rfl, rfl⟩⟩

theorem Runs.raise (e : Err) (t : Str) : Runs (X.raise e t) (fun a r => a = [] ∧ r = .error ⟨e, some t⟩) :=
  fun w _ => ⟨[], by simp [X.raise], rfl, rfl⟩

theorem Runs.pure : Runs (Pure.pure ()) (fun a r => a = [] ∧ r = .ok ()) :=
  fun w _ => ⟨[], by simp [Pure.pure, X.pure], rfl, rfl⟩

/-- An exception that is not about authentication, and what it may say. -/
def Other (cfg : Config) (r : Except Raised Unit) : Prop :=
  ∃ e t, r = .error ⟨e, t⟩ ∧ e ≠ .invalidAuthentication ∧
    (t = none ∨ t = some cs!"Could not connect to the server" ∨
      (t = intText cfg.password ∧ pyInt cfg.password = .error .valueError))

theorem fromHex_error {s : Str} {e : Err} (h : fromHex s = .error e) : e = .valueError := by
  induction hn : s.length using Nat.strong_induction_on generalizing s e with
  | _ n ih =>
    unfold fromHex at h
    split at h
    · cases h
    · split_ifs at h
      · exact ih _ (by subst hn; simp) h rfl
      · split at h
        · cases h; rfl
        · rename_i d t
          split at h
          · cases ht : fromHex t with
            | error e' =>
              rw [ht] at h; cases h
              exact ih _ (by subst hn; simp; omega) ht rfl
            | ok x => rw [ht] at h; cases h
          · cases h; rfl

theorem hexToDigits_error {lib : Lib} {s : Str} {e : Err} (h : hexToDigits lib s = .error e) : e = .valueError := by
  unfold hexToDigits at h
  generalize ([] : Str) = out at h
  induction s generalizing out with
  | nil => cases h
  | cons c s ih =>
    unfold hexToDigitsLoop at h
    cases hc : intChar16 lib c with
    | error e' =>
      rw [hc] at h; cases h
      unfold intChar16 intChar at hc
      split_ifs at hc
      · cases hc; rfl
      · split at hc <;> cases hc; rfl
    | ok v => rw [hc] at h; exact ih _ h

theorem index_error {l : List α} {n : Nat} {e : Err} (h : index l n = .error e) : e = .indexError := by
  unfold index at h
  split at h <;> cases h; rfl

theorem runs_open (cfg : Config) (nonce : Str) :
    Runs (authenticateOpen cfg nonce) (fun a r =>
      (a = [] ∧ Other cfg r) ∨ ∃ enc, OpenAuth.ownCalcPassStr cfg.password nonce = .ok enc ∧
        ((a = [.sent (frame ['#' :: enc])] ∧ Other cfg r) ∨ ∃ m, a = [.sent (frame ['#' :: enc]), .got m] ∧
          ((m ≠ .ack ∧ r = .error ⟨.invalidAuthentication, some cs!"Invalid password"⟩) ∨ (m = .ack ∧ r = .ok ())))) := by
  intro w hw
  have hl := like_openAnswer cfg.password nonce w
  unfold authenticateOpen
  cases ho : OpenAuth.ownCalcPassStr cfg.password nonce with
  | error e =>
    rw [ho] at hl
    rcases ha : openAnswer cfg.password nonce w with ⟨e' | a, w'⟩ <;> rw [ha] at hl
    · rw [bind_error ha]
      simp only [noText, M.lift, Except.error.injEq] at hl
      obtain ⟨h1, rfl⟩ := hl
      refine ⟨[], by simp, .inl ⟨rfl, e'.err, e'.text, rfl, ?_, .inr (.inr ⟨?_, (ownCalcPassStr_error ho).2⟩)⟩⟩
      · rw [h1, (ownCalcPassStr_error ho).1]
        simp
      · unfold openAnswer at ha
        rw [(ownCalcPassStr_error ho).2] at ha
        cases ha
        rfl
    · cases hl.1
  | ok enc =>
    rw [ho] at hl
    rcases ha : openAnswer cfg.password nonce w with ⟨e' | a, w'⟩ <;> rw [ha] at hl
    · cases hl.1
    · rw [bind_ok ha]
      simp only [noText, M.lift, Except.ok.injEq] at hl
      obtain ⟨rfl, rfl⟩ := hl
      have ht : ∀ t ∈ (Msg.generic [cs!"#" ++ a]).tags, TagText t := by
        intro t ht
        simp [Msg.tags] at ht
        subst ht
        exact Client.hash_tagText (Client.open_tagText ho)
      have hf : ∀ m : Msg, Runs (if m.type ≠ .ack then X.raise .invalidAuthentication cs!"Invalid password" else Pure.pure ())
          (fun a r => a = [] ∧
            ((m ≠ .ack ∧ r = .error ⟨.invalidAuthentication, some cs!"Invalid password"⟩) ∨ (m = .ack ∧ r = .ok ()))) := by
        intro m
        by_cases hm : m = .ack
        · rw [if_neg (by rw [not_not, Client.type_ack]; exact hm)]
          exact Runs.pure.mono fun _ _ h => ⟨h.1, .inr ⟨hm, h.2⟩⟩
        · rw [if_pos (by rw [Ne, Client.type_ack]; exact hm)]
          exact (Runs.raise _ _).mono fun _ _ h => ⟨h.1, .inl ⟨hm, h.2⟩⟩
      have hr := Runs.send (cfg := cfg) (f := fun _ => readMessage >>= fun m =>
        if m.type ≠ .ack then X.raise .invalidAuthentication cs!"Invalid password" else Pure.pure ()) ht (Runs.read hf)
      obtain ⟨acts, h1, a', rfl, h2⟩ := hr w' hw
      have e : (Msg.generic [cs!"#" ++ a]).str = frame ['#' :: a] := by simp [Msg.str, frame, body, join]
      rw [e] at h1
      refine ⟨_, h1, .inr ⟨a, rfl, ?_⟩⟩
      rcases h2 with ⟨rfl, h2⟩ | ⟨m, _, rfl, rfl, h2⟩
      · exact .inl ⟨rfl, .timeoutError, none, h2, by simp, .inl rfl⟩
      · exact .inr ⟨m, rfl, h2⟩

theorem Runs.lift {e : Except Err α} {f : α → X Unit} {P : List CAct → Except Raised Unit → Prop}
    (ho : ∀ a, e = .ok a → Runs (f a) P) (he : ∀ x, e = .error x → P [] (.error ⟨x, own x⟩)) :
    Runs (plain (M.lift e) >>= f) P := by
  cases e with
  | ok a => exact ho a rfl
  | error x => exact fun w _ => ⟨[], by rw [plain_bind_error]; simp, by rw [plain_bind_error]; exact he x rfl⟩

/-- How the wait for the gateway's proof ends. -/
def Confirmed (cfg : Config) (expected : Bytes) (a : List CAct) (r : Except Raised Unit) : Prop :=
  (a = [] ∧ Other cfg r) ∨ ∃ m,
    (m = .nack ∧ a = [.got m] ∧ r = .error ⟨.invalidAuthentication, some cs!"Invalid password"⟩) ∨
    (m ≠ .nack ∧ (∀ tag proof, m.tags.head? = some tag → ¬ Accepts cfg.lib tag proof) ∧ a = [.got m] ∧ Other cfg r) ∨
    (∃ tag proof, m ≠ .nack ∧ m.tags.head? = some tag ∧ Accepts cfg.lib tag proof ∧ proof ≠ expected ∧ a = [.got m] ∧
      r = .error ⟨.invalidAuthentication, some cs!"Invalid password"⟩) ∨
    (m ≠ .nack ∧ a = [.got m, .sent (frame [cs!"#", cs!"1"])] ∧ r = .ok ())

theorem runs_confirm (cfg : Config) (expected : Bytes) :
    Runs (readMessage >>= fun resp =>
      if resp.type = .nack then X.raise .invalidAuthentication cs!"Invalid password"
      else do
        let tag ← plain (M.lift (index resp.tags 0))
        let digits ← plain (M.lift (hexToDigits cfg.lib tag))
        let confirmation ← plain (M.lift (fromHex digits))
        if compareHmac expected confirmation = false then X.raise .invalidAuthentication cs!"Invalid password"
        else sendMessage cfg .ack true) (Confirmed cfg expected) := by
  refine (Runs.read (P := fun m a r => Confirmed cfg expected (.got m :: a) r) ?_).mono ?_
  · intro m
    by_cases hm : m = .nack
    · rw [if_pos (Client.type_nack.2 hm)]
      exact (Runs.raise _ _).mono fun a r ⟨h1, h2⟩ => .inr ⟨m, .inl ⟨hm, by rw [h1], h2⟩⟩
    · rw [if_neg (by rw [Client.type_nack]; exact hm)]
      refine Runs.lift (fun tag ht => ?_) (fun x hx => ?_)
      · have ht' := Client.index_zero.1 ht
        refine Runs.lift (fun d hd => ?_) (fun x hx => ?_)
        · refine Runs.lift (fun b hb => ?_) (fun x hx => ?_)
          · split_ifs with hc
            · refine (Runs.raise _ _).mono fun a r ⟨h1, h2⟩ => .inr ⟨m, .inr (.inr (.inl ⟨tag, b, hm, ht', ⟨d, hd, hb⟩, ?_, ?_, h2⟩))⟩
              · rintro rfl
                simp [compareHmac] at hc
              · rw [h1]
            · intro w hw
              rw [send_force hw Client.ack_valid]
              exact ⟨[.sent (frame [cs!"#", cs!"1"])], rfl, .inr ⟨m, .inr (.inr (.inr ⟨hm, rfl, rfl⟩))⟩⟩
          · refine .inr ⟨m, .inr (.inl ⟨hm, ?_, rfl, _, _, rfl, by rw [fromHex_error hx]; simp, .inl (by rw [fromHex_error hx]; rfl)⟩)⟩
            rintro tag' proof h ⟨d', hd', hp⟩
            rw [ht'] at h; cases h
            rw [hd] at hd'; cases hd'
            rw [hx] at hp; cases hp
        · refine .inr ⟨m, .inr (.inl ⟨hm, ?_, rfl, _, _, rfl, by rw [hexToDigits_error hx]; simp, .inl (by rw [hexToDigits_error hx]; rfl)⟩)⟩
          rintro tag' proof h ⟨d', hd', hp⟩
          rw [ht'] at h; cases h
          rw [hx] at hd'; cases hd'
      · refine .inr ⟨m, .inr (.inl ⟨hm, ?_, rfl, _, _, rfl, by rw [index_error hx]; simp, .inl (by rw [index_error hx]; rfl)⟩)⟩
        intro tag' proof h
        rw [← Client.index_zero, hx] at h; cases h
  · rintro a r (⟨rfl, rfl⟩ | ⟨m, a', rfl, h⟩)
    · exact .inl ⟨rfl, _, _, rfl, by simp, .inl rfl⟩
    · exact h

/-- How the exchange of keys ends. -/
def Exchanged (cfg : Config) (alg : Alg) (a : List CAct) (r : Except Raised Unit) : Prop :=
  (a = [.sent (frame [cs!"#", cs!"1"])] ∧ Other cfg r) ∨ ∃ k,
    (a = [.sent (frame [cs!"#", cs!"1"]), .got k] ∧ Other cfg r) ∨
    ∃ ra a', k.tags.head? = some ra ∧ a = .sent (frame [cs!"#", cs!"1"]) :: .got k :: .sent (proofFrame cfg alg ra) :: a' ∧
      Confirmed cfg (serverProof cfg alg ra) a' r

theorem runs_hmacWith (cfg : Config) (alg : Alg) : Runs (authenticateHmacWith cfg alg) (Exchanged cfg alg) := by
  unfold authenticateHmacWith
  have key : ∀ k : Msg, Runs (do
      let serverKey ← plain (M.lift (index k.tags 0))
      let clientKey ← plain (M.lift (createKey cfg.lib cfg.token alg.value))
      let clientAuth ← plain (M.lift (clientHmac cfg.lib serverKey clientKey cfg.password
        defaultClientIdentity defaultServerIdentity alg.value))
      let serverAuth ← plain (M.lift (serverHmac cfg.lib serverKey clientKey cfg.password alg.value))
      let d1 ← plain (M.lift (hexToDigits cfg.lib clientKey))
      let d2 ← plain (M.lift (hexToDigits cfg.lib (hexdigest clientAuth)))
      sendMessage cfg (.generic [d1, d2]) true
      let resp ← readMessage
      if resp.type = .nack then X.raise .invalidAuthentication cs!"Invalid password"
      else do
        let tag ← plain (M.lift (index resp.tags 0))
        let digits ← plain (M.lift (hexToDigits cfg.lib tag))
        let confirmation ← plain (M.lift (fromHex digits))
        if compareHmac serverAuth confirmation = false then X.raise .invalidAuthentication cs!"Invalid password"
        else sendMessage cfg .ack true)
      (fun a r => (a = [] ∧ Other cfg r) ∨ ∃ ra a', k.tags.head? = some ra ∧ a = .sent (proofFrame cfg alg ra) :: a' ∧
        Confirmed cfg (serverProof cfg alg ra) a' r) := by
    intro k
    refine Runs.lift (fun ra ht => ?_) (fun x hx => .inl ⟨rfl, _, _, rfl, by rw [index_error hx]; simp, .inl (by rw [index_error hx]; rfl)⟩)
    have ht' := Client.index_zero.1 ht
    have k1 : createKey cfg.lib cfg.token alg.value = .ok (clientKey cfg alg) := by
      unfold createKey clientKey
      rw [hashFunction_value, ok_bind, hexdigest_eq]; rfl
    have k2 : hexToDigits cfg.lib (clientKey cfg alg) =
        .ok (Hex.transcription (nibblesOf (hashOf cfg.lib alg cfg.token))) :=
      hexToDigits_text cfg.lib (Client.hexText_text _)
    intro w hw
    rw [k1, plain_bind_ok, C27_client_partial, plain_bind_ok, C27_server_partial, plain_bind_ok, k2, plain_bind_ok,
      hexdigest_eq, hexToDigits_text cfg.lib (Client.hexText_text _), plain_bind_ok]
    have hv : ∀ t ∈ (Msg.generic [Hex.transcription (nibblesOf (hashOf cfg.lib alg cfg.token)),
        Hex.transcription (nibblesOf (clientProof cfg alg ra))]).tags, TagText t := by
      intro t ht
      simp [Msg.tags] at ht
      rcases ht with rfl | rfl <;> exact Client.transcription_tagText _
    obtain ⟨acts, h1, a', rfl, h2⟩ := Runs.send (cfg := cfg) (f := fun _ => _) hv (runs_confirm cfg (serverProof cfg alg ra)) w hw
    refine ⟨_, h1, .inr ⟨ra, a', ht', ?_, h2⟩⟩
    simp [proofFrame, Msg.str, frame, body, join]
  intro w hw
  obtain ⟨acts, h1, a', rfl, h2⟩ := Runs.send (cfg := cfg) (f := fun _ => _) Client.ack_valid (Runs.read key) w hw
  refine ⟨_, h1, ?_⟩
  rcases h2 with ⟨rfl, h⟩ | ⟨k, a'', rfl, ⟨rfl, h⟩ | ⟨ra, b, hk, rfl, h⟩⟩
  · exact .inl ⟨rfl, _, _, h, by simp, .inl rfl⟩
  · exact .inr ⟨k, .inl ⟨rfl, h⟩⟩
  · exact .inr ⟨k, .inr ⟨ra, b, hk, rfl, h⟩⟩

/-- How a login ends once the connection is up: after `acts` as `LoginFailure` has them, or in another way. -/
def Ends (cfg : Config) (acts : List CAct) (r : Except Raised Unit) : Prop :=
  (∃ t, LoginFailure cfg acts t ∧ r = .error ⟨.invalidAuthentication, some t⟩) ∨
    ((∀ t, ¬ LoginFailure cfg acts t) ∧ (r = .ok () ∨ Other cfg r))

theorem failure_iff (cfg : Config) (acts : List CAct) (t : Str) :
    LoginFailure cfg acts t ↔
      (∃ m, m ≠ .ack ∧ acts = [.connected, .got m] ∧ t = cs!"Expected ACK message") ∨
      ∃ c rest, acts = opening cfg c ++ rest ∧ (
        (rest = [] ∧ c ≠ .ack ∧ (∃ first second more, c.tags = first :: second :: more ∧ first ≠ cs!"98") ∧
          t = cs!"Invalid authentication response") ∨
        (rest = [.sent (frame [cs!"#", cs!"0"])] ∧
          (∃ name more, c.tags = cs!"98" :: name :: more ∧ ∀ alg, ¬ Announces name alg) ∧ t = cs!"Invalid hash algorithm") ∨
        (∃ nonce enc r, c.tags = [nonce] ∧ OpenAuth.ownCalcPassStr cfg.password nonce = .ok enc ∧ r ≠ .ack ∧
          rest = [.sent (frame ['#' :: enc]), .got r] ∧ t = cs!"Invalid password") ∨
        (∃ name more alg k ra r, c.tags = cs!"98" :: name :: more ∧ Announces name alg ∧ k.tags.head? = some ra ∧
          (r = .nack ∨ ∃ tag proof, r ≠ .nack ∧ r.tags.head? = some tag ∧ Accepts cfg.lib tag proof ∧
            proof ≠ serverProof cfg alg ra) ∧
          rest = [.sent (frame [cs!"#", cs!"1"]), .got k, .sent (proofFrame cfg alg ra), .got r] ∧
          t = cs!"Invalid password")) := by
  constructor
  · intro h
    cases h with
    | greeting m hm => exact .inl ⟨m, hm, rfl, rfl⟩
    | answer c hc f s more ht hf => exact .inr ⟨c, [], by simp, .inl ⟨rfl, hc, ⟨f, s, more, ht, hf⟩, rfl⟩⟩
    | algorithm c name more ht hn => exact .inr ⟨c, _, rfl, .inr (.inl ⟨rfl, ⟨name, more, ht, hn⟩, rfl⟩)⟩
    | password c r nonce enc ht he hr => exact .inr ⟨c, _, rfl, .inr (.inr (.inl ⟨nonce, enc, r, ht, he, hr, rfl, rfl⟩))⟩
    | refused c k name more alg ra ht ha hk =>
      exact .inr ⟨c, _, rfl, .inr (.inr (.inr ⟨name, more, alg, k, ra, .nack, ht, ha, hk, .inl rfl, rfl, rfl⟩))⟩
    | unproven c k r name more alg ra tag proof ht ha hk hr hg hp hne =>
      exact .inr ⟨c, _, rfl, .inr (.inr (.inr ⟨name, more, alg, k, ra, r, ht, ha, hk,
        .inr ⟨tag, proof, hr, hg, hp, hne⟩, rfl, rfl⟩))⟩
  · rintro (⟨m, hm, rfl, rfl⟩ | ⟨c, rest, rfl, ⟨rfl, hc, ⟨f, s, more, ht, hf⟩, rfl⟩ | ⟨rfl, ⟨name, more, ht, hn⟩, rfl⟩ |
      ⟨nonce, enc, r, ht, he, hr, rfl, rfl⟩ | ⟨name, more, alg, k, ra, r, ht, ha, hk, rfl | ⟨tag, proof, hr, hg, hp, hne⟩, rfl, rfl⟩⟩)
    · exact .greeting m hm
    · rw [List.append_nil]; exact .answer c hc f s more ht hf
    · exact .algorithm c name more ht hn
    · exact .password c r nonce enc ht he hr
    · exact .refused c k name more alg ra ht ha hk
    · exact .unproven c k r name more alg ra tag proof ht ha hk hr hg hp hne

theorem opening_inj {cfg : Config} {c c' : Msg} {rest rest' : List CAct} (h : opening cfg c ++ rest = opening cfg c' ++ rest') :
    c = c' ∧ rest = rest' := by
  simpa [opening] using h

/-- No failure begins like this. -/
theorem no_failure {cfg : Config} {c : Msg} {rest : List CAct}
    (h1 : rest = [] → c ≠ .ack → ∀ first second more, c.tags = first :: second :: more → first = cs!"98")
    (h2 : rest = [.sent (frame [cs!"#", cs!"0"])] → ∀ name more, c.tags = cs!"98" :: name :: more → ∃ alg, Announces name alg)
    (h3 : ∀ nonce enc r, c.tags = [nonce] → OpenAuth.ownCalcPassStr cfg.password nonce = .ok enc → r ≠ .ack →
      rest ≠ [.sent (frame ['#' :: enc]), .got r])
    (h4 : ∀ name more alg k ra r, c.tags = cs!"98" :: name :: more → Announces name alg → k.tags.head? = some ra →
      (r = .nack ∨ ∃ tag proof, r ≠ .nack ∧ r.tags.head? = some tag ∧ Accepts cfg.lib tag proof ∧
        proof ≠ serverProof cfg alg ra) →
      rest ≠ [.sent (frame [cs!"#", cs!"1"]), .got k, .sent (proofFrame cfg alg ra), .got r]) (t : Str) :
    ¬ LoginFailure cfg (opening cfg c ++ rest) t := by
  rw [failure_iff]
  rintro (⟨m, _, h, _⟩ | ⟨c', rest', h, hh⟩)
  · simp [opening] at h
  · obtain ⟨rfl, rfl⟩ := opening_inj h
    rcases hh with ⟨hr, hc, ⟨f, s, more, ht, hf⟩, _⟩ | ⟨hr, ⟨name, more, ht, hn⟩, _⟩ | ⟨nonce, enc, r, ht, he, hr, hrest, _⟩ |
      ⟨name, more, alg, k, ra, r, ht, ha, hk, hr, hrest, _⟩
    · exact hf (h1 hr hc f s more ht)
    · obtain ⟨alg, ha⟩ := h2 hr name more ht
      exact hn alg ha
    · exact h3 nonce enc r ht he hr hrest
    · exact h4 name more alg k ra r ht ha hk hr hrest

theorem announces_unique {name : Str} {a b : Alg} (h : Announces name a) (h' : Announces name b) : a = b := by
  cases a <;> cases b <;> simp_all [Announces]

/-- What the client makes of the answer to the session type. -/
def react (cfg : Config) (resp : Msg) : X Unit :=
  if resp.type = .ack then return ()
  else if resp.tags.length = 1 then do
    authenticateOpen cfg (← plain (M.lift (index resp.tags 0)))
  else do
    let first ← plain (M.lift (index resp.tags 0))
    if first = cs!"98" then do
      authenticateHmac cfg (← plain (M.lift (index resp.tags 1)))
    else X.raise .invalidAuthentication cs!"Invalid authentication response"

theorem runs_react (cfg : Config) (c : Msg) : Runs (react cfg c) (fun a r => Ends cfg (opening cfg c ++ a) r) := by
  unfold react
  by_cases hack : c = .ack
  · subst hack
    rw [if_pos (by rfl)]
    refine Runs.pure.mono ?_
    rintro a r ⟨rfl, rfl⟩
    refine .inr ⟨no_failure (fun _ h => absurd rfl h) (by simp) (by simp) (by simp), .inl rfl⟩
  rw [if_neg (by rw [Client.type_ack]; exact hack)]
  rcases ht : c.tags with _ | ⟨first, _ | ⟨second, more⟩⟩
  · -- no tags
    rw [if_neg (by simp)]
    refine Runs.lift (fun a h => by cases h) (fun x hx => .inr ⟨no_failure ?_ ?_ ?_ ?_, .inr ⟨_, _, rfl, by rw [index_error hx]; simp, .inl (by rw [index_error hx]; rfl)⟩⟩)
    all_goals simp [ht]
  · -- one tag
    rw [if_pos (by rfl)]
    refine Runs.lift (fun a h => ?_) (fun x hx => by cases hx)
    cases h
    refine (runs_open cfg first).mono ?_
    rintro a r (⟨rfl, ho⟩ | ⟨enc, he, ⟨rfl, ho⟩ | ⟨m, rfl, ⟨hm, rfl⟩ | ⟨rfl, rfl⟩⟩⟩)
    · exact .inr ⟨no_failure (by simp [ht]) (by simp) (by simp) (by simp), .inr ho⟩
    · exact .inr ⟨no_failure (by simp) (by simp [ht]) (by simp) (by simp), .inr ho⟩
    · exact .inl ⟨_, .password c m first enc ht he hm, rfl⟩
    · refine .inr ⟨no_failure (by simp) (by simp) ?_ (by simp), .inl rfl⟩
      intro n e r h1 h2 h3
      simp
      exact fun _ h => h3 h.symm
  · -- two tags and more
    rw [if_neg (by simp)]
    refine Runs.lift (fun a h => ?_) (fun x hx => by cases hx)
    cases h
    by_cases h98 : first = cs!"98"
    · subst h98
      rw [if_pos rfl]
      refine Runs.lift (fun a h => ?_) (fun x hx => by cases hx)
      cases h
      unfold authenticateHmac
      cases ha : Alg.fromString second with
      | error e =>
        have hn : ∀ alg, ¬ Announces second alg := by
          intro alg h
          rw [← Client.fromString_iff, ha] at h; cases h
        refine (Runs.send (cfg := cfg) (f := fun _ => _) Client.nack_valid (Runs.raise _ _)).mono ?_
        rintro a r ⟨_, rfl, rfl, rfl⟩
        exact .inl ⟨_, .algorithm c second more ht hn, rfl⟩
      | ok alg =>
        have hal := (Client.fromString_iff second alg).1 ha
        refine (runs_hmacWith cfg alg).mono ?_
        rintro a r (⟨rfl, ho⟩ | ⟨k, ⟨rfl, ho⟩ | ⟨ra, a', hk, rfl, hc⟩⟩)
        · exact .inr ⟨no_failure (by simp) (by simp [frame, body]) (by simp) (by simp), .inr ho⟩
        · exact .inr ⟨no_failure (by simp) (by simp) (by simp [ht]) (by simp), .inr ho⟩
        · rcases hc with ⟨rfl, ho⟩ | ⟨m, ⟨rfl, rfl, rfl⟩ | ⟨hm, hno, rfl, ho⟩ | ⟨tag, proof, hm, hg, hp, hne, rfl, rfl⟩ | ⟨hm, rfl, rfl⟩⟩
          · exact .inr ⟨no_failure (by simp) (by simp) (by simp) (by simp), .inr ho⟩
          · exact .inl ⟨_, .refused c k second more alg ra ht hal hk, rfl⟩
          · refine .inr ⟨no_failure (by simp) (by simp) (by simp) ?_, .inr ho⟩
            rintro name more' alg' k' ra' r' h1 h2 h3 h4 h5
            simp at h5
            obtain ⟨rfl, h5, rfl⟩ := h5
            rcases h4 with rfl | ⟨tag, proof, _, hg, hp, _⟩
            · exact hm rfl
            · exact hno tag proof hg hp
          · exact .inl ⟨_, .unproven c k m second more alg ra tag proof ht hal hk hm hg hp hne, rfl⟩
          · exact .inr ⟨no_failure (by simp) (by simp) (by simp) (by simp), .inl rfl⟩
    · rw [if_neg h98]
      refine (Runs.raise _ _).mono ?_
      rintro a r ⟨rfl, rfl⟩
      rw [List.append_nil]
      exact .inl ⟨_, .answer c hack first second more ht h98, rfl⟩

theorem start_ends (cfg : Config) (w : World) :
    ∃ acts, (start cfg w).2.trace = w.trace ++ acts ∧ Ends cfg acts (start cfg w).1 := by
  have none_ : ∀ {acts : List CAct} {r}, (∀ m, acts ≠ [.connected, .got m]) → (∀ c rest, acts ≠ opening cfg c ++ rest) →
      Other cfg r → Ends cfg acts r := by
    intro acts r h1 h2 ho
    refine .inr ⟨fun t h => ?_, .inr ho⟩
    rcases (failure_iff cfg acts t).1 h with ⟨m, _, h, _⟩ | ⟨c, rest, h, _⟩
    · exact h1 m h
    · exact h2 c rest h
  unfold start
  rw [bind_apply]
  unfold connect Client.connect
  rcases w.network with _ | ⟨_ | inbox, net⟩
  · exact ⟨[], by simp, none_ (by simp) (by simp [opening]) ⟨_, _, rfl, by simp, .inr (.inl rfl)⟩⟩
  · exact ⟨[], by simp, none_ (by simp) (by simp [opening]) ⟨_, _, rfl, by simp, .inr (.inl rfl)⟩⟩
  · dsimp only
    have hr : Runs (handshake cfg) (fun a r => Ends cfg (.connected :: a) r) := by
      unfold handshake
      refine (Runs.read (P := fun m a r => Ends cfg (.connected :: .got m :: a) r) ?_).mono ?_
      · intro m
        by_cases hm : m = .ack
        · subst hm
          rw [if_neg (by simp [Msg.type]), Client.toMessage_eq]
          intro w hw
          rw [plain_bind_ok]
          have hv : ∀ t ∈ (Msg.generic [cs!"99", cfg.session.value]).tags, TagText t := by
            cases cfg.session <;> simp only [Msg.tags, Session.value] <;> decide
          have e : (Msg.generic [cs!"99", cfg.session.value]).str = frame [cs!"99", cfg.session.value] := by
            simp [Msg.str, frame, body, join]
          obtain ⟨acts, h1, a', rfl, h2⟩ := Runs.send (cfg := cfg) (f := fun _ => _) hv (Runs.read (runs_react cfg)) w hw
          refine ⟨_, h1, ?_⟩
          rw [e]
          rcases h2 with ⟨rfl, h⟩ | ⟨c, a'', rfl, h⟩
          · exact none_ (by simp) (by simp [opening]) ⟨_, _, h, by simp, .inl rfl⟩
          · exact h
        · rw [if_pos (by rw [Ne, Client.type_ack]; exact hm)]
          refine (Runs.raise _ _).mono ?_
          rintro a r ⟨rfl, rfl⟩
          exact .inl ⟨_, .greeting m hm, rfl⟩
      · rintro a r (⟨rfl, rfl⟩ | ⟨m, a', rfl, h⟩)
        · exact none_ (by simp) (by simp [opening]) ⟨_, _, rfl, by simp, .inl rfl⟩
        · exact h
    obtain ⟨acts, h1, h2⟩ := hr { w with network := net, started := true, inbox := inbox, trace := w.trace ++ [.connected] } rfl
    exact ⟨.connected :: acts, by rw [h1]; simp, h2⟩

theorem nextReply_text {k : Kind} {w w' : World} {t : Option Str}
    (h : nextReply k w = (.error ⟨.responseError, t⟩, w')) :
    ∃ r, w'.trace = w.trace ++ [.got r] ∧ r ≠ .ack ∧ k.want r = false ∧
      t = some (quoting r (if r = .nack then cs!"NACK" else k.name)) := by
  unfold nextReply at h
  rw [bind_apply] at h
  unfold readMessage at h
  split_ifs at h
  · cases h
  · rcases hi : w.inbox with _ | ⟨m | _, rest⟩ <;> rw [hi] at h
    · cases h
    · dsimp only at h
      rw [bind_apply] at h
      unfold checkNack at h
      by_cases hn : m = .nack
      · rw [if_pos (Client.type_nack.2 hn)] at h
        subst hn
        cases h
        exact ⟨.nack, rfl, by simp, by cases k <;> rfl, rfl⟩
      · rw [if_neg (by rw [Client.type_nack]; exact hn)] at h
        simp only [Pure.pure, X.pure] at h
        split_ifs at h with h1 h2
        · cases h
        · cases h
          refine ⟨m, rfl, fun h => h1 (Client.type_ack.2 h), by simpa using h2, ?_⟩
          rw [if_neg hn]; rfl
        · cases h
    · cases h

theorem nextReply_trace {k : Kind} {w : World} : ∃ acts, (nextReply k w).2.trace = w.trace ++ acts := by
  unfold nextReply
  rw [bind_apply]
  unfold readMessage
  split_ifs
  · exact ⟨[], by simp⟩
  · rcases hi : w.inbox with _ | ⟨m | _, rest⟩
    · exact ⟨[], by simp⟩
    · refine ⟨[.got m], ?_⟩
      dsimp only
      rw [bind_apply]
      unfold checkNack
      split_ifs <;> rfl
    · exact ⟨[], by simp⟩

theorem drain_text {k : Kind} {body : Msg → Except Err (List β)} (hb : ∀ m e, body m = .error e → e ≠ .responseError)
    (n : Nat) (w : World) (t : Option Str) (h : (drain k body n w).1.2 = .error ⟨.responseError, t⟩) :
    ∃ acts r, (drain k body n w).2.trace = w.trace ++ acts ++ [.got r] ∧ r ≠ .ack ∧ k.want r = false ∧
      t = some (quoting r (if r = .nack then cs!"NACK" else k.name)) := by
  induction n generalizing w with
  | zero => cases h
  | succ n ih =>
    unfold drain at h ⊢
    rcases hn : nextReply k w with ⟨e | _ | m, w1⟩ <;> rw [hn] at h
    · cases h
      obtain ⟨r, h1, h2, h3, h4⟩ := nextReply_text hn
      exact ⟨[], r, by simpa using h1, h2, h3, h4⟩
    · cases h
    · dsimp only at h ⊢
      cases hm : body m with
      | error e =>
        rw [hm] at h
        simp only [Except.error.injEq, Raised.mk.injEq] at h
        exact absurd h.1 (hb m e hm)
      | ok ys =>
        rw [hm] at h
        obtain ⟨acts, r, h1, h2⟩ := ih w1 h
        obtain ⟨a0, h0⟩ := nextReply_trace (k := k) (w := w)
        rw [hn] at h0
        exact ⟨a0 ++ acts, r, by rw [h1, h0]; simp, h2⟩

theorem failure_unique {cfg : Config} {acts : List CAct} {t t' : Str} (h : LoginFailure cfg acts t)
    (h' : LoginFailure cfg acts t') : t = t' := by
  rw [failure_iff] at h h'
  rcases h with ⟨m, _, rfl, rfl⟩ | ⟨c, rest, rfl, h⟩
  · rcases h' with ⟨m', _, _, rfl⟩ | ⟨c, rest, h, _⟩
    · rfl
    · simp [opening] at h
  · rcases h' with ⟨m', _, h, _⟩ | ⟨c', rest', e, h'⟩
    · simp [opening] at h
    · obtain ⟨rfl, rfl⟩ := opening_inj e
      rcases h with ⟨rfl, _, _, rfl⟩ | ⟨rfl, _, rfl⟩ | ⟨_, _, _, _, _, _, rfl, rfl⟩ | ⟨_, _, _, _, _, _, _, _, _, _, rfl, rfl⟩ <;>
      rcases h' with ⟨h, _, _, rfl⟩ | ⟨h, _, rfl⟩ | ⟨_, _, _, _, _, _, h, rfl⟩ | ⟨_, _, _, _, _, _, _, _, _, _, h, rfl⟩ <;>
      first | rfl | simp at h

end Texts

namespace Texts

theorem read_msg {w : World} (hs : w.started = true) {m : Msg} {rest : List InEv} (h : w.inbox = .msg m :: rest) :
    readMessage w = (.ok m, { w with inbox := rest, trace := w.trace ++ [.got m] }) := by
  unfold readMessage
  simp [hs, h]

/-- `start` with a gateway that greets and answers. -/
theorem start_answered (cfg : Config) (w : World) (c : Msg) (r : List InEv) (net : List (Option (List InEv)))
    (hn : w.network = some (.msg .ack :: .msg c :: r) :: net) :
    start cfg w = react cfg c ⟨net, true, r, w.trace ++ opening cfg c⟩ := by
  have hc : connect w = (.ok (), ⟨net, true, .msg .ack :: .msg c :: r, w.trace ++ [.connected]⟩) := by
    unfold connect Client.connect
    rw [hn]
  have hv : ∀ t ∈ (Msg.generic [cs!"99", cfg.session.value]).tags, TagText t := by
    cases cfg.session <;> simp only [Msg.tags, Session.value] <;> decide
  have e : (Msg.generic [cs!"99", cfg.session.value]).str = frame [cs!"99", cfg.session.value] := by
    simp [Msg.str, frame, body, join]
  unfold start
  rw [bind_ok hc]
  unfold handshake
  rw [bind_ok (read_msg rfl rfl), if_neg (by simp [Msg.type]), Client.toMessage_eq, plain_bind_ok,
    bind_ok (send_force rfl hv), bind_ok (read_msg rfl rfl), e]
  simp only [List.append_assoc]
  rfl

end Texts
