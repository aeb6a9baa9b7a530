import Verif.Spec.WireLogs
import Verif.Props.Protocol

/-! # Lemmas about the log of the protocol -/

open Py Spec Protocol

/-! ## Texts with separators -/

theorem append_sep_inj {c : Char} {a b s t : Str} (ha : c ∉ a) (hb : c ∉ b) (h : a ++ c :: s = b ++ c :: t) :
    a = b ∧ s = t := by
  induction a generalizing b with
  | nil =>
    cases b with
    | nil => simp at h; exact ⟨rfl, h⟩
    | cons d b =>
      simp only [List.nil_append, List.cons_append, List.cons.injEq] at h
      exact absurd (h.1 ▸ List.mem_cons_self) hb
  | cons d a ih =>
    cases b with
    | nil =>
      simp only [List.nil_append, List.cons_append, List.cons.injEq] at h
      exact absurd (h.1.symm ▸ List.mem_cons_self) ha
    | cons d' b =>
      simp only [List.cons_append, List.cons.injEq] at h
      obtain ⟨h1, h2⟩ := ih (fun hm => ha (List.mem_cons_of_mem _ hm)) (fun hm => hb (List.mem_cons_of_mem _ hm)) h.2
      exact ⟨by rw [h.1, h1], h2⟩

theorem join_inj {c : Char} {as bs : List Str} (ha : as ≠ []) (hb : bs ≠ []) (h1 : ∀ a ∈ as, c ∉ a) (h2 : ∀ b ∈ bs, c ∉ b)
    (h : join [c] as = join [c] bs) : as = bs := by
  rw [← split1_join ha h1, ← split1_join hb h2, h]

theorem join_split2 (s : Str) : join cs!"##" (split2 '#' '#' s) = s := by
  have aux : ∀ (c : Char) (ps : List Str), ps ≠ [] → join cs!"##" (consHead c ps) = c :: join cs!"##" ps := by
    intro c ps h
    match ps with
    | [] => exact absurd rfl h
    | [p] => rfl
    | p :: q :: ps => rfl
  have hne : ∀ s, split2 '#' '#' s ≠ [] := by
    intro s
    fun_induction split2 '#' '#' s with
    | case1 | case2 | case3 => simp
    | case4 c d s _ ih =>
      cases h : split2 '#' '#' (d :: s) <;> simp [consHead]
  fun_induction split2 '#' '#' s with
  | case1 | case2 => rfl
  | case3 c d s h ih =>
    obtain ⟨rfl, rfl⟩ := h
    rw [join_cons_of_ne (hne s), ih]; rfl
  | case4 c d s h ih => rw [aux _ _ (hne _), ih]

theorem split2_pieces (s : Str) : ∀ p ∈ split2 '#' '#' s, ¬ HasHH p := by
  have first : ∀ s, ∃ p ps, split2 '#' '#' s = p :: ps ∧ (∀ c, p.head? = some c → s.head? = some c) := by
    intro s
    fun_induction split2 '#' '#' s with
    | case1 => exact ⟨[], [], rfl, by simp⟩
    | case2 c => exact ⟨[c], [], rfl, by simp⟩
    | case3 c d s h => exact ⟨[], _, rfl, by simp⟩
    | case4 c d s h ih =>
      obtain ⟨p, ps, h1, h2⟩ := ih
      exact ⟨c :: p, ps, by rw [h1]; rfl, by simp⟩
  fun_induction split2 '#' '#' s with
  | case1 => simp [not_hasHH_nil]
  | case2 c => simp [hasHH_cons_iff, not_hasHH_nil]
  | case3 c d s h ih =>
    intro p hp
    rcases List.mem_cons.1 hp with rfl | hp
    · exact not_hasHH_nil
    · exact ih p hp
  | case4 c d s h ih =>
    obtain ⟨q, qs, h1, h2⟩ := first (d :: s)
    rw [h1] at ih ⊢
    intro p hp
    rcases List.mem_cons.1 hp with rfl | hp
    · rw [hasHH_cons_iff]
      rintro (⟨rfl, h3⟩ | h3)
      · have := h2 '#' h3
        simp only [List.head?_cons, Option.some.injEq] at this
        exact h ⟨rfl, this⟩
      · exact ih q (by simp) h3
    · exact ih p (by simp [hp])

/-! ## `repr` -/

theorem parsed_tags {s : Str} {m : Msg} (h : parseMessage s = .ok m) : m.tags ≠ [] ∧ ∀ t ∈ m.tags, TagText t := by
  obtain ⟨ts, hf, hr⟩ := (parseMessage_ok_iff s m).mp h
  have ht := hf.2.1
  have hw : ∀ w : Who, TagText w.code := fun w => by cases w <;> simp [TagText, TagChar, Who.code]
  cases hr with
  | ack => exact ⟨by simp [Msg.tags], by simp [Msg.tags, TagText, TagChar]⟩
  | nack => exact ⟨by simp [Msg.tags], by simp [Msg.tags, TagText, TagChar]⟩
  | generic => exact ⟨hf.1, ht⟩
  | normal => exact ⟨by simp [Msg.tags], ht⟩
  | @status w a =>
    refine ⟨by simp [Msg.tags], ?_⟩
    simp only [Msg.tags, List.mem_cons, List.not_mem_nil, or_false, forall_eq_or_imp, forall_eq]
    exact ⟨hw w, ht _ (by simp)⟩
  | @dimReq w a d =>
    refine ⟨by simp [Msg.tags], ?_⟩
    simp only [Msg.tags, List.mem_cons, List.not_mem_nil, or_false, forall_eq_or_imp, forall_eq]
    exact ⟨hw w, ht _ (by simp), ht _ (by simp)⟩
  | @dimWrite w a d vs =>
    refine ⟨by simp [Msg.tags], ?_⟩
    simp only [Msg.tags, List.mem_cons, forall_eq_or_imp, List.map_map]
    refine ⟨hw w, ht _ (by simp), TagText.cons_hash.1 (ht ('#' :: _) (by simp)), fun t h => ht t ?_⟩
    simpa using .inr (.inr (.inr (by simpa using h)))
  | @dimResp w a d vs =>
    refine ⟨by simp [Msg.tags], ?_⟩
    simp only [Msg.tags, List.mem_cons, forall_eq_or_imp, List.map_map]
    refine ⟨hw w, ht _ (by simp), ht _ (by simp), fun t h => ht t ?_⟩
    simpa using .inr (.inr (.inr (by simpa using h)))
  | @dimRespHash w a d vs =>
    refine ⟨by simp [Msg.tags], ?_⟩
    simp only [Msg.tags, List.mem_cons, forall_eq_or_imp, List.map_map]
    refine ⟨hw w, ht _ (by simp), TagText.cons_hash.1 (ht ('#' :: _) (by simp)), fun t h => ht t ?_⟩
    simpa using .inr (.inr (.inr (by simpa using h)))

/-- A message whose tags are of digits and `#`, and are there. -/
def Msg.Plain (m : Msg) : Prop := m.tags ≠ [] ∧ ∀ t ∈ m.tags, TagText t

theorem tagText_no {t : Str} {c : Char} (h : TagText t) (hc : c ∉ cs!"0123456789#") : c ∉ t := fun hm => hc (h c hm)

theorem Msg.eq_of_tags {a b : Msg} (hc : a.className = b.className) (ht : a.tags = b.tags) : a = b := by
  have inj : ∀ vs us : List Tag, vs.map (·.string) = us.map (·.string) → vs = us := by
    intro vs
    induction vs with
    | nil => intro us h; cases us with
      | nil => rfl
      | cons => cases h
    | cons v vs ih =>
      intro us h
      cases us with
      | nil => cases h
      | cons u us =>
        simp only [List.map_cons, List.cons.injEq] at h
        rw [ih us h.2]
        obtain ⟨s⟩ := v; obtain ⟨t⟩ := u
        simp only at h
        rw [h.1]
  cases a <;> cases b <;> first | (exfalso; revert hc; simp only [className]; decide) | skip
  · rfl
  · rfl
  · rename_i w x y w' x' y'
    obtain ⟨x⟩ := x; obtain ⟨y⟩ := y; obtain ⟨x'⟩ := x'; obtain ⟨y'⟩ := y'
    simp only [tags, List.cons.injEq, and_true] at ht
    rw [Who.code_inj ht.1, ht.2.1, ht.2.2]
  · rename_i w x w' x'
    obtain ⟨x⟩ := x; obtain ⟨x'⟩ := x'
    simp only [tags, List.cons.injEq, and_true] at ht
    rw [Who.code_inj ht.1, ht.2]
  · rename_i w x y w' x' y'
    obtain ⟨x⟩ := x; obtain ⟨y⟩ := y; obtain ⟨x'⟩ := x'; obtain ⟨y'⟩ := y'
    simp only [tags, List.cons.injEq, and_true] at ht
    rw [Who.code_inj ht.1, ht.2.1, ht.2.2]
  · rename_i w x y vs w' x' y' us
    obtain ⟨x⟩ := x; obtain ⟨y⟩ := y; obtain ⟨x'⟩ := x'; obtain ⟨y'⟩ := y'
    simp only [tags, List.cons.injEq] at ht
    rw [Who.code_inj ht.1, ht.2.1, ht.2.2.1, inj _ _ ht.2.2.2]
  · rename_i w x y vs w' x' y' us
    obtain ⟨x⟩ := x; obtain ⟨y⟩ := y; obtain ⟨x'⟩ := x'; obtain ⟨y'⟩ := y'
    simp only [tags, List.cons.injEq] at ht
    rw [Who.code_inj ht.1, ht.2.1, ht.2.2.1, inj _ _ ht.2.2.2]
  · simp only [tags] at ht
    rw [ht]

theorem Msg.className_colon (m : Msg) : ':' ∉ m.className := by cases m <;> simp [className]
theorem Msg.className_gt (m : Msg) : '>' ∉ m.className := by cases m <;> simp [className]

/-- `repr` up to the closing `>`. -/
def Msg.reprBody (m : Msg) : Str := cs!"<" ++ m.className ++ cs!": " ++ join cs!"," m.tags

theorem Msg.reprBody_gt {m : Msg} (h : m.Plain) : '>' ∉ m.reprBody := by
  unfold reprBody
  simp only [List.mem_append, not_or]
  refine ⟨⟨⟨by simp, m.className_gt⟩, by simp⟩, fun hm => ?_⟩
  rcases mem_join hm with hm | ⟨t, ht, hm⟩
  · simp at hm
  · exact tagText_no (h.2 t ht) (by simp) hm

theorem Msg.reprBody_inj {a b : Msg} (ha : a.Plain) (hb : b.Plain) (h : a.reprBody = b.reprBody) : a = b := by
  unfold reprBody at h
  simp only [List.append_assoc, List.cons_append, List.nil_append, List.cons.injEq, true_and] at h
  obtain ⟨h1, h2⟩ := append_sep_inj a.className_colon b.className_colon h
  simp only [List.cons.injEq, true_and] at h2
  exact eq_of_tags h1 (join_inj ha.1 hb.1 (fun t ht => tagText_no (ha.2 t ht) (by simp)) (fun t ht => tagText_no (hb.2 t ht) (by simp)) h2)

theorem Msg.repr_eq (m : Msg) : m.repr = m.reprBody ++ cs!">" := rfl

theorem Msg.join_repr_inj {ms ns : List Msg} (hm : ∀ m ∈ ms, m.Plain) (hn : ∀ n ∈ ns, n.Plain)
    (h : join cs!", " (ms.map Msg.repr) ++ cs!"]" = join cs!", " (ns.map Msg.repr) ++ cs!"]") : ms = ns := by
  have ne : ∀ (m : Msg) (s : Str), cs!"]" ≠ m.reprBody ++ s := by
    intro m s; unfold reprBody; simp
  have one : ∀ (m : Msg) (ms : List Msg), join cs!", " ((m :: ms).map Msg.repr) ++ cs!"]" = m.reprBody ++ '>' ::
      (match ms with
        | [] => cs!"]"
        | m' :: ms' => ',' :: ' ' :: (join cs!", " ((m' :: ms').map Msg.repr) ++ cs!"]")) := by
    intro m ms
    cases ms <;> simp [join, repr_eq]
  induction ms generalizing ns with
  | nil =>
    cases ns with
    | nil => rfl
    | cons n ns => rw [one n ns] at h; exact absurd h (ne _ _)
  | cons m ms ih =>
    cases ns with
    | nil => rw [one m ms] at h; exact absurd h.symm (ne _ _)
    | cons n ns =>
      rw [one m ms, one n ns] at h
      obtain ⟨h1, h2⟩ := append_sep_inj (reprBody_gt (hm m (by simp))) (reprBody_gt (hn n (by simp))) h
      rw [reprBody_inj (hm m (by simp)) (hn n (by simp)) h1]
      cases ms with
      | nil =>
        cases ns with
        | nil => rfl
        | cons => simp at h2
      | cons m' ms =>
        cases ns with
        | nil => simp at h2
        | cons n' ns =>
          simp only [List.cons.injEq, true_and] at h2
          rw [ih (fun m hm' => hm m (by simp [hm'])) (fun n hn' => hn n (by simp [hn'])) h2]

theorem Msg.listRepr_inj {ms ns : List Msg} (hm : ∀ m ∈ ms, m.Plain) (hn : ∀ n ∈ ns, n.Plain)
    (h : listRepr ms = listRepr ns) : ms = ns := by
  unfold listRepr at h
  rw [List.append_assoc, List.append_assoc] at h
  exact join_repr_inj hm hn (List.append_cancel_left h)

theorem pieces_plain {ps : List Str} {ms : List Msg} (h : parsePieces ps = .ok ms) : ∀ m ∈ ms, m.Plain := by
  induction ps generalizing ms with
  | nil => cases h; simp
  | cons p ps ih =>
    unfold parsePieces at h
    split at h
    · exact ih h
    · rcases h1 : parseMessage (p ++ cs!"##") with e | m1
      · rw [h1] at h; cases h
      · rcases h2 : parsePieces ps with e | ms1
        · rw [h1, h2] at h; cases h
        · rw [h1, h2] at h; cases h
          intro m hm
          rcases List.mem_cons.1 hm with rfl | hm
          · exact parsed_tags h1
          · exact ih h2 m hm

namespace WireLogs

/-! ## Receiving -/

theorem dataReceived_cases (d : List UInt8) :
    (decodeAscii d = .error .unicodeError ∧ packetMessages d = .error .unicodeError ∧
      dataReceived d = (.error .unicodeError, [.notAscii d])) ∨
    (∃ text e, decodeAscii d = .ok text ∧ parsePieces (split2 '#' '#' (strip text)) = .error e ∧
      packetMessages d = .error e ∧ dataReceived d = (.error e, if isParseError e then [.invalid e] else [])) ∨
    (packetMessages d = .ok [] ∧ dataReceived d = (.ok [], [])) ∨
    (∃ m ms, packetMessages d = .ok (m :: ms) ∧ dataReceived d = (.ok (m :: ms), [.received (m :: ms)]) ∧
      ∀ x ∈ m :: ms, x.Plain) := by
  unfold dataReceived packetMessages
  rcases h : decodeAscii d with e | text
  · left
    have : e = .unicodeError := by
      unfold decodeAscii at h; split at h <;> simp_all
    subst this
    exact ⟨rfl, rfl, rfl⟩
  · right
    rcases h2 : parsePieces (split2 '#' '#' (strip text)) with e | ms
    · left; exact ⟨text, e, rfl, h2, by simp [h2], by simp [h2]⟩
    · right
      cases ms with
      | nil => left; exact ⟨by simp [h2], by simp [h2]⟩
      | cons m ms => right; exact ⟨m, ms, by simp [h2], by simp [h2], pieces_plain h2⟩

theorem receiveAll_cons (q : List Msg) (d : List UInt8) (ds : List (List UInt8)) :
    receiveAll q (d :: ds) = match packetMessages d with
      | .ok ms => receiveAll (q ++ ms) ds
      | .error _ => q := by
  rw [receiveAll]
  unfold Protocol.dataReceived
  cases packetMessages d <;> rfl

theorem receiveAll_queue (q : List Msg) (ds : List (List UInt8)) : receiveAll q ds = q ++ receiveAll [] ds := by
  induction ds generalizing q with
  | nil => simp [receiveAll]
  | cons d ds ih =>
    rw [receiveAll_cons, receiveAll_cons]
    cases packetMessages d with
    | error e => simp
    | ok ms => simp only [List.nil_append]; rw [ih, ih ms]; simp

theorem journal_append (l l' : List Rec) : journal (l ++ l') = journal l ++ journal l' := by
  induction l with
  | nil => rfl
  | cons r l ih => cases r <;> simp [journal, ih]

theorem journal_fatal (e : Err) : journal (fatal e) = [] := rfl

theorem journal_receive (ds : List (List UInt8)) : journal (receive ds) = receiveAll [] ds := by
  induction ds with
  | nil => rfl
  | cons d ds ih =>
    rw [receiveAll_cons]
    unfold receive
    rcases dataReceived_cases d with ⟨_, h1, h2⟩ | ⟨text, e, _, _, h1, h2⟩ | ⟨h1, h2⟩ | ⟨m, ms, h1, h2, _⟩
    · rw [h1, h2]; rfl
    · rw [h1, h2]; dsimp only; rw [journal_append, journal_fatal]; split <;> rfl
    · rw [h1, h2]; simpa using ih
    · rw [h1, h2]; dsimp only
      rw [List.nil_append, receiveAll_queue, ← ih]; rfl

theorem receive_plain (ds : List (List UInt8)) : ∀ ms, .received ms ∈ receive ds → ∀ m ∈ ms, m.Plain := by
  induction ds with
  | nil => simp [receive]
  | cons d ds ih =>
    unfold receive
    rcases dataReceived_cases d with ⟨_, _, h2⟩ | ⟨text, e, _, _, _, h2⟩ | ⟨_, h2⟩ | ⟨m, ms, _, h2, hp⟩
    · rw [h2]; simp [fatal, handler]
    · rw [h2]; dsimp only; split <;> simp [fatal, handler]
    · rw [h2]; simpa using ih
    · rw [h2]; intro ms' hm
      simp only [List.cons_append, List.nil_append, List.mem_cons] at hm
      rcases hm with hm | hm
      · cases hm; exact hp
      · exact ih ms' hm

theorem text_received {other : Err → Str} {msg : Str} {r : Rec} {ms : List Msg}
    (h : r.text other msg = (Rec.received ms).text other msg) : ∃ ms', r = .received ms' := by
  cases r with
  | received ms' => exact ⟨ms', rfl⟩
  | lost e => cases e <;> simp [Rec.text] at h
  | made | notAscii | invalid | paused | resumed | sent | occurred | protocolError | transportError => simp [Rec.text] at h

theorem journal_other {r : Rec} {l : List Rec} (h : ¬ ∃ ms, r = .received ms) : journal (r :: l) = journal l := by
  cases r <;> first | rfl | exact absurd ⟨_, rfl⟩ h

theorem journal_texts (other : Err → Str) (msg : Str) (l l' : List Rec)
    (h1 : ∀ ms, .received ms ∈ l → ∀ m ∈ ms, m.Plain) (h2 : ∀ ms, .received ms ∈ l' → ∀ m ∈ ms, m.Plain)
    (h : l.map (·.text other msg) = l'.map (·.text other msg)) : journal l = journal l' := by
  induction l generalizing l' with
  | nil => cases l' with
    | nil => rfl
    | cons => cases h
  | cons r l ih =>
    cases l' with
    | nil => cases h
    | cons r' l' =>
      simp only [List.map_cons, List.cons.injEq] at h
      have := ih l' (fun ms hm => h1 ms (List.mem_cons_of_mem _ hm)) (fun ms hm => h2 ms (List.mem_cons_of_mem _ hm)) h.2
      by_cases hr : ∃ ms, r = .received ms
      · obtain ⟨ms, rfl⟩ := hr
        obtain ⟨ms', rfl⟩ := text_received h.1.symm
        have e := h.1
        simp only [Rec.text] at e
        rw [Msg.listRepr_inj (h1 ms (by simp)) (h2 ms' (by simp)) (List.append_cancel_left e)]
        simp [journal, this]
      · have hr' : ¬ ∃ ms, r' = .received ms := by
          rintro ⟨ms, rfl⟩; exact hr (text_received h.1)
        rw [journal_other hr, journal_other hr', this]

theorem text_sent {other : Err → Str} {msg : Str} {r : Rec} {t : Str}
    (h : r.text other msg = (Rec.sent t).text other msg) : r = .sent t := by
  cases r with
  | sent t' => simpa [Rec.text] using h
  | lost e => cases e <;> simp [Rec.text] at h
  | made | notAscii | invalid | paused | resumed | received | occurred | protocolError | transportError => simp [Rec.text] at h

theorem text_paused {other : Err → Str} {msg : Str} {r : Rec} (h : r.text other msg = Rec.paused.text other msg) :
    r = .paused := by
  cases r with
  | paused => rfl
  | lost e => cases e <;> simp [Rec.text] at h
  | made | notAscii | invalid | sent | resumed | received | occurred | protocolError | transportError => simp [Rec.text] at h

theorem text_resumed {other : Err → Str} {msg : Str} {r : Rec} (h : r.text other msg = Rec.resumed.text other msg) :
    r = .resumed := by
  cases r with
  | resumed => rfl
  | lost e => cases e <;> simp [Rec.text] at h
  | made | notAscii | invalid | sent | paused | received | occurred | protocolError | transportError => simp [Rec.text] at h

theorem wire_cons {r : Rec} {l : List Rec} : wire (r :: l) = wire [r] ++ wire l := by
  cases r <;> rfl

theorem wire_text {other : Err → Str} {msg : Str} {r r' : Rec} (h : r.text other msg = r'.text other msg) :
    wire [r] = wire [r'] := by
  have key : ∀ r : Rec, (∃ t, r = .sent t) ∨ r = .paused ∨ r = .resumed ∨ wire [r] = [] := by
    intro r; cases r <;> simp [wire]
  rcases key r with ⟨t, rfl⟩ | rfl | rfl | e
  · rw [text_sent h.symm]
  · rw [text_paused h.symm]
  · rw [text_resumed h.symm]
  · rcases key r' with ⟨t, rfl⟩ | rfl | rfl | e'
    · rw [text_sent h]
    · rw [text_paused h]
    · rw [text_resumed h]
    · rw [e, e']

theorem wire_texts (other : Err → Str) (msg : Str) (l l' : List Rec)
    (h : l.map (·.text other msg) = l'.map (·.text other msg)) : wire l = wire l' := by
  induction l generalizing l' with
  | nil => cases l' with
    | nil => rfl
    | cons => cases h
  | cons r l ih =>
    cases l' with
    | nil => cases h
    | cons r' l' =>
      simp only [List.map_cons, List.cons.injEq] at h
      rw [wire_cons, wire_text h.1, ih l' h.2, ← wire_cons]

/-! ## Refused packets -/

theorem pieces_error {ps : List Str} {e : Err} (h : parsePieces ps = .error e) :
    ∃ pre p post, ps = pre ++ p :: post ∧ (∀ q ∈ pre, q ≠ [] → ∃ m, parseMessage (q ++ cs!"##") = .ok m) ∧ p ≠ [] ∧
      parseMessage (p ++ cs!"##") = .error e := by
  induction ps with
  | nil => cases h
  | cons p ps ih =>
    unfold parsePieces at h
    split at h
    · rename_i hp
      obtain ⟨pre, q, post, h1, h2, h3⟩ := ih h
      refine ⟨p :: pre, q, post, by rw [h1]; rfl, ?_, h3⟩
      intro x hx hne
      rcases List.mem_cons.1 hx with rfl | hx
      · exact absurd hp hne
      · exact h2 x hx hne
    · rename_i hp
      rcases h1 : parseMessage (p ++ cs!"##") with e' | m
      · rw [h1] at h; cases h
        exact ⟨[], p, ps, rfl, by simp, hp, h1⟩
      · rcases h2 : parsePieces ps with e' | ms
        · rw [h1, h2] at h; cases h
          obtain ⟨pre, q, post, g1, g2, g3⟩ := ih h2
          refine ⟨p :: pre, q, post, by rw [g1]; rfl, ?_, g3⟩
          intro x hx hne
          rcases List.mem_cons.1 hx with rfl | hx
          · exact ⟨m, h1⟩
          · exact g2 x hx hne
        · rw [h1, h2] at h; cases h

theorem invalid_text {m s : Str} (h : parseMessage m = .error (.invalidMessage s)) : s = m ∨ s = strip m := by
  by_cases hf : ∃ ts, ts ≠ [] ∧ (∀ t ∈ ts, TagText t) ∧ strip m = frame ts ∧ count2 '#' '#' m = 1
  · obtain ⟨ts, h1, h2, h3, h4⟩ := hf
    rw [parseMessage_frame h1 h2 h3 h4, parseTags_error_iff h2] at h
    cases h.1
  · unfold parseMessage at h
    split at h
    · cases h; exact .inl rfl
    · dsimp only at h
      split at h
      · cases h; exact .inr rfl
      · rename_i hc hg
        exfalso
        refine hf ?_
        have hg' : MsgRe.generic.pyMatch (strip m) = true := by simpa using hg
        rw [Re.pyMatch_eq, Re.accepts_iff, MsgRe.lang_generic] at hg'
        · obtain ⟨ts, h1, h2, h3⟩ := hg'
          exact ⟨ts, h1, h2, h3, by simpa using hc⟩
        · intro hl
          have := strip_getLast _ hl
          revert this; decide

theorem split_good (fs : List (Str × List Str)) (ms : List Msg) (x : Str) (e : Err)
    (hp : ∀ f ∈ fs, ∀ c ∈ f.1, PyWs c) (h : List.Forall₂ (fun f m => GoodFrame f.2 m) fs ms)
    (hx : parsePieces (split2 '#' '#' x) = .error e) :
    parsePieces (split2 '#' '#' (packetText fs ++ x)) = .error e := by
  induction h with
  | nil => simpa [packetText] using hx
  | @cons f m fs ms hf hrest ih =>
    obtain ⟨p, ts⟩ := f
    obtain ⟨hne, h1, h2⟩ := hf
    have hws := hp (p, ts) (by simp)
    have e : packetText ((p, ts) :: fs) ++ x = (p ++ body ts) ++ cs!"##" ++ (packetText fs ++ x) := by
      simp [packetText, frame]
    have h3 : ¬ HasHH ((p ++ body ts) ++ cs!"#") := by
      rw [List.append_assoc, hasHH_append_left (ws_no_hash hws)]; exact h1
    have hb : p ++ body ts ≠ [] := by
      cases ts with
      | nil => exact absurd rfl hne
      | cons t ts => simp [body]
    have h4 : parseMessage (p ++ body ts ++ cs!"##") = .ok m := by
      have := (C11_whitespace_ok p [] (frame ts) m hws (by simp)).mpr h2
      simpa [frame] using this
    rw [e, split2_append_sep h3, parsePieces, if_neg hb, h4, ih (fun f hf => hp f (by simp [hf]))]
    rfl

/-- A refused piece behind good frames, and before anything. -/
theorem refused_behind (fs : List (Str × List Str)) (ms : List Msg) (p rest : Str) (e : Err) (hne : fs ≠ [])
    (hp : ∀ f ∈ fs, ∀ c ∈ f.1, PyWs c) (h : List.Forall₂ (fun f m => GoodFrame f.2 m) fs ms)
    (h1 : ¬ HasHH (p ++ cs!"#")) (h2 : p ≠ []) (h3 : parseMessage (p ++ cs!"##") = .error e) :
    parsePieces (split2 '#' '#' (strip (packetText fs ++ (p ++ cs!"##" ++ rest)))) = .error e := by
  cases h with
  | nil => exact absurd rfl hne
  | @cons f m fs ms hf hrest =>
    obtain ⟨u, ts⟩ := f
    have hws := hp (u, ts) (by simp)
    obtain ⟨w, hw, hr⟩ := exists_ws_rstrip rest
    have hl : ∀ c, (packetText (([], ts) :: fs) ++ (p ++ cs!"##" ++ rstrip rest)).getLast? = some c → isSpace c = false := by
      intro c hc
      rw [List.getLast?_append] at hc
      rcases List.eq_nil_or_concat (rstrip rest) with h0 | ⟨r, x, h0⟩
      · rw [h0] at hc; simp at hc; rw [← hc]; exact isSpace_hash
      · have hc : x = c := by
          rw [h0, List.concat_eq_append, ← List.append_assoc, List.getLast?_concat] at hc
          simpa using hc
        subst hc
        exact rstrip_getLast x (by rw [h0]; simp)
    have hh : ∀ c, (packetText (([], ts) :: fs) ++ (p ++ cs!"##" ++ rstrip rest)).head? = some c → isSpace c = false := by
      intro c hc
      cases ts with
      | nil => exact absurd rfl hf.1
      | cons t ts => simp [packetText, frame, body] at hc; rw [← hc]; exact isSpace_star
    have e1 : packetText ((u, ts) :: fs) ++ (p ++ cs!"##" ++ rest) =
        u ++ (packetText (([], ts) :: fs) ++ (p ++ cs!"##" ++ rstrip rest)) ++ w := by
      conv_lhs => rw [hr]
      simp [packetText]
    rw [e1, strip_pad hws hw, strip_eq_self hh hl]
    refine split_good (([], ts) :: fs) (m :: ms) _ e ?_ (.cons hf hrest) ?_
    · intro g hg
      rcases List.mem_cons.1 hg with rfl | hg
      · simp
      · exact hp g (by simp [hg])
    · rw [split2_append_sep h1, parsePieces, if_neg h2, h3]; rfl

/-! ## Sending -/

theorem wire_append (l l' : List Rec) : wire (l ++ l') = wire l ++ wire l' := by
  induction l with
  | nil => rfl
  | cons r l ih => cases r <;> simp [wire, ih]

/-- The two models of the send side agree. -/
def Agree (s : Sender) (t : SState) : Prop :=
  s.locked = t.locked ∧ s.hung = t.hung ∧ s.sleeping.map (fun p => (p.1, p.2.2)) = t.sleeping ∧
    ∀ p ∈ s.sleeping, p.2.1.bytes = .ok p.2.2

theorem bytes_str {m : Msg} {d : List UInt8} (h : m.bytes = .ok d) : m.str.map (fun c => c.toNat.toUInt8) = d := by
  unfold Msg.bytes Msg.encodeAscii at h
  split at h
  · cases h; rfl
  · cases h

theorem agree_attempt {s : Sender} {t : SState} (h : Agree s t) (id : Nat) (m : Msg) (d : List UInt8) (hb : m.bytes = .ok d) :
    Agree (s.attempt id m d).1 (t.attempt id d) ∧
      (t.attempt id d).trace.map wired = t.trace.map wired ++ wire (s.attempt id m d).2 := by
  obtain ⟨h1, h2, h3, h4⟩ := h
  unfold Sender.attempt SState.attempt
  by_cases hl : t.locked = true
  · rw [if_pos hl, if_pos (h1.trans hl)]
    refine ⟨⟨h1, h2, by simp [h3], ?_⟩, by simp [wire]⟩
    intro p hp
    simp only [List.mem_append, List.mem_singleton] at hp
    rcases hp with hp | rfl
    · exact h4 p hp
    · exact hb
  · rw [if_neg hl, if_neg (by rw [h1]; exact hl)]
    exact ⟨⟨h1, h2, h3, h4⟩, by simp [wire, wired, bytes_str hb]⟩

theorem erase_first (l : List (Nat × Msg × List UInt8)) (id : Nat) (p : Nat × Msg × List UInt8)
    (h : l.find? (fun p => p.1 == id) = some p) :
    (l.erase p).map (fun p => (p.1, p.2.2)) = (l.map (fun p => (p.1, p.2.2))).erase (p.1, p.2.2) := by
  induction l with
  | nil => cases h
  | cons q l ih =>
    rw [List.find?_cons] at h
    by_cases hq : q.1 = id
    · have : (q.1 == id) = true := by simpa using hq
      rw [this] at h
      cases h
      simp
    · have : (q.1 == id) = false := by simpa using hq
      rw [this] at h
      have hp : p.1 = id := by simpa using List.find?_some h
      have h1 : q ≠ p := by rintro rfl; exact hq hp
      have h2 : (q.1, q.2.2) ≠ (p.1, p.2.2) := by
        intro e; simp only [Prod.mk.injEq] at e; exact hq (e.1.trans hp)
      rw [List.map_cons, List.erase_cons_tail (by simpa using h1), List.erase_cons_tail (by simpa using h2), List.map_cons,
        ih h]

theorem agree_step {s : Sender} {t : SState} (h : Agree s t) (e : SEv) :
    Agree (s.step e).1 (t.step e).2 ∧ (t.step e).2.trace.map wired = t.trace.map wired ++ wire (s.step e).2 := by
  have hA := h
  obtain ⟨h1, h2, h3, h4⟩ := h
  unfold Sender.step SState.step
  by_cases hh : t.hung = true
  · rw [if_pos hh, if_pos (h2.trans hh)]; exact ⟨hA, by simp [wire]⟩
  rw [if_neg hh, if_neg (by rw [h2]; exact hh)]
  cases e with
  | call id msg =>
    dsimp only
    rcases hb : msg.bytes with e | d
    · exact ⟨hA, by simp [wire]⟩
    · exact agree_attempt hA id msg d hb
  | wake id =>
    dsimp only
    have hf : t.sleeping.find? (fun p => p.1 == id) =
        (s.sleeping.find? (fun p => p.1 == id)).map (fun p => (p.1, p.2.2)) := by
      rw [← h3, List.find?_map]; rfl
    rw [hf]
    cases hs : s.sleeping.find? (fun p => p.1 == id) with
    | none => exact ⟨hA, by simp [wire]⟩
    | some p =>
      have hp : p ∈ s.sleeping := List.mem_of_find?_eq_some hs
      refine agree_attempt (s := { s with sleeping := s.sleeping.erase p })
        (t := { t with sleeping := t.sleeping.erase (p.1, p.2.2) }) ⟨h1, h2, ?_, fun q hq => h4 q (List.mem_of_mem_erase hq)⟩
        p.1 p.2.1 p.2.2 (h4 p hp)
      dsimp only
      rw [← h3, erase_first _ _ _ hs]
  | cancel id =>
    refine ⟨⟨h1, h2, ?_, fun p hp => h4 p (List.mem_filter.1 hp).1⟩, by simp [wire]⟩
    dsimp only
    rw [← h3, List.filter_map]; rfl
  | pause =>
    dsimp only
    by_cases hl : t.locked = true
    · rw [if_pos hl, if_pos (h1.trans hl)]; exact ⟨⟨h1, rfl, h3, h4⟩, by simp [wire]⟩
    · rw [if_neg hl, if_neg (by rw [h1]; exact hl)]; exact ⟨⟨rfl, h2, h3, h4⟩, by simp [wire, wired]⟩
  | resume =>
    dsimp only
    by_cases hl : t.locked = true
    · rw [if_pos hl, if_pos (h1.trans hl)]; exact ⟨⟨rfl, h2, h3, h4⟩, by simp [wire, wired]⟩
    · rw [if_neg hl, if_neg (by rw [h1]; exact hl)]; exact ⟨hA, by simp [wire, handler]⟩

theorem agree_run {s : Sender} {t : SState} (h : Agree s t) (evs : List SEv) :
    (t.run evs).trace.map wired = t.trace.map wired ++ wire (s.run evs) := by
  induction evs generalizing s t with
  | nil => simp [SState.run, Sender.run, wire]
  | cons e evs ih =>
    obtain ⟨h1, h2⟩ := agree_step h e
    rw [Sender.run, wire_append, ← List.append_assoc, ← h2, ← ih h1]
    rfl

/-! ## The handler -/

theorem run_keeps (h : Handler) (evs : List HEv) (hs : ∀ x, .set x ∉ evs) :
    h.run evs = if .construct ∈ evs then .pyown else h := by
  induction evs generalizing h with
  | nil => rfl
  | cons e evs ih =>
    have hs' : ∀ x, .set x ∉ evs := fun x hx => hs x (List.mem_cons_of_mem _ hx)
    change (h.step e).run evs = _
    rw [ih _ hs']
    cases e with
    | set x => exact absurd List.mem_cons_self (hs x)
    | construct => simp [Handler.step]
    | start | close | report => simp [Handler.step]

end WireLogs
