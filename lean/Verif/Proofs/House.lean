import Verif.Spec.House
import Verif.Props.Commands
import Verif.Props.Queries
import Verif.Props.Messages
import Mathlib.Data.List.Forall2
import Mathlib.Tactic.IntervalCases

/-!
# Lemmas about the house
-/

open Py Spec M Client Item

namespace Spec.House

theorem address_star {a : Str} (h : Address a) : '*' ∉ a := by
  intro hm
  have := h.1 _ hm
  simp [TagChar] at this

/-! ## Frames determine orders -/

/-- The tables read backwards. -/
def undo (who what : Str) : Wish :=
  if who = cs!"2" then
    if what = cs!"0" then .stop else if what = cs!"1" then .up else .down
  else if what = cs!"0" then .off
  else if what = cs!"1" then .on
  else if what = cs!"2" then .level 20
  else if what = cs!"3" then .level 30
  else if what = cs!"4" then .level 40
  else if what = cs!"5" then .level 50
  else if what = cs!"6" then .level 60
  else if what = cs!"7" then .level 70
  else if what = cs!"8" then .level 80
  else if what = cs!"9" then .level 90
  else .level 100

theorem documented_frame {wish : Wish} (h : Lamp wish ∨ Motion wish) (target : Str) :
    ∃ (who : Who) (what : Str), documented wish target = some (frame [who.code, what, target]) ∧ TagText what ∧
      ¬ HasHH what ∧ what.length ≤ 2 ∧ undo who.code what = wish := by
  have hh : ∀ s : Str, '#' ∉ s → ¬ HasHH s := by
    rintro s h ⟨u, v, rfl⟩
    simp at h
  have one : ∀ c : Char, c ∈ cs!"0123456789" → TagText [c] ∧ ¬ HasHH [c] ∧ [c].length ≤ 2 := by
    intro c hc
    refine ⟨?_, hh _ ?_, by simp⟩
    · intro d hd
      simp only [List.mem_singleton] at hd
      subst hd
      simp only [TagChar]
      simp only [List.mem_cons, List.not_mem_nil, or_false] at hc ⊢
      tauto
    · rintro h
      simp only [List.mem_singleton] at h
      subst h
      simp at hc
  rcases h with (rfl | rfl | ⟨n, h1, h2, rfl⟩) | (rfl | rfl | rfl)
  · exact ⟨.lighting, _, rfl, (one '0' (by simp)).1, (one '0' (by simp)).2.1, by simp, rfl⟩
  · exact ⟨.lighting, _, rfl, (one '1' (by simp)).1, (one '1' (by simp)).2.1, by simp, rfl⟩
  · interval_cases n
    · exact ⟨.lighting, _, rfl, (one '2' (by simp)).1, (one '2' (by simp)).2.1, by simp, rfl⟩
    · exact ⟨.lighting, _, rfl, (one '3' (by simp)).1, (one '3' (by simp)).2.1, by simp, rfl⟩
    · exact ⟨.lighting, _, rfl, (one '4' (by simp)).1, (one '4' (by simp)).2.1, by simp, rfl⟩
    · exact ⟨.lighting, _, rfl, (one '5' (by simp)).1, (one '5' (by simp)).2.1, by simp, rfl⟩
    · exact ⟨.lighting, _, rfl, (one '6' (by simp)).1, (one '6' (by simp)).2.1, by simp, rfl⟩
    · exact ⟨.lighting, _, rfl, (one '7' (by simp)).1, (one '7' (by simp)).2.1, by simp, rfl⟩
    · exact ⟨.lighting, _, rfl, (one '8' (by simp)).1, (one '8' (by simp)).2.1, by simp, rfl⟩
    · exact ⟨.lighting, _, rfl, (one '9' (by simp)).1, (one '9' (by simp)).2.1, by simp, rfl⟩
    · refine ⟨.lighting, cs!"10", rfl, ?_, hh _ (by simp), by simp, rfl⟩
      simp [TagText, TagChar]
  · exact ⟨.automation, _, rfl, (one '0' (by simp)).1, (one '0' (by simp)).2.1, by simp, rfl⟩
  · exact ⟨.automation, _, rfl, (one '1' (by simp)).1, (one '1' (by simp)).2.1, by simp, rfl⟩
  · exact ⟨.automation, _, rfl, (one '2' (by simp)).1, (one '2' (by simp)).2.1, by simp, rfl⟩

theorem who_star (w : Who) : '*' ∉ w.code := by
  intro h
  have := TagText.of_digits w.code_digits _ h
  simp [TagChar] at this

theorem documented_inj {wish wish' : Wish} {target target' text : Str} (h : Lamp wish ∨ Motion wish)
    (h' : Lamp wish' ∨ Motion wish') (ha : Address target) (ha' : Address target')
    (ht : documented wish target = some text) (ht' : documented wish' target' = some text) :
    wish = wish' ∧ target = target' := by
  obtain ⟨w, a, e, t, _, _, u⟩ := documented_frame h target
  obtain ⟨w', a', e', t', _, _, u'⟩ := documented_frame h' target'
  rw [e] at ht
  rw [e'] at ht'
  have star : ∀ (w : Who) (a t : Str), TagText a → Address t → ∀ s ∈ [w.code, a, t], '*' ∉ s := by
    intro w a t h1 h2 s hs
    simp only [List.mem_cons, List.not_mem_nil, or_false] at hs
    rcases hs with rfl | rfl | rfl
    · exact who_star w
    · exact fun h => by have := h1 _ h; simp [TagChar] at this
    · exact address_star h2
  have := frame_inj (by simp) (by simp) (star w a _ t ha) (star w' a' _ t' ha')
    (Option.some.inj (ht.trans ht'.symm))
  simp only [List.cons.injEq, and_true] at this
  exact ⟨by rw [← u, ← u', this.1, this.2.1], this.2.2⟩

theorem status_star {c : Char} (hc : c ≠ '*') {t : Str} (h : Address t) : ∀ s ∈ [['#', c], t], '*' ∉ s := by
  intro s hs
  simp only [List.mem_cons, List.not_mem_nil, or_false] at hs
  rcases hs with rfl | rfl
  · simp [hc.symm]
  · exact address_star h

theorem order_ne_status {wish : Wish} {target target' text : Str} {c : Char} (hc : c ≠ '*') (h : Lamp wish ∨ Motion wish)
    (ha : Address target) (ha' : Address target') (ht : documented wish target = some text) :
    text ≠ frame [['#', c], target'] := by
  rintro rfl
  obtain ⟨w, a, e, t, _, _, _⟩ := documented_frame h target
  rw [e] at ht
  have := frame_inj (by simp) (by simp) ?_ (status_star hc ha') (Option.some.inj ht)
  · simp at this
  · intro s hs
    simp only [List.mem_cons, List.not_mem_nil, or_false] at hs
    rcases hs with rfl | rfl | rfl
    · exact who_star w
    · exact fun h => by have := t _ h; simp [TagChar] at this
    · exact address_star ha

/-- A house reacts in one way. -/
theorem hears_unique {h h1 h2 : House} {text : Str} {r1 r2 : List Str} (a : h.Hears text h1 r1) (b : h.Hears text h2 r2) :
    h1 = h2 ∧ r1 = r2 := by
  have c1 : ('1' : Char) ≠ '*' := by decide
  have c2 : ('2' : Char) ≠ '*' := by decide
  generalize ht : text = t at b
  cases a with
  | order hw ha hd =>
    cases b with
    | order hw' ha' hd' =>
      obtain ⟨rfl, rfl⟩ := documented_inj hw hw' ha ha' (ht ▸ hd) hd'
      exact ⟨rfl, rfl⟩
    | lamps ha' => exact absurd ht (order_ne_status c1 hw ha ha' hd)
    | shutters ha' => exact absurd ht (order_ne_status c2 hw ha ha' hd)
  | lamps ha =>
    cases b with
    | order hw' ha' hd' => exact absurd ht.symm (order_ne_status c1 hw' ha' ha hd')
    | lamps ha' =>
      have := frame_inj (by simp) (by simp) (status_star c1 ha) (status_star c1 ha') ht
      simp only [List.cons.injEq, and_true, true_and] at this
      subst this
      exact ⟨rfl, rfl⟩
    | shutters ha' =>
      have := frame_inj (by simp) (by simp) (status_star c1 ha) (status_star c2 ha') ht
      simp at this
  | shutters ha =>
    cases b with
    | order hw' ha' hd' => exact absurd ht.symm (order_ne_status c2 hw' ha' ha hd')
    | lamps ha' =>
      have := frame_inj (by simp) (by simp) (status_star c2 ha) (status_star c1 ha') ht
      simp at this
    | shutters ha' =>
      have := frame_inj (by simp) (by simp) (status_star c2 ha) (status_star c2 ha') ht
      simp only [List.cons.injEq, and_true, true_and] at this
      subst this
      exact ⟨rfl, rfl⟩

theorem lives_snoc {h h2 : House} {texts replies : List Str} {text : Str} (a : h.Lives (texts ++ [text]) h2 replies) :
    ∃ h1 r more, h.Lives texts h1 r ∧ h1.Hears text h2 more ∧ replies = r ++ more := by
  generalize e : texts ++ [text] = l at a
  cases a with
  | start => simp at e
  | next a b =>
    obtain ⟨rfl, e2⟩ := List.append_inj' e rfl
    cases e2
    exact ⟨_, _, _, a, b, rfl⟩

theorem lives_unique {h h1 h2 : House} {texts r1 r2 : List Str} (a : h.Lives texts h1 r1) (b : h.Lives texts h2 r2) :
    h1 = h2 ∧ r1 = r2 := by
  induction a generalizing h2 r2 with
  | start =>
    generalize e : ([] : List Str) = l at b
    cases b with
    | start => exact ⟨rfl, rfl⟩
    | next _ _ => simp at e
  | next _ hh ih =>
    obtain ⟨h3, r, more, b1, b2, rfl⟩ := lives_snoc b
    obtain ⟨rfl, rfl⟩ := ih b1
    obtain ⟨rfl, rfl⟩ := hears_unique hh b2
    exact ⟨rfl, rfl⟩

/-! ## Reports -/

theorem address_frame {a what : Str} {who : Who} (ha : Address a) (hw : TagText what) (hh : ¬ HasHH what) :
    parseMessage (frame [who.code, what, a]) = .ok (.normal who ⟨what⟩ ⟨a⟩) := by
  refine (C07_rows who what a [] [] ?_).1 (oneHH_frame ((not_hasHH_body_hash (by simp)).2 ⟨?_, ?_⟩))
  · intro t ht
    simp only [List.mem_cons, List.not_mem_nil, or_false] at ht
    rcases ht with rfl | rfl | rfl
    · exact hw
    · exact ha.1
    · exact fun _ h => by cases h
  · intro t ht
    simp only [List.mem_cons, List.not_mem_nil, or_false] at ht
    rcases ht with rfl | rfl | rfl
    · rintro ⟨u, v, e⟩
      have hd := who.code_digits
      have : '#' ∈ who.code := by rw [e]; simp
      exact Digits.not_hash hd this
    · exact hh
    · exact ha.2.1
  · intro t ht
    simp at ht
    subst ht
    exact ha.2.2

theorem ack_parse : parseMessage cs!"*#*1##" = .ok .ack := by decide +kernel

/-! ## One call -/

/-- `text` is the text of the message `m`. -/
abbrev Says (text : Str) (m : Msg) : Prop := parseMessage text = .ok m

theorem says_prefix {texts said : List Str} {ms got : List Msg} (h : List.Forall₂ Says texts ms) (hs : said <+: texts)
    (hg : List.Forall₂ Says said got) : got <+: ms := by
  induction hg generalizing texts ms with
  | nil => exact List.nil_prefix
  | cons h1 _ ih =>
    cases h with
    | nil => simp at hs
    | cons h2 h3 =>
      obtain ⟨rfl, hs2⟩ := List.cons_prefix_cons.1 hs
      unfold Says at h1 h2
      rw [h1] at h2
      cases h2
      exact List.cons_prefix_cons.2 ⟨rfl, ih h3 hs2⟩

theorem says_ack {texts : List Str} {ms : List Msg} (h : List.Forall₂ Says texts ms) :
    List.Forall₂ Says (texts ++ [cs!"*#*1##"]) (ms ++ [.ack]) :=
  List.rel_append h (.cons ack_parse .nil)

theorem split_inbox {β : Type} (body : Msg → Except Err (List β)) (inbox : List InEv) :
    ∃ (good : List Msg) (yss : List (List β)) (tail : List InEv), (∀ m ∈ good, StatusReply m) ∧
      inbox = good.map .msg ++ tail ∧ List.Forall₂ (fun m ys => body m = .ok ys) good yss ∧
      ((∃ r rest acts, Ending StatusReply tail r rest acts) ∨
        ∃ bad rest e, tail = .msg bad :: rest ∧ StatusReply bad ∧ body bad = .error e) := by
  induction inbox with
  | nil => exact ⟨[], [], [], by simp, rfl, .nil, .inl ⟨_, _, _, .nothing⟩⟩
  | cons e l ih =>
    cases e with
    | silence => exact ⟨[], [], _, by simp, rfl, .nil, .inl ⟨_, _, _, .silent l⟩⟩
    | msg m =>
      by_cases ha : m = .ack
      · subst ha
        exact ⟨[], [], _, by simp, rfl, .nil, .inl ⟨_, _, _, .acknowledged l⟩⟩
      by_cases hm : StatusReply m
      · cases hb : body m with
        | error e => exact ⟨[], [], _, by simp, rfl, .nil, .inr ⟨m, l, e, rfl, hm, hb⟩⟩
        | ok ys =>
          obtain ⟨good, yss, tail, h1, h2, h3, h4⟩ := ih
          refine ⟨m :: good, ys :: yss, tail, ?_, by rw [h2]; rfl, .cons hb h3, h4⟩
          intro x hx
          rcases List.mem_cons.1 hx with rfl | hx
          · exact hm
          · exact h1 x hx
      · exact ⟨[], [], _, by simp, rfl, .nil, .inl ⟨_, _, _, .refused m l ha hm⟩⟩

theorem gotten_append (a b : List CAct) : gotten (a ++ b) = gotten a ++ gotten b := by
  induction a with
  | nil => rfl
  | cons x a ih => cases x <;> simp [gotten, ih]

theorem written_append (a b : List CAct) : written (a ++ b) = written a ++ written b := by
  induction a with
  | nil => rfl
  | cons x a ih => cases x <;> simp [written, ih]

theorem gotten_got (ms : List Msg) : gotten (ms.map .got) = ms := by
  induction ms with
  | nil => rfl
  | cons x a ih => simp [gotten, ih]

theorem written_got (ms : List Msg) : written (ms.map .got) = [] := by
  induction ms with
  | nil => rfl
  | cons x a ih => simp [written, ih]

theorem not_status_ack : ¬ StatusReply .ack := by rintro ⟨_, _, _, h⟩; cases h

/-- What a call does on a connection to a house: it writes `text`, and takes messages; if these are the first of the replies
`more`, it either times out or takes all of them and succeeds. -/
def Step {γ : Type} (x : γ × World) (late good : γ → Prop) (w : World) (text : Str) (more : List Str) : Prop :=
  ∃ rest acts, x.2 = w.after rest (.sent text :: acts) ∧ written acts = [] ∧
    ∀ said, said <+: more → List.Forall₂ Says said (gotten acts) → ¬ late x.1 →
      good x.1 ∧ List.Forall₂ Says more (gotten acts)

theorem query_step {β : Type} (cfg : Config) (i : Item) (hi : TagText i.wher.string) (body : Msg → Except Err (List β))
    (w : World) (hr : Ready cfg w) {texts : List Str} {ms : List Msg} {yss : List (List β)}
    (hp : List.Forall₂ Says texts ms) (hs : ∀ m ∈ ms, StatusReply m)
    (hb : List.Forall₂ (fun m ys => body m = .ok ys) ms yss) :
    Step (statusStream cfg i body w) (fun y => y.2 = .error .timeoutError) (fun y => y = (yss.flatten, .ok ())) w
      (frame ['#' :: i.who.code, i.wher.string]) (texts ++ [cs!"*#*1##"]) := by
  obtain ⟨good, zss, tail, g1, g2, g3, g4⟩ := split_inbox body w.inbox
  obtain ⟨q1, q2⟩ := (Queries.status_queries cfg i hi body w).2 hr good tail zss g1 g2 g3
  have hlast : ∀ m, good ++ [m] <+: ms ++ [.ack] → (m = .ack ∧ good = ms) ∨ m ∈ ms := by
    intro m h
    rcases List.prefix_concat_iff.1 h with h | h
    · obtain ⟨h1, h2⟩ := List.append_inj' h rfl
      cases h2
      exact .inl ⟨rfl, h1⟩
    · exact .inr (h.subset (by simp))
  rcases g4 with ⟨r, rest, acts, he⟩ | ⟨bad, rest, e, ht, hbad, hbe⟩
  · rw [q1 r rest acts he]
    refine ⟨rest, good.map .got ++ acts, rfl, ?_, ?_⟩
    · rw [written_append, written_got]
      cases he <;> rfl
    · intro said hsaid hf hlate
      rw [gotten_append, gotten_got] at hf ⊢
      have hpre := says_prefix (says_ack hp) hsaid hf
      cases he with
      | acknowledged =>
        rcases hlast .ack hpre with ⟨_, rfl⟩ | h
        · refine ⟨?_, says_ack hp⟩
          have h1 := Queries.mapM_of_forall₂ g3
          rw [Queries.mapM_of_forall₂ hb] at h1
          cases h1
          rfl
        · exact absurd (hs _ h) not_status_ack
      | refused m _ h1 h2 =>
        rcases hlast m hpre with ⟨h, _⟩ | h
        · exact absurd h h1
        · exact absurd (hs _ h) h2
      | silent => exact absurd rfl hlate
      | nothing => exact absurd rfl hlate
  · rw [q2 bad rest e ht hbad hbe]
    refine ⟨rest, good.map .got ++ [.got bad], rfl, ?_, ?_⟩
    · rw [written_append, written_got]; rfl
    · intro said hsaid hf hlate
      rw [gotten_append, gotten_got] at hf ⊢
      have hpre := says_prefix (says_ack hp) hsaid hf
      rcases hlast bad hpre with ⟨h, _⟩ | h
      · exact absurd (h ▸ hbad) not_status_ack
      · exfalso
        obtain ⟨k, hk, hm⟩ := List.getElem_of_mem h
        have := (List.forall₂_iff_get.1 hb).2 k hk (by rw [← hb.length_eq]; exact hk)
        simp only [List.get_eq_getElem, hm] at this
        rw [hbe] at this
        cases this

theorem order_step {cfg : Config} {x : M Unit} {text : Str} (hx : Sends cfg x text) (w : World) (hr : Ready cfg w) :
    Step (x w) (fun r => r = .error .timeoutError) (fun r => r = .ok ()) w text [cs!"*#*1##"] := by
  obtain ⟨r, rest, acts, he, _⟩ := C35_answer_total w.inbox
  rw [(hx w).1 hr r rest acts he]
  refine ⟨rest, acts, rfl, by generalize w.inbox = l at he; cases he <;> rfl, ?_⟩
  intro said hsaid hf hlate
  have hpre : gotten acts <+: [.ack] := says_prefix (texts := [cs!"*#*1##"]) (.cons ack_parse .nil) hsaid hf
  generalize w.inbox = l at he
  cases he with
  | acknowledged => exact ⟨rfl, .cons ack_parse .nil⟩
  | refused m _ h1 _ => simp [gotten] at hpre; exact absurd hpre h1
  | silent => exact absurd rfl hlate
  | nothing => exact absurd rfl hlate

theorem reports {β : Type} (body : Msg → Except Err (List β)) (st : Str → Wish) (f : Str → β) (ps : List Str)
    (ha : ∀ p ∈ ps, Address p)
    (hb : ∀ p ∈ ps, ∃ (who : Who) (what : Str), documented (st p) p = some (frame [who.code, what, p]) ∧ TagText what ∧
      ¬ HasHH what ∧ body (.normal who ⟨what⟩ ⟨p⟩) = .ok [f p]) :
    ∃ ms, List.Forall₂ Says (ps.filterMap fun p => documented (st p) p) ms ∧ (∀ m ∈ ms, StatusReply m) ∧
      List.Forall₂ (fun m ys => body m = .ok ys) ms (ps.map fun p => [f p]) := by
  induction ps with
  | nil => exact ⟨[], .nil, by simp, .nil⟩
  | cons p ps ih =>
    obtain ⟨ms, h1, h2, h3⟩ := ih (fun q hq => ha q (by simp [hq])) (fun q hq => hb q (by simp [hq]))
    obtain ⟨who, what, e1, e2, e3, e4⟩ := hb p (by simp)
    refine ⟨.normal who ⟨what⟩ ⟨p⟩ :: ms, ?_, ?_, .cons e4 h3⟩
    · rw [List.filterMap_cons, e1]
      exact .cons (address_frame (ha p (by simp)) e2 e3) h1
    · intro m hm
      rcases List.mem_cons.1 hm with rfl | hm
      · exact ⟨_, _, _, rfl⟩
      · exact h2 m hm

theorem flatten_single {α β : Type} (f : α → β) (l : List α) : (l.map fun a => [f a]).flatten = l.map f := by
  induction l with
  | nil => rfl
  | cons a l ih => simp [ih]

theorem light_reports (h : House) (hs : h.Sound) (target : Str) (hl : ∀ p ∈ h.lampsAt target, h.dimmer p = false) :
    ∃ ms, List.Forall₂ Says ((h.lampsAt target).filterMap fun p => documented (h.lamp p) p) ms ∧
      (∀ m ∈ ms, StatusReply m) ∧ List.Forall₂ (fun m ys => Light.statusBody m = .ok ys) ms
        ((h.lampsAt target).map fun p => [((⟨p⟩ : Tag), lit (h.lamp p))]) := by
  refine reports _ _ (fun p => ((⟨p⟩ : Tag), lit (h.lamp p))) _ (fun p hp => hs.lamps p (List.mem_filter.1 hp).1) fun p hp => ?_
  rcases hs.plain p (hl p hp) with e | e
  · rw [e]
    exact ⟨.lighting, cs!"1", rfl, by simp [TagText, TagChar], by rintro ⟨u, v, h⟩; have := congrArg List.length h; simp at this; omega, rfl⟩
  · rw [e]
    exact ⟨.lighting, cs!"0", rfl, by simp [TagText, TagChar], by rintro ⟨u, v, h⟩; have := congrArg List.length h; simp at this; omega, rfl⟩

theorem dimmer_reports (h : House) (hs : h.Sound) (target : Str) (hl : ∀ p ∈ h.lampsAt target, h.dimmer p = true) :
    ∃ ms, List.Forall₂ Says ((h.lampsAt target).filterMap fun p => documented (h.lamp p) p) ms ∧
      (∀ m ∈ ms, StatusReply m) ∧ List.Forall₂ (fun m ys => Dimmer.statusBody m = .ok ys) ms
        ((h.lampsAt target).map fun p => [((⟨p⟩ : Tag), percent (h.lamp p))]) := by
  refine reports _ _ (fun p => ((⟨p⟩ : Tag), percent (h.lamp p))) _ (fun p hp => hs.lamps p (List.mem_filter.1 hp).1) fun p hp => ?_
  obtain ⟨who, what, e1, e2, e3, _, _⟩ := documented_frame (.inl (hs.lamp p)) p
  refine ⟨who, what, e1, e2, e3, ?_⟩
  have key : ∀ (w : Str) (n : Int), documented (h.lamp p) p = some (frame [cs!"1", w, p]) → TagText w →
      percent (h.lamp p) = n → (∀ who, Dimmer.statusBody (.normal who ⟨w⟩ ⟨p⟩) = .ok [(⟨p⟩, n)]) →
      Dimmer.statusBody (.normal who ⟨what⟩ ⟨p⟩) = .ok [(⟨p⟩, percent (h.lamp p))] := by
    intro w n e tw hn hb
    have star : ∀ (x a : Str), TagText x → TagText a → ∀ s ∈ [x, a, p], '*' ∉ s := by
      intro x a t1 t2 s hs'
      simp only [List.mem_cons, List.not_mem_nil, or_false] at hs'
      rcases hs' with rfl | rfl | rfl
      · exact fun h => by have := t1 _ h; simp [TagChar] at this
      · exact fun h => by have := t2 _ h; simp [TagChar] at this
      · exact address_star (hs.lamps _ (List.mem_filter.1 hp).1)
    have := frame_inj (by simp) (by simp) (star _ _ (TagText.of_digits who.code_digits) e2)
      (star cs!"1" w (by simp [TagText, TagChar]) tw) (Option.some.inj (e1.symm.trans e))
    simp only [List.cons.injEq, and_true] at this
    rw [this.2, hn]
    exact hb who
  rcases hs.lamp p with e | e | ⟨n, h1, h2, e⟩
  · exact key cs!"0" 0 (by rw [e]; rfl) (by simp [TagText, TagChar]) (by rw [e]; rfl) fun _ => rfl
  · exact absurd e (hs.dimmer p (hl p hp))
  · interval_cases n
    · exact key cs!"2" 20 (by rw [e]; rfl) (by simp [TagText, TagChar]) (by rw [e]; rfl) fun _ => rfl
    · exact key cs!"3" 30 (by rw [e]; rfl) (by simp [TagText, TagChar]) (by rw [e]; rfl) fun _ => rfl
    · exact key cs!"4" 40 (by rw [e]; rfl) (by simp [TagText, TagChar]) (by rw [e]; rfl) fun _ => rfl
    · exact key cs!"5" 50 (by rw [e]; rfl) (by simp [TagText, TagChar]) (by rw [e]; rfl) fun _ => rfl
    · exact key cs!"6" 60 (by rw [e]; rfl) (by simp [TagText, TagChar]) (by rw [e]; rfl) fun _ => rfl
    · exact key cs!"7" 70 (by rw [e]; rfl) (by simp [TagText, TagChar]) (by rw [e]; rfl) fun _ => rfl
    · exact key cs!"8" 80 (by rw [e]; rfl) (by simp [TagText, TagChar]) (by rw [e]; rfl) fun _ => rfl
    · exact key cs!"9" 90 (by rw [e]; rfl) (by simp [TagText, TagChar]) (by rw [e]; rfl) fun _ => rfl
    · exact key cs!"10" 100 (by rw [e]; rfl) (by simp [TagText, TagChar]) (by rw [e]; rfl) fun _ => rfl

theorem automation_reports (h : House) (hs : h.Sound) (target : Str) :
    ∃ ms, List.Forall₂ Says ((h.shuttersAt target).filterMap fun p => documented (h.shutter p) p) ms ∧
      (∀ m ∈ ms, StatusReply m) ∧ List.Forall₂ (fun m ys => Automation.statusBody m = .ok ys) ms
        ((h.shuttersAt target).map fun p => [((⟨p⟩ : Tag), motion (h.shutter p))]) := by
  refine reports _ _ (fun p => ((⟨p⟩ : Tag), motion (h.shutter p))) _ (fun p hp => hs.shutters p (List.mem_filter.1 hp).1) fun p hp => ?_
  have hh : ∀ c : Char, ¬ HasHH [c] := by
    rintro c ⟨u, v, h⟩; have := congrArg List.length h; simp at this; omega
  rcases hs.shutter p with e | e | e <;> rw [e]
  · exact ⟨.automation, cs!"0", rfl, by simp [TagText, TagChar], hh _, rfl⟩
  · exact ⟨.automation, cs!"1", rfl, by simp [TagText, TagChar], hh _, rfl⟩
  · exact ⟨.automation, cs!"2", rfl, by simp [TagText, TagChar], hh _, rfl⟩

/-- Every call is a step. -/
theorem call_step (cfg : Config) (h : House) (hs : h.Sound) (c : Deed) (hc : c.Fits h) (w : World) (hr : Ready cfg w) :
    ∃ text more, h.Hears text (c.effect h) more ∧
      Step (c.run cfg w) Outcome.late (fun o => o = c.expected h) w text more := by
  cases c with
  | order c target =>
    have hne : c ≠ .baseTurnOn30Min ∧ c ≠ .cameraFreeResources := by
      constructor <;> rintro rfl <;> rcases hc.1 with (h | h | ⟨_, _, _, h⟩) | (h | h | h) <;> cases h
    obtain ⟨text, h1, h2⟩ := C39_command_table_partial cfg c hne ⟨target⟩ hc.2.1
    refine ⟨text, _, .order hc.1 hc.2 h1, ?_⟩
    obtain ⟨rest, acts, e1, e2, e3⟩ := order_step h2 w hr
    refine ⟨rest, acts, e1, e2, fun said a b l => ?_⟩
    obtain ⟨g1, g2⟩ := e3 said a b l
    exact ⟨congrArg Outcome.order g1, g2⟩
  | light target =>
    obtain ⟨ms, h1, h2, h3⟩ := light_reports h hs target hc.2
    refine ⟨_, _, .lamps hc.1, ?_⟩
    obtain ⟨rest, acts, e1, e2, e3⟩ := query_step cfg ⟨.lighting, ⟨target⟩⟩ hc.1.1 Light.statusBody w hr h1 h2 h3
    refine ⟨rest, acts, e1, e2, fun said a b l => ?_⟩
    obtain ⟨g1, g2⟩ := e3 said a b l
    refine ⟨?_, g2⟩
    rw [flatten_single] at g1
    exact congrArg (fun y : List (Tag × Bool) × Except Err Unit => Outcome.light y.1 y.2) g1
  | dimmer target =>
    obtain ⟨ms, h1, h2, h3⟩ := dimmer_reports h hs target hc.2
    refine ⟨_, _, .lamps hc.1, ?_⟩
    obtain ⟨rest, acts, e1, e2, e3⟩ := query_step cfg ⟨.lighting, ⟨target⟩⟩ hc.1.1 Dimmer.statusBody w hr h1 h2 h3
    refine ⟨rest, acts, e1, e2, fun said a b l => ?_⟩
    obtain ⟨g1, g2⟩ := e3 said a b l
    refine ⟨?_, g2⟩
    rw [flatten_single] at g1
    exact congrArg (fun y : List (Tag × Int) × Except Err Unit => Outcome.dimmer y.1 y.2) g1
  | automation target =>
    obtain ⟨ms, h1, h2, h3⟩ := automation_reports h hs target
    refine ⟨_, _, .shutters hc, ?_⟩
    obtain ⟨rest, acts, e1, e2, e3⟩ := query_step cfg ⟨.automation, ⟨target⟩⟩ hc.1 Automation.statusBody w hr h1 h2 h3
    refine ⟨rest, acts, e1, e2, fun said a b l => ?_⟩
    obtain ⟨g1, g2⟩ := e3 said a b l
    refine ⟨?_, g2⟩
    rw [flatten_single] at g1
    exact congrArg (fun y : List (Tag × Str) × Except Err Unit => Outcome.automation y.1 y.2) g1

/-! ## The house stays sound -/

theorem does_fields (h : House) (wish : Wish) (target : Str) :
    (h.does wish target).reach = h.reach ∧ (h.does wish target).lamps = h.lamps ∧
    (h.does wish target).shutters = h.shutters ∧ (h.does wish target).dimmer = h.dimmer := by
  unfold does
  split <;> exact ⟨rfl, rfl, rfl, rfl⟩

theorem fits_does {h : House} {wish : Wish} {target : Str} {c : Deed} (hc : c.Fits h) : c.Fits (h.does wish target) := by
  obtain ⟨e1, e2, e3, e4⟩ := does_fields h wish target
  cases c with
  | order c t => exact hc
  | light t => unfold Deed.Fits lampsAt at *; rw [e1, e2, e4]; exact hc
  | dimmer t => unfold Deed.Fits lampsAt at *; rw [e1, e2, e4]; exact hc
  | automation t => exact hc

theorem fits_effect {h : House} {c d : Deed} (hc : c.Fits h) : c.Fits (d.effect h) := by
  cases d with
  | order d t => exact fits_does hc
  | light t => exact hc
  | dimmer t => exact hc
  | automation t => exact hc

theorem settle_lamp {b : Bool} {w : Wish} (h : Lamp w) :
    Lamp (settle b w) ∧ (b = true → settle b w ≠ .on) ∧ (b = false → settle b w = .on ∨ settle b w = .off) := by
  rcases h with rfl | rfl | ⟨n, h1, h2, rfl⟩ <;> cases b <;> simp [settle, Lamp]
  · exact ⟨10, by omega, by omega, rfl⟩
  · exact ⟨h1, h2⟩

theorem sound_lamp {h : House} (hs : h.Sound) {wish : Wish} (hw : Lamp wish) (target : Str) :
    Sound { h with lamp := fun p => if h.reach target p then settle (h.dimmer p) wish else h.lamp p } where
  lamps := hs.lamps
  shutters := hs.shutters
  lamp := fun p => by
    dsimp only
    split_ifs
    · exact (settle_lamp hw).1
    · exact hs.lamp p
  dimmer := fun p hp => by
    dsimp only at hp ⊢
    split_ifs
    · exact (settle_lamp hw).2.1 hp
    · exact hs.dimmer p hp
  plain := fun p hp => by
    dsimp only at hp ⊢
    split_ifs
    · exact (settle_lamp hw).2.2 hp
    · exact hs.plain p hp
  shutter := hs.shutter

theorem sound_shutter {h : House} (hs : h.Sound) {wish : Wish} (hw : Motion wish) (target : Str) :
    Sound { h with shutter := fun p => if h.reach target p then wish else h.shutter p } where
  lamps := hs.lamps
  shutters := hs.shutters
  lamp := hs.lamp
  dimmer := hs.dimmer
  plain := hs.plain
  shutter := fun p => by
    dsimp only
    split_ifs
    · exact hw
    · exact hs.shutter p

theorem sound_does {h : House} (hs : h.Sound) {wish : Wish} (hw : Lamp wish ∨ Motion wish) (target : Str) :
    (h.does wish target).Sound := by
  rcases hw with hw | hw
  · have : h.does wish target =
        { h with lamp := fun p => if h.reach target p then settle (h.dimmer p) wish else h.lamp p } := by
      rcases hw with rfl | rfl | ⟨n, _, _, rfl⟩ <;> rfl
    rw [this]
    exact sound_lamp hs hw target
  · have : h.does wish target = { h with shutter := fun p => if h.reach target p then wish else h.shutter p } := by
      rcases hw with rfl | rfl | rfl <;> rfl
    rw [this]
    exact sound_shutter hs hw target

theorem sound_effect {h : House} (hs : h.Sound) {c : Deed} (hc : c.Fits h) : (c.effect h).Sound := by
  cases c with
  | order c t => exact sound_does hs hc.1 t
  | light t => exact hs
  | dimmer t => exact hs
  | automation t => exact hs

/-! ## A house that answers at once -/

theorem query_serve {β : Type} (cfg : Config) (i : Item) (hi : TagText i.wher.string) (body : Msg → Except Err (List β))
    (w : World) (hr : Ready cfg w) {ms : List Msg} {yss : List (List β)} (hs : ∀ m ∈ ms, StatusReply m)
    (hb : List.Forall₂ (fun m ys => body m = .ok ys) ms yss) (rest : List InEv)
    (hin : w.inbox = (ms ++ [Msg.ack]).map .msg ++ rest) :
    statusStream cfg i body w = ((yss.flatten, .ok ()),
      w.after rest (.sent (frame ['#' :: i.who.code, i.wher.string]) :: (ms ++ [Msg.ack]).map .got)) := by
  have := ((Queries.status_queries cfg i hi body w).2 hr ms (.msg .ack :: rest) yss hs (by rw [hin]; simp) hb).1
    _ _ _ (.acknowledged rest)
  rw [this]
  simp

theorem call_serve (cfg : Config) (h : House) (hs : h.Sound) (c : Deed) (hc : c.Fits h) :
    ∃ text more ms, h.Hears text (c.effect h) more ∧ List.Forall₂ Says more ms ∧
      ∀ w rest, Ready cfg w → w.inbox = ms.map .msg ++ rest →
        c.run cfg w = (c.expected h, w.after rest (.sent text :: ms.map .got)) := by
  cases c with
  | order c target =>
    have hne : c ≠ .baseTurnOn30Min ∧ c ≠ .cameraFreeResources := by
      constructor <;> rintro rfl <;> rcases hc.1 with (h | h | ⟨_, _, _, h⟩) | (h | h | h) <;> cases h
    obtain ⟨text, h1, h2⟩ := C39_command_table_partial cfg c hne ⟨target⟩ hc.2.1
    refine ⟨text, _, [.ack], .order hc.1 hc.2 h1, .cons ack_parse .nil, fun w rest hr hin => ?_⟩
    have := (h2 w).1 hr (.ok ()) rest [.got .ack] (by rw [hin]; exact .acknowledged rest)
    simp only [Deed.run, this]
    rfl
  | light target =>
    obtain ⟨ms, h1, h2, h3⟩ := light_reports h hs target hc.2
    refine ⟨_, _, ms ++ [.ack], .lamps hc.1, says_ack h1, fun w rest hr hin => ?_⟩
    have := query_serve cfg ⟨.lighting, ⟨target⟩⟩ hc.1.1 Light.statusBody w hr h2 h3 rest hin
    rw [flatten_single] at this
    simp only [Deed.run, Light.getStatus, this]
    rfl
  | dimmer target =>
    obtain ⟨ms, h1, h2, h3⟩ := dimmer_reports h hs target hc.2
    refine ⟨_, _, ms ++ [.ack], .lamps hc.1, says_ack h1, fun w rest hr hin => ?_⟩
    have := query_serve cfg ⟨.lighting, ⟨target⟩⟩ hc.1.1 Dimmer.statusBody w hr h2 h3 rest hin
    rw [flatten_single] at this
    simp only [Deed.run, Dimmer.getStatus, this]
    rfl
  | automation target =>
    obtain ⟨ms, h1, h2, h3⟩ := automation_reports h hs target
    refine ⟨_, _, ms ++ [.ack], .shutters hc, says_ack h1, fun w rest hr hin => ?_⟩
    have := query_serve cfg ⟨.automation, ⟨target⟩⟩ hc.1 Automation.statusBody w hr h2 h3 rest hin
    rw [flatten_single] at this
    simp only [Deed.run, Automation.getStatus, this]
    rfl

/-- All replies so far have been taken. -/
def Even (h0 : House) (done : List CAct) (h : House) : Prop :=
  ∃ replies, h0.Lives (written done) h replies ∧ List.Forall₂ Says replies (gotten done)

theorem even_nil (h : House) : Even h [] h := ⟨[], .start, .nil⟩

theorem even_serve {h0 h h' : House} {done acts : List CAct} {text : Str} {more : List Str} (hi : Even h0 done h)
    (hh : h.Hears text h' more) (hw : written acts = []) (hm : List.Forall₂ Says more (gotten acts)) :
    Even h0 (done ++ .sent text :: acts) h' := by
  obtain ⟨replies, a, b⟩ := hi
  refine ⟨replies ++ more, ?_, ?_⟩
  · rw [written_append]
    simp only [written, hw]
    exact .next a hh
  · rw [gotten_append]
    exact List.rel_append b hm

theorem prefix_got {pre : List CAct} {ms : List Msg} (h : pre <+: ms.map .got) : ∃ k, pre = (ms.take k).map .got := by
  refine ⟨pre.length, ?_⟩
  rw [List.map_take]
  exact List.prefix_iff_eq_take.1 h

theorem forall₂_take {α β : Type} {R : α → β → Prop} {l : List α} {m : List β} (h : List.Forall₂ R l m) (k : Nat) :
    List.Forall₂ R (l.take k) (m.take k) := by
  induction h generalizing k with
  | nil => simp
  | cons h1 _ ih =>
    cases k with
    | zero => simp
    | succ k => exact .cons h1 (ih k)

theorem forall₂_drop {α β : Type} {R : α → β → Prop} {l : List α} {m : List β} (h : List.Forall₂ R l m) (k : Nat) :
    List.Forall₂ R (l.drop k) (m.drop k) := by
  induction h generalizing k with
  | nil => simp
  | cons h1 h2 ih =>
    cases k with
    | zero => exact .cons h1 h2
    | succ k => exact ih k

theorem serves_next {h0 h h' : House} {done : List CAct} {text : Str} {more : List Str} {ms : List Msg}
    (hs : Serves h0 done) (hi : Even h0 done h) (hh : h.Hears text h' more) (hm : List.Forall₂ Says more ms) :
    Serves h0 (done ++ .sent text :: ms.map .got) := by
  intro pre hpre
  rcases List.prefix_or_prefix_of_prefix hpre (List.prefix_append done _) with h1 | ⟨post, rfl⟩
  · exact hs pre h1
  · have hpost := (List.prefix_append_right_inj _).1 hpre
    rcases post with _ | ⟨x, post⟩
    · exact hs _ (by simp)
    · obtain ⟨rfl, hp⟩ := List.cons_prefix_cons.1 hpost
      obtain ⟨k, rfl⟩ := prefix_got hp
      obtain ⟨replies, a, b⟩ := hi
      refine ⟨h', replies ++ more, replies ++ more.take k, ?_, (List.prefix_append_right_inj _).2 (List.take_prefix _ _), ?_⟩
      · rw [written_append]
        simp only [written, written_got]
        exact .next a hh
      · rw [gotten_append]
        refine List.rel_append b ?_
        simp only [gotten, gotten_got]
        exact forall₂_take hm k

end Spec.House
