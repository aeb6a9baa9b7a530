import Verif.Model.Queries
import Verif.Spec.Queries
import Verif.Proofs.Gateway

/-!
# Lemmas about queries
-/

open Py Spec M Client Item

namespace Queries

theorem not_ready {cfg : Config} {w : World} (h : ¬ Ready cfg w) : w.started = false ∨ cfg.session = .event := by
  unfold Ready at h
  by_cases hs : w.started = true
  · exact .inr (by simpa [hs] using h)
  · exact .inl (by simpa using hs)

theorem mapM_of_forall₂ {α β : Type} {f : α → Except Err β} {l : List α} {ys : List β}
    (h : List.Forall₂ (fun a b => f a = .ok b) l ys) : l.mapM f = .ok ys := by
  induction h with
  | nil => rfl
  | cons h _ ih => rw [List.mapM_cons, h, ih]; rfl

/-- A generator reads what its body reads. -/
theorem stream_queries {β : Type} (cfg : Config) (m : Msg) (hm : ∀ t ∈ m.tags, TagText t) (want : Msg → Bool)
    (hw : want .ack = false ∧ want .nack = false) (body : Msg → Except Err (List β)) :
    Queries cfg (stream cfg m want body) m.str (fun m => want m = true) (fun m r => body m = r) := by
  intro w
  refine ⟨fun hr => ?_, fun hr good tail yss hg hin hf => ⟨fun r rest acts he => ?_, fun bad rest e ht hb he => ?_⟩⟩
  · unfold stream
    rw [send_denied (not_ready hr)]
  · unfold stream
    rw [send_allowed hr.1 hr.2 hm]
    dsimp only
    rw [drain_replies hw good yss _ (by exact hr.1) tail (by exact hin) hg (mapM_of_forall₂ hf)]
    rw [drain_ending hw (by exact hr.1) (by exact he)]
    simp
  · unfold stream
    rw [send_allowed hr.1 hr.2 hm]
    dsimp only
    rw [drain_replies hw good yss _ (by exact hr.1) tail (by exact hin) hg (mapM_of_forall₂ hf)]
    rw [drain_cons hw (by exact hr.1) (by exact ht) hb]
    rw [he]
    simp

/-- The reading relation and the kind of messages may be replaced by equivalent ones. -/
theorem queries_mono {β : Type} {cfg : Config} {query : World → (List β × Except Err Unit) × World} {text : Str}
    {wanted wanted' : Msg → Prop} {reads reads' : Msg → Except Err (List β) → Prop}
    (h : Spec.Queries cfg query text wanted reads) (hw : ∀ m, wanted m ↔ wanted' m)
    (hr : ∀ m r, wanted m → reads' m r → reads m r) : Spec.Queries cfg query text wanted' reads' := by
  obtain rfl : wanted = wanted' := funext fun m => propext (hw m)
  intro w
  refine ⟨(h w).1, fun hready good tail yss hg hin hf => ?_⟩
  have hf' : List.Forall₂ (fun m ys => reads m (.ok ys)) good yss := by
    clear hin
    induction hf with
    | nil => exact .nil
    | cons h1 _ ih => exact .cons (hr _ _ (hg _ (by simp)) h1) (ih fun m hm => hg m (by simp [hm]))
  refine ⟨((h w).2 hready good tail yss hg hin hf').1, fun bad rest e ht hb he => ?_⟩
  exact ((h w).2 hready good tail yss hg hin hf').2 bad rest e ht hb (hr _ _ hb he)

theorem isNormal_iff (m : Msg) : m.isNormal = true ↔ StatusReply m := by
  unfold StatusReply; cases m <;> simp [Msg.isNormal]

theorem isDimResp_iff (m : Msg) : m.isDimResp = true ↔ DimReply m := by
  unfold DimReply; cases m <;> simp [Msg.isDimResp]

theorem status_queries {β : Type} (cfg : Config) (i : Item) (hi : TagText i.wher.string) (body : Msg → Except Err (List β)) :
    Spec.Queries cfg (statusStream cfg i body) (frame ['#' :: i.who.code, i.wher.string]) StatusReply
      (fun m r => body m = r) := by
  have := stream_queries cfg i.statusMessage (tags_status hi) Msg.isNormal normal_ends body
  rw [str_status] at this
  exact queries_mono this isNormal_iff fun _ _ _ h => h

theorem dim_queries {β : Type} (cfg : Config) (i : Item) (hi : TagText i.wher.string) (dim : Tag) (hd : TagText dim.string)
    (body : Msg → Except Err (List β)) :
    Spec.Queries cfg (dimStream cfg i dim body) (frame ['#' :: i.who.code, i.wher.string, dim.string]) DimReply
      (fun m r => body m = r) := by
  have := stream_queries cfg (i.requestMessage dim) (tags_request hi hd) Msg.isDimResp dimResp_ends body
  rw [str_request] at this
  exact queries_mono this isDimResp_iff fun _ _ _ h => h

theorem dimStr_queries {β : Type} (cfg : Config) (i : Item) (hi : TagText i.wher.string) (dim : Str) (hd : TagText dim)
    (body : Msg → Except Err (List β)) :
    Spec.Queries cfg (dimStreamStr cfg i dim body) (frame ['#' :: i.who.code, i.wher.string, dim]) DimReply
      (fun m r => body m = r) := by
  have : dimStreamStr cfg i dim body = dimStream cfg i ⟨dim⟩ body := by
    funext w; unfold dimStreamStr; rw [ofStr_ok hd]
  rw [this]
  exact dim_queries cfg i hi ⟨dim⟩ hd body

/-! ## Reading the texts -/

theorem head_tag (t : Tag) : ∃ v, t.tag = .ok v ∧ Head t.string v := by
  obtain ⟨v, h1, h2, h3, h4⟩ := C02_tag_decomposition t
  refine ⟨v, h1, h3, ?_⟩
  rcases hp : t.parameters with _ | ⟨p, ps⟩
  · left; rw [h2, hp]; simp [paramText]
  · right; rw [h2, hp]; exact ⟨p ++ paramText ps, by simp [paramText]⟩

theorem head_unique {s v v' : Str} (h : Head s v) (h' : Head s v') : v = v' := by
  obtain ⟨h1, h2⟩ := h
  obtain ⟨h1', h2'⟩ := h'
  have key : ∀ (v v' p p' : Str), '#' ∉ v → '#' ∉ v' → v ++ '#' :: p = v' ++ '#' :: p' → v = v' := by
    intro v
    induction v with
    | nil =>
      intro v' p p' _ h' he
      cases v' with
      | nil => rfl
      | cons c v' => simp only [List.nil_append, List.cons_append, List.cons.injEq] at he; simp [← he.1] at h'
    | cons c v ih =>
      intro v' p p' h h' he
      cases v' with
      | nil => simp only [List.nil_append, List.cons_append, List.cons.injEq] at he; simp [he.1] at h
      | cons c' v' =>
        simp only [List.cons_append, List.cons.injEq] at he
        rw [he.1, ih v' p p' (by simp_all) (by simp_all) he.2]
  rcases h2 with h2 | ⟨p, h2⟩ <;> rcases h2' with h2' | ⟨p', h2'⟩
  · rw [← h2, ← h2']
  · rw [← h2, h2'] at h1; simp at h1
  · rw [← h2', h2] at h1'; simp at h1'
  · exact key v v' p p' h1 h1' (h2 ▸ h2')

theorem head_tagText {s v : Str} (h : TagText s) (hv : Head s v) : TagText v := by
  rcases hv.2 with rfl | ⟨p, rfl⟩
  · exact h
  · exact (TagText.append_iff.1 h).1

theorem plainTag_bare (t : Tag) : t.plainTag = bare t.string := by
  unfold Tag.plainTag
  rcases h : t.string with _ | ⟨c, s⟩
  · rfl
  · by_cases hc : c = '#'
    · subst hc; simp [removePrefix, startsWith, bare]
    · unfold bare
      have : removePrefix (c :: s) cs!"#" = c :: s := by
        simp [removePrefix, startsWith, hc]
      rw [this]
      split
      · rename_i h; cases h; exact absurd rfl hc
      · rfl

theorem bare_tagText {s : Str} (h : TagText s) : TagText (bare s) := by
  unfold bare
  split
  · exact TagText.cons_hash.1 h
  · exact h

theorem intAt_zero (v : Tag) (vs : List Tag) (h : TagText v.string) :
    intAt (v :: vs) 0 = match decimal (bare v.string) with | some n => .ok (n : Int) | none => .error .valueError := by
  change pyInt v.plainTag = _
  rw [plainTag_bare, pyInt_decimal (bare_tagText h)]
  cases decimal (bare v.string) <;> rfl

theorem intAt_succ (v : Tag) (vs : List Tag) (k : Nat) : intAt (v :: vs) (k + 1) = intAt vs k := rfl

theorem intAt_nil (k : Nat) : intAt [] k = .error .indexError := by simp [intAt, index]

theorem numbers_two (vs : List Tag) (h : ∀ v ∈ vs, TagText v.string) (wo : Who) (we d : Tag) :
    twoInts (.dimResp wo we d vs) = match numbers 2 vs with
      | .ok ns => (match pack2 we ns with | some b => .ok [b] | none => .error .attributeError)
      | .error e => .error e := by
  unfold twoInts
  dsimp only
  rcases vs with _ | ⟨a, _ | ⟨b, vs⟩⟩
  · rfl
  · rw [intAt_zero _ _ (h a (by simp)), intAt_succ, intAt_nil]
    unfold numbers
    cases decimal (bare a.string) <;> rfl
  · rw [intAt_zero _ _ (h a (by simp)), intAt_succ, intAt_zero _ _ (h b (by simp))]
    simp only [numbers]
    cases decimal (bare a.string) <;> cases decimal (bare b.string) <;> rfl

theorem numbers_one (vs : List Tag) (h : ∀ v ∈ vs, TagText v.string) (wo : Who) (we d : Tag) :
    oneInt (.dimResp wo we d vs) = match numbers 1 vs with
      | .ok ns => (match pack1 we ns with | some b => .ok [b] | none => .error .attributeError)
      | .error e => .error e := by
  unfold oneInt
  dsimp only
  rcases vs with _ | ⟨a, vs⟩
  · rfl
  · rw [intAt_zero _ _ (h a (by simp))]
    simp only [numbers]
    cases decimal (bare a.string) <;> rfl

theorem numbers_three (vs : List Tag) (h : ∀ v ∈ vs, TagText v.string) (wo : Who) (we d : Tag) :
    threeInts (.dimResp wo we d vs) = match numbers 3 vs with
      | .ok ns => (match pack3 we ns with | some b => .ok [b] | none => .error .attributeError)
      | .error e => .error e := by
  unfold threeInts
  dsimp only
  rcases vs with _ | ⟨a, _ | ⟨b, _ | ⟨c, vs⟩⟩⟩
  · rfl
  · rw [intAt_zero _ _ (h a (by simp)), intAt_succ, intAt_nil]
    unfold numbers
    cases decimal (bare a.string) <;> rfl
  · rw [intAt_zero _ _ (h a (by simp)), intAt_succ, intAt_zero _ _ (h b (by simp)), intAt_succ, intAt_succ, intAt_nil]
    simp only [numbers]
    cases decimal (bare a.string) <;> cases decimal (bare b.string) <;> rfl
  · rw [intAt_zero _ _ (h a (by simp)), intAt_succ, intAt_zero _ _ (h b (by simp)), intAt_succ, intAt_succ,
      intAt_zero _ _ (h c (by simp))]
    simp only [numbers]
    cases decimal (bare a.string) <;> cases decimal (bare b.string) <;> cases decimal (bare c.string) <;> rfl

theorem one_reply {m : Msg} {r : Except Err (List (Tag × Int))} (h : NumbersReply 1 pack1 m r) : oneInt m = r := by
  cases h with
  | values wo we d vs ns b ht hn hp => rw [numbers_one vs ht, hn]; simp [hp]
  | bad wo we d vs e ht hn => rw [numbers_one vs ht, hn]

theorem two_reply {m : Msg} {r : Except Err (List (Tag × Int × Int))} (h : NumbersReply 2 pack2 m r) : twoInts m = r := by
  cases h with
  | values wo we d vs ns b ht hn hp => rw [numbers_two vs ht, hn]; simp [hp]
  | bad wo we d vs e ht hn => rw [numbers_two vs ht, hn]

theorem three_reply {m : Msg} {r : Except Err (List (Tag × Int × Int × Int))} (h : NumbersReply 3 pack3 m r) :
    threeInts m = r := by
  cases h with
  | values wo we d vs ns b ht hn hp => rw [numbers_three vs ht, hn]; simp [hp]
  | bad wo we d vs e ht hn => rw [numbers_three vs ht, hn]

end Queries
