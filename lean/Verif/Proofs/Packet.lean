import Verif.Model.Protocol
import Verif.Props.Messages

/-! # Packets made of frames -/

open Py Spec Protocol

theorem split2_of_not_hasHH {s : Str} (h : ¬ HasHH s) : split2 '#' '#' s = [s] := by
  fun_induction split2 '#' '#' s with
  | case1 => rfl
  | case2 c => rfl
  | case3 c d s hcd =>
    obtain ⟨rfl, rfl⟩ := hcd
    exact absurd ⟨[], s, rfl⟩ h
  | case4 c d s hcd ih =>
    have h' : ¬ HasHH (d :: s) := by
      rintro ⟨u, v, e⟩; exact h ⟨c :: u, v, by simp [e]⟩
    rw [ih h']; rfl

theorem split2_append_sep {b rest : Str} (h : ¬ HasHH (b ++ cs!"#")) :
    split2 '#' '#' (b ++ cs!"##" ++ rest) = b :: split2 '#' '#' rest := by
  induction b with
  | nil => simp [split2]
  | cons c b ih =>
    have h' : ¬ HasHH (b ++ cs!"#") := by
      rintro ⟨u, v, e⟩; exact h ⟨c :: u, v, by simp [e]⟩
    have ih := ih h'
    cases b with
    | nil =>
      have hc : c ≠ '#' := by
        rintro rfl; exact h ⟨[], [], rfl⟩
      simp only [List.nil_append, List.cons_append] at ih ⊢
      rw [split2, if_neg (by simp [hc]), ih]; rfl
    | cons d b =>
      have hcd : ¬ (c = '#' ∧ d = '#') := by
        rintro ⟨rfl, rfl⟩; exact h ⟨[], b ++ cs!"#", rfl⟩
      simp only [List.cons_append] at ih ⊢
      rw [split2, if_neg hcd, ih]; rfl

theorem hasHH_append_left {p s : Str} (h : '#' ∉ p) : HasHH (p ++ s) ↔ HasHH s := by
  induction p with
  | nil => rfl
  | cons c p ih =>
    simp only [List.mem_cons, not_or] at h
    rw [List.cons_append, hasHH_cons_iff, ih h.2]
    constructor
    · rintro (⟨rfl, _⟩ | h')
      · exact absurd rfl h.1
      · exact h'
    · exact .inr

theorem ws_no_hash {p : Str} (h : ∀ c ∈ p, PyWs c) : '#' ∉ p := fun hm => by
  have := h _ hm; rw [PyWs, isSpace_hash] at this; cases this

/-- Text of a packet: each frame preceded by some padding. -/
def packetText : List (Str × List Str) → Str
  | [] => []
  | (p, ts) :: rest => p ++ frame ts ++ packetText rest

/-- A frame whose only terminator is its end, with its message. -/
def GoodFrame (ts : List Str) (m : Msg) : Prop :=
  ts ≠ [] ∧ ¬ HasHH (body ts ++ cs!"#") ∧ parseMessage (frame ts) = .ok m

theorem parsePieces_split (fs : List (Str × List Str)) (ms : List Msg)
    (hp : ∀ f ∈ fs, ∀ c ∈ f.1, PyWs c) (h : List.Forall₂ (fun f m => GoodFrame f.2 m) fs ms) :
    parsePieces (split2 '#' '#' (packetText fs)) = .ok ms := by
  induction h with
  | nil => rfl
  | @cons f m fs ms hf hrest ih =>
    obtain ⟨p, ts⟩ := f
    obtain ⟨hne, h1, h2⟩ := hf
    have hws := hp (p, ts) (by simp)
    have e : packetText ((p, ts) :: fs) = (p ++ body ts) ++ cs!"##" ++ packetText fs := by
      simp [packetText, frame]
    have h3 : ¬ HasHH ((p ++ body ts) ++ cs!"#") := by
      rw [List.append_assoc, hasHH_append_left (ws_no_hash hws)]; exact h1
    have hb : p ++ body ts ≠ [] := by
      cases ts with
      | nil => exact absurd rfl hne
      | cons t ts => simp [body]
    have h4 : parseMessage (p ++ body ts ++ cs!"##") = .ok m := by
      have := (C11_whitespace_ok p [] (frame ts) m hws (by simp)).mpr h2
      simpa [frame] using this
    rw [e, split2_append_sep h3, parsePieces, if_neg hb, h4, ih (fun f hf => hp f (by simp [hf]))]
    rfl

theorem packetText_getLast (fs : List (Str × List Str)) (hne : fs ≠ []) : (packetText fs).getLast? = some '#' := by
  induction fs with
  | nil => exact absurd rfl hne
  | cons f fs ih =>
    obtain ⟨p, ts⟩ := f
    cases fs with
    | nil => simp [packetText, frame]
    | cons g fs =>
      have := ih (by simp)
      simp only [packetText] at this ⊢
      rw [List.getLast?_append, this]; rfl

/-- A packet of padded frames yields exactly their messages. -/
theorem parsePieces_strip (fs : List (Str × List Str)) (ms : List Msg) (v : Str) (hv : ∀ c ∈ v, PyWs c)
    (hp : ∀ f ∈ fs, ∀ c ∈ f.1, PyWs c) (h : List.Forall₂ (fun f m => GoodFrame f.2 m) fs ms) :
    parsePieces (split2 '#' '#' (strip (packetText fs ++ v))) = .ok ms := by
  cases h with
  | nil =>
    have : strip ([] ++ v) = strip [] := by
      have := strip_pad (u := v) (s := []) (v := []) hv (by simp)
      simpa using this
    simp only [packetText]
    rw [this]; rfl
  | @cons f m fs ms hf hrest =>
    obtain ⟨p, ts⟩ := f
    have hws := hp (p, ts) (by simp)
    have e : packetText ((p, ts) :: fs) ++ v = p ++ packetText (([], ts) :: fs) ++ v := by simp [packetText]
    have hs : strip (packetText (([], ts) :: fs)) = packetText (([], ts) :: fs) := by
      apply strip_eq_self
      · intro c hc
        have : (packetText (([], ts) :: fs)).head? = some '*' := by
          cases ts with
          | nil => exact absurd rfl hf.1
          | cons t ts => simp [packetText, frame, body]
        rw [this] at hc; cases hc; exact isSpace_star
      · intro c hc
        rw [packetText_getLast _ (by simp)] at hc; cases hc; exact isSpace_hash
    rw [e, strip_pad hws hv, hs]
    refine parsePieces_split (([], ts) :: fs) (m :: ms) ?_ (.cons hf hrest)
    intro g hg
    simp only [List.mem_cons] at hg
    rcases hg with rfl | hg
    · simp
    · exact hp g (by simp [hg])
