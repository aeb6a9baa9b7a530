import Verif.Model.Names
import Verif.Props.Events

/-!
# What the text of an item tells (C125), what `loop()` says of the session (C124)
-/

open Py Spec Events

theorem name_inj {c c' : Cls} {x y s s' : Str} (hx : x.head? = some ' ' ∨ x.head? = some '(') (hy : y.head? = x.head?)
    (h : c.name ++ x ++ s = c'.name ++ y ++ s') : c = c' := by
  rcases x with _ | ⟨a, x⟩
  · simp at hx
  rcases y with _ | ⟨b, y⟩
  · simp at hy
  simp only [List.head?_cons, Option.some.injEq] at hx hy
  subst hy
  rcases hx with rfl | rfl <;> cases c <;> cases c' <;> first | rfl | (simp [Cls.name] at h)

theorem classOf_inj {a b : Str} {c : Cls} (h : classOf a = some c) (h' : classOf b = some c) : a = b := by
  unfold classOf at h h'
  split_ifs at h with h1 h2 h3 h4 <;> split_ifs at h' with k1 k2 k3 k4 <;> cases h <;> cases h' <;> (subst_vars; rfl)

/-- C125: class and address of an item can be read off `str(item)`, and off `repr(item)`. -/
theorem C125_readable (o o' : Obj) :
    (o.str = o'.str ↔ o.cls = o'.cls ∧ o.item.wher.string = o'.item.wher.string) ∧
    (o.repr = o'.repr ↔ o.cls = o'.cls ∧ o.item.wher.string = o'.item.wher.string) := by
  constructor
  · constructor
    · intro h
      have hc := name_inj (.inl rfl) rfl h
      unfold Obj.str at h
      rw [hc] at h
      exact ⟨hc, by simpa using h⟩
    · rintro ⟨h1, h2⟩
      unfold Obj.str
      rw [h1, h2]
  · constructor
    · intro h
      unfold Obj.repr at h
      have hc := name_inj (.inr rfl) rfl (by simpa only [List.append_assoc] using h :
        o.cls.name ++ cs!"(where=" ++ (o.item.wher.string ++ cs!")") = o'.cls.name ++ cs!"(where=" ++ (o'.item.wher.string ++ cs!")"))
      rw [hc] at h
      exact ⟨hc, by simpa using h⟩
    · rintro ⟨h1, h2⟩
      unfold Obj.repr
      rw [h1, h2]

theorem getItem_made {c : Nat} {who : Who} {wher : Tag} {s i : Items} {o : Obj} (hs : ItemsOk s)
    (hg : getItem c who wher s = (.ok o, i)) :
    classOf who.code = some o.cls ∧ construct o.cls wher = .ok o.item := by
  have ok := getItem_ok (client := c) (who := who) (wher := wher) hs
  rw [hg] at ok
  have := ok.made _ _ (getItem_lookup hg)
  rw [← itemTypes_lookup]
  exact this

theorem construct_wher {c : Cls} {wher : Tag} {i : Item} (hc : c ≠ .gateway) (h : construct c wher = .ok i) : i.wher = wher := by
  cases c <;> simp only [construct] at h
  · cases h; rfl
  · cases h; rfl
  · cases h; rfl
  · cases h; rfl
  · exact absurd rfl hc
  · unfold EnergyManagement.newTag at h
    cases ht : EnergyManagement.getType wher with
    | error e => rw [ht] at h; cases h
    | ok t => rw [ht] at h; cases h; rfl
  · unfold StopGo.newTag EnergyManagement.newTag at h
    cases ht : EnergyManagement.getType wher with
    | error e => rw [ht] at h; cases h
    | ok t =>
      rw [ht] at h
      simp only [bind, Except.bind, pure, Except.pure] at h
      split_ifs at h
      cases h; rfl

/-- C125, items of one client other than the gateway: two items `get_item` gives, at any two times, have the same text exactly
when they are the same object. -/
theorem C125_same_partial (py : Python) (call : Call) (session : Session) (client : Nat) (h h' : List Step) (c c' : Nat)
    (who who' : Who) (wher wher' : Tag) (o o' : Obj) (i i' : Items) (hw : who.code ≠ cs!"13")
    (hg : getItem c who wher (after py call session client h).items = (.ok o, i))
    (hg' : getItem c' who' wher' (after py call session client (h ++ .getItem who wher c :: h')).items = (.ok o', i')) :
    (o.str = o'.str ↔ o = o') ∧ (o.repr = o'.repr ↔ o = o') := by
  have hd := C44_distinct py call session client h h' c c' who who' wher wher' o o' i i' hg hg'
  obtain ⟨m1, m2⟩ := getItem_made (after_inv py call session client h).items hg
  obtain ⟨m1', m2'⟩ := getItem_made (after_inv py call session client _).items hg'
  have key : o.cls = o'.cls ∧ o.item.wher.string = o'.item.wher.string ↔ o = o' := by
    constructor
    · rintro ⟨h1, h2⟩
      have hne : o.cls ≠ .gateway := by
        intro he
        rw [he] at m1
        exact hw (classOf_inj m1 (show classOf cs!"13" = some .gateway from rfl))
      have hcode : who.code = who'.code := classOf_inj m1 (h1 ▸ m1')
      rw [construct_wher hne m2, construct_wher (h1 ▸ hne) m2'] at h2
      exact hd.2 (hd.1.2 ⟨hcode, h2⟩)
    · rintro rfl; exact ⟨rfl, rfl⟩
  exact ⟨(C125_readable o o').1.trans key, (C125_readable o o').2.trans key⟩

/-- C125 is refuted for the gateway: asked for with two addresses, `get_item` gives two objects with the same text. -/
theorem C125_gateway_refuted (py : Python) (call : Call) (session : Session) (client c c' : Nat) (wher wher' : Tag)
    (hne : wher.string ≠ wher'.string) :
    ∃ o o' i i', getItem c .gateway wher (after py call session client []).items = (.ok o, i) ∧
      getItem c' .gateway wher' (after py call session client [.getItem .gateway wher c]).items = (.ok o', i') ∧
      o ≠ o' ∧ o.str = cs!"Gateway at " ∧ o'.str = o.str ∧ o.repr = cs!"Gateway(where=)" ∧ o'.repr = o.repr := by
  have h1 : getItem c .gateway wher (after py call session client []).items =
      (.ok ⟨0, .gateway, Gateway.item, c⟩, ⟨[((.gateway, wher.string), ⟨0, .gateway, Gateway.item, c⟩)], 1⟩) := rfl
  have h2 : (after py call session client [.getItem .gateway wher c]).items =
      ⟨[((.gateway, wher.string), ⟨0, .gateway, Gateway.item, c⟩)], 1⟩ := rfl
  have h3 : getItem c' .gateway wher' (after py call session client [.getItem .gateway wher c]).items =
      (.ok ⟨1, .gateway, Gateway.item, c'⟩, ⟨[((.gateway, wher'.string), ⟨1, .gateway, Gateway.item, c'⟩),
        ((.gateway, wher.string), ⟨0, .gateway, Gateway.item, c⟩)], 2⟩) := by
    rw [h2]
    unfold getItem
    have : (List.lookup (Who.gateway, wher'.string) [((Who.gateway, wher.string), (⟨0, .gateway, Gateway.item, c⟩ : Obj))]) = none := by
      have hb : ((Who.gateway, wher'.string) == (Who.gateway, wher.string)) = false := by
        rw [beq_eq_false_iff_ne]
        intro h; exact hne (by have := congrArg Prod.snd h; first | exact this | exact this.symm)
      rw [List.lookup_cons, hb]; rfl
    simp only [this]
    rfl
  exact ⟨_, _, _, _, h1, h3, by simp, rfl, rfl, rfl, rfl⟩

/-- Non-vacuity: two lights of one client. -/
example : (⟨0, .light, ⟨.lighting, ⟨cs!"12"⟩⟩, 0⟩ : Obj).str = cs!"Light at 12" ∧
    (⟨1, .stopGo, ⟨.energyManagement, ⟨cs!"71#0"⟩⟩, 0⟩ : Obj).repr = cs!"StopGo(where=71#0)" := by decide +kernel

/-- C124, `loop()`: what it raises at once is an `InvalidSession` that says whether the session is a command session or the
client is not connected; without one of these it does not raise at once. -/
theorem C124_loop (py : Python) (call : Call) (s : State) :
    (∀ e t, s.refusal = some (e, t) ↔ e = .invalidSession ∧
      ((s.session ≠ .event ∧ t = cs!"Cannot run loop on a command session") ∨
        (s.session = .event ∧ s.transport = .gone ∧ t = cs!"Client is not connected"))) ∧
    (∀ e t, s.refusal = some (e, t) → s.start py call = { s with task := .raised e }) ∧
    (s.refusal = none → s.start py call = { s with task := .returned } ∨ s.start py call = drain py call s s.queue) := by
  unfold State.refusal State.start
  refine ⟨fun e t => ?_, fun e t h => ?_, fun h => ?_⟩
  · split_ifs with h1 h2
    · simp only [Option.some.injEq, Prod.mk.injEq, h1, not_true, false_and, or_false, not_false_eq_true, true_and, ne_eq]
      constructor <;> rintro ⟨rfl, rfl⟩ <;> exact ⟨rfl, rfl⟩
    · have h1' : s.session = .event := by simpa using h1
      simp only [Option.some.injEq, Prod.mk.injEq, h1', h2, ne_eq, not_true, false_and, false_or, true_and]
      constructor <;> rintro ⟨rfl, rfl⟩ <;> exact ⟨rfl, rfl⟩
    · have h1' : s.session = .event := by simpa using h1
      simp [h1', h2]
  · split_ifs at h ⊢ with h1 h2
    · cases h; rfl
    · cases h; rw [h2]
  · split_ifs at h ⊢ with h1 h2
    cases ht : s.transport with
    | gone => exact absurd ht h2
    | closing => exact .inl rfl
    | opened => exact .inr rfl

/-- Non-vacuity: `loop()` after `close()`. -/
example (py : Python) (call : Call) :
    (after py call .event 0 [.close]).refusal = some (.invalidSession, cs!"Client is not connected") ∧
    (after py call .command 0 []).refusal = some (.invalidSession, cs!"Cannot run loop on a command session") := ⟨rfl, rfl⟩
