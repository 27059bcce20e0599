import Verif.Spec.XmlExchange
import Verif.Lemmas.Accepts.Special

set_option linter.unusedSectionVars false
set_option linter.unusedSimpArgs false
set_option linter.unusedVariables false

/-!
# The order of child elements: the general part
-/

namespace Cdx.Exchange

open Cdx.Spec

variable {v : SpecVersion} {d : Nat} {α β σ ρ : Type}

/-! ## What an exchange keeps -/

theorem names_perm {t c c'} (h : Exchanged v t c c') : (c'.map nameOf).Perm (c.map nameOf) := by
  cases h with
  | here _ =>
    simp only [List.map_append, List.map_cons]
    exact List.Perm.append_left _ (List.Perm.swap ..)
  | inside _ _ => simp [nameOf]

theorem depth_append : ∀ (a b : List XNode), depth.depthAll (a ++ b) = max (depth.depthAll a) (depth.depthAll b)
  | [], b => by simp [depth.depthAll]
  | x :: a, b => by
    simp only [List.cons_append, depth.depthAll, depth_append a b]
    omega

theorem depth_same {t c c'} (h : Exchanged v t c c') : depth.depthAll c' = depth.depthAll c := by
  induction h with
  | here _ => simp only [depth_append, depth.depthAll]; omega
  | inside _ _ ih => simp only [depth_append, depth.depthAll, depth, ih]

theorem exchanged_elem {t c c'} (h : Exchanged v t c c') : ∃ x ∈ c, ∃ n attrs ns k, x = .elem n attrs ns k := by
  cases h with
  | here _ => exact ⟨_, List.mem_append_right _ (.head _), _, _, _, _, rfl⟩
  | inside _ _ => exact ⟨_, List.mem_append_right _ (.head _), _, _, _, _, rfl⟩

theorem mem_exchanged {t c c'} (h : Exchanged v t c c') {x} (hx : x ∈ c') :
    x ∈ c ∨ ∃ n attrs ns k k' t', x = .elem n attrs ns k' ∧ .elem n attrs ns k ∈ c ∧
      t.child v n.localName = some t' ∧ Exchanged v t' k k' := by
  cases h with
  | here _ =>
    left
    simp only [List.mem_append, List.mem_cons] at hx ⊢
    rcases hx with h | h | h | h
    · exact .inl h
    · exact .inr (.inr (.inl h))
    · exact .inr (.inl h)
    · exact .inr (.inr (.inr h))
  | inside hc he =>
    simp only [List.mem_append, List.mem_cons] at hx
    rcases hx with h | rfl | h
    · exact .inl (List.mem_append_left _ h)
    · exact .inr ⟨_, _, _, _, _, _, rfl, List.mem_append_right _ (.head _), hc, he⟩
    · exact .inl (List.mem_append_right _ (.tail _ h))

theorem text_no_exchange {t attrs c c' type} (h : OkAt v t attrs c) (ht : t.rule.content = .text type) :
    ¬ Exchanged v t c c' := by
  intro he
  obtain ⟨x, hx, n, a, ns, k, rfl⟩ := exchanged_elem he
  rcases text_cases h ht with ⟨rfl, _⟩ | ⟨s, rfl | rfl, _⟩ <;> simp at hx

theorem nil_no_exchange {t c'} : ¬ Exchanged v t [] c' := by
  intro he
  obtain ⟨x, hx, -⟩ := exchanged_elem he
  exact nomatch hx

theorem perm_map_some : ∀ {names : List String} {l : List (Option String)}, l.Perm (names.map some) →
    ∃ names' : List String, l = names'.map some ∧ names'.Perm names := by
  intro names l h
  have hall : ∀ o ∈ l, ∃ a, o = some a := by
    intro o ho
    obtain ⟨a, -, e⟩ := List.mem_map.mp (h.mem_iff.mp ho)
    exact ⟨a, e.symm⟩
  refine ⟨l.filterMap id, ?_, ?_⟩
  · clear h
    induction l with
    | nil => rfl
    | cons o l ih =>
      obtain ⟨a, rfl⟩ := hall o (.head _)
      simp only [List.filterMap_cons, id, List.map_cons]
      rw [← ih fun o ho => hall o (.tail _ ho)]
  · have := h.filterMap (f := id)
    simpa using this

theorem okAt_exchanged {t attrs c c'} (h : OkAt v t attrs c) (he : Exchanged v t c c') : OkAt v t attrs c' := by
  have hs := h.2
  obtain ⟨h1, h2, h3, h4, h5, h6, h7, h8⟩ := hs
  have g1 : ∀ x ∈ c', isContent x = true := by
    intro x hx
    rcases mem_exchanged he hx with hx | ⟨n, a, ns, k, k', t', rfl, -⟩
    · exact h1 x hx
    · rfl
  have hname : ∀ s, (∀ x ∈ c, nameOf x ≠ some s) → ∀ x ∈ c', nameOf x ≠ some s := by
    intro s hs x hx
    rcases mem_exchanged he hx with hx | ⟨n, a, ns, k, k', t', rfl, hm, -⟩
    · exact hs x hx
    · exact hs (.elem n a ns k) hm
  have hne : c ≠ [] := fun e => nil_no_exchange (v := v) (t := t) (c' := c') (e ▸ he)
  have hne' : c' ≠ [] := by
    rintro rfl
    have := (names_perm he).length_eq
    simp at this
    exact hne (List.eq_nil_of_length_eq_zero this.symm)
  refine ⟨⟨h.1.1, ?_⟩, g1, h2, fun type ht => absurd he (text_no_exchange h ht), fun _ => hne', ?_, ?_,
    fun e => hname _ (h7 e), fun e => hname _ (h8 e)⟩
  · cases ht : t.rule.content with
    | text type => exact absurd he (text_no_exchange h ht)
    | children l =>
      obtain ⟨names, e, l', hl', names', hp, hf⟩ := children_names h ht
      rw [filter_content g1]
      have hp' := names_perm he
      rw [e] at hp'
      obtain ⟨names'', e'', hp''⟩ := perm_map_some hp'
      unfold ContentConforms
      rw [ht]
      exact ⟨names'', e'', l', hl', by simpa using ⟨names', hp.trans hp''.symm, hf⟩⟩
  · intro e
    obtain ⟨s, rfl⟩ := h5 e
    obtain ⟨x, hx, n, a, ns, k, rfl⟩ := exchanged_elem he
    simp at hx
  · intro e
    exact absurd (h6 e) hne

theorem throughoutAll_append {P t} : ∀ {a b : List XNode},
    ThroughoutAll P v t (a ++ b) ↔ ThroughoutAll P v t a ∧ ThroughoutAll P v t b
  | [], b => by simp [ThroughoutAll]
  | x :: a, b => by simp only [List.cons_append, ThroughoutAll, throughoutAll_append (a := a), and_assoc]

theorem throughout_exchanged {t c c'} (he : Exchanged v t c c') : ∀ {n attrs ns},
    Throughout (OkAt v) v t (.elem n attrs ns c) → Throughout (OkAt v) v t (.elem n attrs ns c') := by
  induction he with
  | here ha =>
    intro n attrs ns h
    rw [Throughout] at h ⊢
    refine ⟨okAt_exchanged h.1 (.here ha), ?_⟩
    have h2 := h.2
    simp only [throughoutAll_append, ThroughoutAll] at h2 ⊢
    exact ⟨h2.1, h2.2.2.1, h2.2.1, h2.2.2.2⟩
  | inside hc he ih =>
    intro n attrs ns h
    rw [Throughout] at h ⊢
    refine ⟨okAt_exchanged h.1 (.inside hc he), ?_⟩
    have h2 := h.2
    simp only [throughoutAll_append, ThroughoutAll] at h2 ⊢
    refine ⟨h2.1, ?_, h2.2.2⟩
    intro m hm t' ht'
    have hm' : m = _ := (Option.mem_some.mp hm).symm
    subst hm'
    have e : some _ = some t' := hc.symm.trans ht'
    cases e
    exact ih (h2.2.1 _ rfl _ ht')

/-! ## Readers whose result stays the same -/

/-- A reader reads an element as a value, whatever comes behind it. -/
def ReadAs (r : XElem α) (n : XName) (attrs : List (String × String)) (content : List XNode) (x : α) : Prop :=
  ∀ rest, r n attrs (XNode.eventsAll content ++ .stop n :: rest) = .ok (x, rest)

/-- A reader reads elements of a type and with a name as the same when child elements change places. -/
def StableAs (v : SpecVersion) (d : Nat) (tag : String) (r : XElem α) (t : ElementType) : Prop :=
  ∀ n attrs ns c c', n.localName = tag → Throughout (OkAt v) v t (.elem n attrs ns c) →
    depth.depthAll c < d → Exchanged v t c c' → ∀ x, ReadAs r n attrs c x → ReadAs r n attrs c' x

/-- The same for all names. -/
def Stable (v : SpecVersion) (d : Nat) (r : XElem α) (t : ElementType) : Prop :=
  ∀ tag, StableAs v d tag r t

theorem Stable.mono {d d' : Nat} {r : XElem α} {t} (h : Stable v d' r t) (hd : d ≤ d') : Stable v d r t :=
  fun tag n attrs ns c c' hn hc hk => h tag n attrs ns c c' hn hc (by omega)

theorem stable_text {t type} {r : XElem α} (ht : t.rule.content = .text type) : Stable v d r t := by
  intro tag n attrs ns c c' _ hc _ he
  rw [Throughout] at hc
  exact absurd he (text_no_exchange hc.1 ht)

theorem stable_empty {t} {r : XElem α} (ht : t.rule.content = .children [[]]) : Stable v d r t := by
  intro tag n attrs ns c c' _ hc _ he
  rw [Throughout] at hc
  rw [empty_content ht hc.1] at he
  exact absurd he nil_no_exchange

theorem stable_subref {r : XElem α} : Stable v d r .subDependency := by
  intro tag n attrs ns c c' _ hc _ he
  rw [Throughout] at hc
  rw [hc.1.2.2.2.2.2.2.1 rfl] at he
  exact absurd he nil_no_exchange

theorem stable_map {r : XElem α} {t} (ht : Takes v d r t) (h : Stable v d r t) (f : α → β) : Stable v d (r.map f) t := by
  intro tag n attrs ns c c' hn hc hd he x hx
  obtain ⟨y, hy⟩ := ht n attrs ns c hc hd
  have hy' := h tag n attrs ns c c' hn hc hd he y hy
  intro rest
  have := hx rest
  simp only [XElem.map, hy rest, hy' rest, bind, Except.bind] at this ⊢
  exact this

/-! ## What child elements do -/

/-- The things that a child element can do to the variables of a reader; `none` is failure. -/
abbrev Fam (σ : Type) := (σ → Option σ) → Prop

/-- What an arm does with an element. -/
def Does (act : Arm σ) (n : XName) (attrs : List (String × String)) (content : List XNode) (e : σ → Option σ) :
    Prop :=
  ∀ st, match e st with
    | some st' => ∀ rest, act n attrs st (XNode.eventsAll content ++ .stop n :: rest) = .ok (st', rest)
    | none => ∀ rest, ∃ err, act n attrs st (XNode.eventsAll content ++ .stop n :: rest) = .error err

/-- An arm does one of some things with every element of a type, and still does so when child elements
change places. -/
def ArmHas (v : SpecVersion) (d : Nat) (name : String) (act : Arm σ) (t : ElementType) (F : Fam σ) : Prop :=
  ∀ n attrs ns c, n.localName = name → Throughout (OkAt v) v t (.elem n attrs ns c) → depth.depthAll c < d →
    ∃ e, F e ∧ Does act n attrs c e ∧ ∀ c', Exchanged v t c c' → Does act n attrs c' e

/-- What storing a value can do. -/
def stores (set : α → σ → σ) : Fam σ := fun e => ∃ x, e = fun s => some (set x s)

/-- What storing a value once can do. -/
def storesOnce (isSet : σ → Bool) (set : α → σ → σ) : Fam σ :=
  fun e => ∃ x, e = fun s => if isSet s then none else some (set x s)

theorem armHas_as {name t} {r : XElem α} {set : α → σ → σ} (ht : TakesAs v d name r t) (h : StableAs v d name r t) :
    ArmHas v d name (arm r set) t (stores set) := by
  intro n attrs ns c hn hc hd
  obtain ⟨x, hx⟩ := ht n attrs ns c hn hc hd
  refine ⟨_, ⟨x, rfl⟩, fun st rest => by simp [arm, hx, bind, Except.bind], fun c' he st rest => ?_⟩
  simp [arm, h n attrs ns c c' hn hc hd he x hx rest, bind, Except.bind]

theorem Takes.as {name t} {r : XElem α} (ht : Takes v d r t) : TakesAs v d name r t :=
  fun n attrs ns c _ hc hd => ht n attrs ns c hc hd

theorem armHas {name t} {r : XElem α} {set : α → σ → σ} (ht : Takes v d r t) (h : Stable v d r t) :
    ArmHas v d name (arm r set) t (stores set) := armHas_as (Takes.as ht) (h name)

theorem armHas_once {name t} {r : XElem α} {isSet : σ → Bool} {set : α → σ → σ} (ht : Takes v d r t)
    (h : Stable v d r t) : ArmHas v d name (armOnce r isSet set) t (storesOnce isSet set) := by
  intro n attrs ns c hn hc hd
  obtain ⟨x, hx⟩ := ht n attrs ns c hc hd
  refine ⟨_, ⟨x, rfl⟩, fun st => ?_, fun c' he st => ?_⟩
  · cases hs : isSet st <;> simp only [hs, if_true, if_false, Bool.false_eq_true]
    · intro rest; simp [armOnce, hs, arm, hx rest, bind, Except.bind]
    · intro rest; exact ⟨.unexpected n.localName, by simp [armOnce, hs]⟩
  · cases hs : isSet st <;> simp only [hs, if_true, if_false, Bool.false_eq_true]
    · intro rest; simp [armOnce, hs, arm, h name n attrs ns c c' hn hc hd he x hx rest, bind, Except.bind]
    · intro rest; exact ⟨.unexpected n.localName, by simp [armOnce, hs]⟩

/-- Two arms may be used in either order. -/
def Comm (F G : Fam σ) : Prop := ∀ e e', F e → G e' → ∀ s, (e s).bind e' = (e' s).bind e

theorem Comm.symm {F G : Fam σ} (h : Comm F G) : Comm G F := fun e e' he he' s => (h e' e he' he s).symm

theorem comm_stores {set : α → σ → σ} {set' : β → σ → σ} (h : ∀ x y s, set' y (set x s) = set x (set' y s)) :
    Comm (stores set) (stores set') := by
  rintro _ _ ⟨x, rfl⟩ ⟨y, rfl⟩ s
  simp [h]

theorem comm_once {isSet : σ → Bool} {set : α → σ → σ} {set' : β → σ → σ} (hs : ∀ y s, isSet (set' y s) = isSet s)
    (h : ∀ x y s, set' y (set x s) = set x (set' y s)) : Comm (storesOnce isSet set) (stores set') := by
  rintro _ _ ⟨x, rfl⟩ ⟨y, rfl⟩ s
  cases hc : isSet s <;> simp [h, hs, hc]

/-! ## The loop over the child elements -/

/-- What the loop does with some content. -/
def Effect (mode : Unknown) (el : XName) (arms : List (String × Arm σ)) (content : List XNode)
    (e : σ → Option σ) : Prop :=
  ∀ st, match e st with
    | some st' => ∀ rest, readFields mode el arms st (XNode.eventsAll content ++ rest) = readFields mode el arms st' rest
    | none => ∀ rest, ∃ err, readFields mode el arms st (XNode.eventsAll content ++ rest) = .error err

theorem eventsAll_append : ∀ (a b : List XNode), XNode.eventsAll (a ++ b) = XNode.eventsAll a ++ XNode.eventsAll b
  | [], b => by simp [XNode.eventsAll]
  | x :: a, b => by simp [XNode.eventsAll, eventsAll_append a b]

theorem effect_append {mode el} {arms : List (String × Arm σ)} {a b : List XNode} {e e' : σ → Option σ}
    (ha : Effect mode el arms a e) (hb : Effect mode el arms b e') :
    Effect mode el arms (a ++ b) fun s => (e s).bind e' := by
  intro st
  have h1 := ha st
  cases h : e st with
  | none =>
    rw [h] at h1
    simp only [h, Option.bind_none]
    intro rest
    rw [eventsAll_append, List.append_assoc]
    exact h1 _
  | some st1 =>
    rw [h] at h1
    have h2 := hb st1
    simp only [h, Option.bind_some]
    cases h' : e' st1 with
    | none =>
      rw [h'] at h2
      intro rest
      rw [eventsAll_append, List.append_assoc, h1]
      exact h2 _
    | some st2 =>
      rw [h'] at h2
      intro rest
      rw [eventsAll_append, List.append_assoc, h1, h2]

theorem effect_nil {mode el} {arms : List (String × Arm σ)} : Effect mode el arms [] some := by
  intro st rest
  simp [XNode.eventsAll]

/-- What is needed of the child elements of an element. -/
def Children (v : SpecVersion) (d : Nat) (t : ElementType) (mode : Unknown) (el : XName)
    (arms : List (String × Arm σ)) (fam : String → Fam σ) (content : List XNode) : Prop :=
  ∀ n attrs ns c, .elem n attrs ns c ∈ content → ∀ t', t.child v n.localName = some t' →
    Throughout (OkAt v) v t' (.elem n attrs ns c) → depth.depthAll c < d →
    ∃ e, fam n.localName e ∧ Effect mode el arms [.elem n attrs ns c] e ∧
      ∀ c', Exchanged v t' c c' → Effect mode el arms [.elem n attrs ns c'] e

/-- Two names can both occur in an element, and are apart. -/
def needs (v : SpecVersion) (t : ElementType) (a b : String) : Bool :=
  ((t.choices v).any fun l => ((l.flatMap (·.items)).map (·.1)).contains a && ((l.flatMap (·.items)).map (·.1)).contains b) &&
    (t.choices v).flatten.all fun p => !((p.items.map (·.1)).contains a && (p.items.map (·.1)).contains b)

theorem children_effect {t mode el} {arms : List (String × Arm σ)} {fam : String → Fam σ} :
    ∀ (content : List XNode), (∀ x ∈ content, ∃ n attrs ns c t', x = .elem n attrs ns c ∧
        t.child v n.localName = some t' ∧ Throughout (OkAt v) v t' x ∧ depth.depthAll c < d) →
      Children v d t mode el arms fam content → ∃ e, Effect mode el arms content e
  | [], _, _ => ⟨some, effect_nil⟩
  | x :: l, hx, h => by
    obtain ⟨n, attrs, ns, c, t', rfl, ht', hc, hd⟩ := hx x (.head _)
    obtain ⟨e, -, he, -⟩ := h n attrs ns c (.head _) t' ht' hc hd
    obtain ⟨e', he'⟩ := children_effect l (fun y hy => hx y (.tail _ hy))
      fun n attrs ns c hm => h n attrs ns c (.tail _ hm)
    exact ⟨_, effect_append (a := [_]) he he'⟩

theorem content_effect {t mode el n attrs ns l} {arms : List (String × Arm σ)} {fam : String → Fam σ} {c : List XNode}
    (ht : t.rule.content = .children l) (hc : Throughout (OkAt v) v t (.elem n attrs ns c))
    (hd : depth.depthAll c ≤ d) (h : Children v d t mode el arms fam c)
    (hcomm : ∀ a b, needs v t a b = true → Comm (fam a) (fam b)) :
    (∃ e, Effect mode el arms c e) ∧
    ∀ c', Exchanged v t c c' → ∃ e, Effect mode el arms c e ∧ Effect mode el arms c' e := by
  rw [Throughout] at hc
  obtain ⟨names, en, hl⟩ := children_names hc.1 ht
  have hall : ∀ x ∈ c, ∃ n attrs ns k t', x = .elem n attrs ns k ∧ t.child v n.localName = some t' ∧
      Throughout (OkAt v) v t' x ∧ depth.depthAll k < d := by
    intro x hx
    obtain ⟨m, a, ns', k, rfl, hm⟩ := mem_names en x hx
    obtain ⟨t', ht'⟩ := hl.child hm
    refine ⟨m, a, ns', k, t', rfl, ht', throughoutAll_mem hc.2 _ hx _ rfl _ ht', ?_⟩
    have : ∀ (l : List XNode), .elem m a ns' k ∈ l → depth (.elem m a ns' k) ≤ depth.depthAll l := by
      intro l
      induction l with
      | nil => intro h; exact nomatch h
      | cons y l ih =>
        intro h
        rw [depth.depthAll]
        rcases List.mem_cons.mp h with rfl | h
        · omega
        · have := ih h; omega
    have := this c hx
    rw [depth] at this
    omega
  have sub : ∀ {l : List XNode}, (∀ x ∈ l, x ∈ c) → ∃ e, Effect mode el arms l e := by
    intro l hl
    exact children_effect l (fun x hx => hall x (hl x hx)) fun n attrs ns k hm =>
      h n attrs ns k (hl _ hm)
  refine ⟨sub fun x hx => hx, ?_⟩
  intro c' he
  cases he with
  | @here _ before after m m' a a' s s' k k' hap =>
    obtain ⟨e1, h1⟩ := sub (l := before) fun x hx => List.mem_append_left _ hx
    obtain ⟨e4, h4⟩ := sub (l := after) fun x hx => List.mem_append_right _ (.tail _ (.tail _ hx))
    have m1 : XNode.elem m a s k ∈ before ++ .elem m a s k :: .elem m' a' s' k' :: after :=
      List.mem_append_right _ (.head _)
    have m2 : XNode.elem m' a' s' k' ∈ before ++ .elem m a s k :: .elem m' a' s' k' :: after :=
      List.mem_append_right _ (.tail _ (.head _))
    obtain ⟨_, _, _, _, t1, q, ht1, hc1, hd1⟩ := hall _ m1
    cases q
    obtain ⟨_, _, _, _, t2, q, ht2, hc2, hd2⟩ := hall _ m2
    cases q
    obtain ⟨e2, f2, h2, -⟩ := h m a s k m1 t1 ht1 hc1 hd1
    obtain ⟨e3, f3, h3, -⟩ := h m' a' s' k' m2 t2 ht2 hc2 hd2
    have hneed : needs v t m.localName m'.localName = true := by
      obtain ⟨l, hl1, hin, -⟩ := hl.choice
      have w : ∀ x ∈ before ++ .elem m a s k :: .elem m' a' s' k' :: after, ∀ n, nameOf x = some n → n ∈ names := by
        intro x hx n hn
        have : some n ∈ names.map some := by rw [← en, ← hn]; exact List.mem_map_of_mem hx
        simpa using this
      have w1 := hin _ (w _ m1 _ rfl)
      have w2 := hin _ (w _ m2 _ rfl)
      simp only [needs, Bool.and_eq_true]
      refine ⟨List.any_eq_true.mpr ⟨l, hl1, ?_⟩, List.all_eq_true.mpr fun p hp => ?_⟩
      · rw [Bool.and_eq_true]
        exact ⟨List.contains_iff_mem.mpr w1, List.contains_iff_mem.mpr w2⟩
      · have := hap p hp
        rw [Bool.not_eq_true', ← Bool.not_eq_true, Bool.and_eq_true]
        rintro ⟨g1, g2⟩
        exact this ⟨List.contains_iff_mem.mp g1, List.contains_iff_mem.mp g2⟩
    have hc' := hcomm _ _ hneed e2 e3 f2 f3
    have r1 := effect_append h1 (effect_append (effect_append (a := [_]) (b := [_]) h2 h3) h4)
    have r2 := effect_append h1 (effect_append (effect_append (a := [_]) (b := [_]) h3 h2) h4)
    simp only [← hc'] at r2
    refine ⟨_, by simpa using r1, ?_⟩
    simpa using r2
  | @inside _ before after m a s k k' t1 ht1 hex =>
    obtain ⟨e1, h1⟩ := sub (l := before) fun x hx => List.mem_append_left _ hx
    obtain ⟨e4, h4⟩ := sub (l := after) fun x hx => List.mem_append_right _ (.tail _ hx)
    have m1 : XNode.elem m a s k ∈ before ++ .elem m a s k :: after := List.mem_append_right _ (.head _)
    obtain ⟨_, _, _, _, t2, q, ht2, hc1, hd1⟩ := hall _ m1
    cases q
    rw [ht1] at ht2
    cases ht2
    obtain ⟨e2, f2, h2, g2⟩ := h m a s k m1 t1 ht1 hc1 hd1
    have r1 := effect_append h1 (effect_append (a := [_]) h2 h4)
    have r2 := effect_append h1 (effect_append (a := [_]) (g2 k' hex) h4)
    exact ⟨_, r1, r2⟩

theorem stable_of_children {tag t mode l} {pre : XName → List (String × String) → Except XErr ρ} {init : σ}
    {arms : List (String × Arm σ)} {fin : XName → ρ → σ → Except XErr α} {fam : String → Fam σ}
    (ht : t.rule.content = .children l)
    (h : ∀ el attrs content, el.localName = tag → OkAt v t attrs content → Children v d t mode el arms fam content)
    (hcomm : ∀ a b, needs v t a b = true → Comm (fam a) (fam b)) :
    StableAs v (d + 1) tag (readStruct mode pre init arms fin) t := by
  intro n attrs ns c c' hn hc hd he x hx rest
  have hok : OkAt v t attrs c := by rw [Throughout] at hc; exact hc.1
  obtain ⟨e, h1, h2⟩ := (content_effect ht hc (by omega) (h n attrs c hn hok) hcomm).2 c' he
  have g := hx rest
  have h1 := h1 init
  have h2 := h2 init
  simp only [readStruct, bind, Except.bind] at g ⊢
  cases hp : pre n attrs with
  | error err => simp [hp] at g
  | ok p =>
    simp only [hp] at g ⊢
    cases es : e init with
    | none =>
      rw [es] at h1
      obtain ⟨err, h1⟩ := h1 (.stop n :: rest)
      simp [h1] at g
    | some st =>
      rw [es] at h1 h2
      rw [h1] at g
      rw [h2]
      exact g

/-! ## Arms -/

/-- The arms of a reader, with what each can do. -/
inductive ArmsHave (v : SpecVersion) (d : Nat) (t : ElementType) :
    List (String × Arm σ) → List (String × Fam σ) → Prop
  | nil : ArmsHave v d t [] []
  | cons {name act arms F fams} (t' : ElementType) : t.child v name = none ∨ t.child v name = some t' →
      ArmHas v d name act t' F → ArmsHave v d t arms fams → ArmsHave v d t ((name, act) :: arms) ((name, F) :: fams)
  | other {name act arms fams} : t.child v name = none → ArmsHave v d t arms fams →
      ArmsHave v d t ((name, act) :: arms) ((name, fun _ => False) :: fams)

theorem ArmsHave.append {t} {a b : List (String × Arm σ)} {f g} (h : ArmsHave v d t a f) (h' : ArmsHave v d t b g) :
    ArmsHave v d t (a ++ b) (f ++ g) := by
  induction h with
  | nil => exact h'
  | cons t' ht ha _ ih => exact .cons t' ht ha ih
  | other ht _ ih => exact .other ht ih

theorem ArmsHave.since14 {t} {a : List (String × Arm σ)} {f} (h : ArmsHave v d t a f) :
    ArmsHave v d t (since14 v a []) (since14 v f []) := by
  cases v
  · exact .nil
  · exact h
  · exact h

theorem ArmsHave.since15 {t} {a : List (String × Arm σ)} {f} (h : ArmsHave v d t a f) :
    ArmsHave v d t (since15 v a []) (since15 v f []) := by
  cases v
  · exact .nil
  · exact .nil
  · exact h

/-- What the elements with a name can do; unknown ones do nothing. -/
def famOf (fams : List (String × Fam σ)) (name : String) : Fam σ :=
  (fams.lookup name).getD fun e => e = some

theorem armsHave_lookup {t} {arms : List (String × Arm σ)} {fams} (h : ArmsHave v d t arms fams) (name : String) :
    (arms.lookup name = none ∧ fams.lookup name = none) ∨
      ∃ act F, arms.lookup name = some act ∧ fams.lookup name = some F ∧
        ∀ t', t.child v name = some t' → ArmHas v d name act t' F := by
  induction h with
  | nil => exact .inl ⟨rfl, rfl⟩
  | @cons k act arms F fams t' ht ha _ ih =>
    by_cases hk : name = k
    · subst hk
      refine .inr ⟨act, F, by simp [List.lookup], by simp [List.lookup], fun t'' ht'' => ?_⟩
      rcases ht with ht | ht <;> rw [ht] at ht'' <;> cases ht''
      exact ha
    · have hb : (name == k) = false := by simpa using hk
      simpa only [List.lookup_cons, hb] using ih
  | @other k act arms fams ht _ ih =>
    by_cases hk : name = k
    · subst hk
      refine .inr ⟨act, _, by simp [List.lookup], by simp [List.lookup]; rfl, fun t'' ht'' => ?_⟩
      rw [ht] at ht''
      cases ht''
    · have hb : (name == k) = false := by simpa using hk
      simpa only [List.lookup_cons, hb] using ih

/-- Each two arms may be used in either order, if their names are apart. -/
def AllComm (v : SpecVersion) (t : ElementType) (fams : List (String × Fam σ)) : Prop :=
  fams.Pairwise fun p q => needs v t p.1 q.1 = false ∨ Comm p.2 q.2

theorem needs_symm {t a b} : needs v t a b = needs v t b a := by
  simp only [needs]
  congr 1
  · congr 1
    funext l
    exact Bool.and_comm _ _
  · congr 1
    funext p
    rw [Bool.and_comm]

theorem needs_self {t a} : needs v t a a = false := by
  cases h : needs v t a a with
  | false => rfl
  | true =>
    simp only [needs, Bool.and_self, Bool.and_eq_true] at h
    obtain ⟨l, hl, hm⟩ := List.any_eq_true.mp h.1
    have hm := List.contains_iff_mem.mp hm
    obtain ⟨q, hq, rfl⟩ := List.mem_map.mp hm
    obtain ⟨p, hp, hq⟩ := List.mem_flatMap.mp hq
    have := List.all_eq_true.mp h.2 p (List.mem_flatten.mpr ⟨l, hl, hp⟩)
    simp only [Bool.not_eq_true', ← Bool.not_eq_true, List.contains_iff_mem] at this
    exact absurd (List.mem_map_of_mem hq) this

theorem allComm_all {t} {fams : List (String × Fam σ)} (h : AllComm v t fams) {p q} (hp : p ∈ fams) (hq : q ∈ fams)
    (hn : needs v t p.1 q.1 = true) : Comm p.2 q.2 := by
  unfold AllComm at h
  induction h with
  | nil => exact nomatch hp
  | @cons a l ha _ ih =>
    rcases List.mem_cons.mp hp with rfl | hp'
    · rcases List.mem_cons.mp hq with rfl | hq
      · rw [needs_self] at hn; exact absurd hn (by simp)
      · rcases ha q hq with h | h
        · rw [hn] at h; exact absurd h (by simp)
        · exact h
    · rcases List.mem_cons.mp hq with e | hq
      · subst e; rcases ha p hp' with h | h
        · rw [needs_symm, h] at hn; exact absurd hn (by simp)
        · exact h.symm
      · exact ih hp' hq

theorem famOf_comm {t} {fams : List (String × Fam σ)} (h : AllComm v t fams) (a b : String)
    (hn : needs v t a b = true) : Comm (famOf fams a) (famOf fams b) := by
  unfold famOf
  cases ha : fams.lookup a with
  | none =>
    intro e e' he he' s
    have he : e = some := he
    subst he
    simp only [Option.bind_some]
    cases e' s <;> rfl
  | some F =>
    cases hb : fams.lookup b with
    | none =>
      intro e e' he he' s
      have he' : e' = some := he'
      subst he'
      simp only [Option.bind_some]
      cases e s <;> rfl
    | some G => exact allComm_all (p := (a, F)) (q := (b, G)) h (mem_of_lookup ha) (mem_of_lookup hb) hn

theorem effect_arm {mode el} {arms : List (String × Arm σ)} {n : XName} {act : Arm σ}
    (h : arms.lookup n.localName = some act) {attrs ns content} {e : σ → Option σ} (hd : Does act n attrs content e) :
    Effect mode el arms [.elem n attrs ns content] e := by
  intro st
  have := hd st
  cases he : e st with
  | none =>
    rw [he] at this
    intro rest
    obtain ⟨err, h1⟩ := this rest
    refine ⟨err, ?_⟩
    rw [XNode.eventsAll, XNode.eventsAll, List.append_nil, elem_events, readFields_start, h]
    simp only [h1]
  | some st' =>
    rw [he] at this
    intro rest
    rw [XNode.eventsAll, XNode.eventsAll, List.append_nil]
    exact fields_arm h (this rest)

theorem effect_skip {el} {arms : List (String × Arm σ)} {n : XName} (h : arms.lookup n.localName = none)
    {attrs ns content} : Effect .skip el arms [.elem n attrs ns content] some := by
  intro st rest
  rw [XNode.eventsAll, XNode.eventsAll, List.append_nil]
  exact fields_skip h

theorem stable_struct_miss {t mode l} {pre : XName → List (String × String) → Except XErr ρ} {init : σ}
    {arms : List (String × Arm σ)} {fin : XName → ρ → σ → Except XErr α} {fams : List (String × Fam σ)}
    (ht : t.rule.content = .children l) (harms : ArmsHave v d t arms fams)
    (hmiss : ∀ attrs (content : List XNode), OkAt v t attrs content → ∀ x ∈ content, ∀ name, nameOf x = some name →
      mode = .skip ∨ name ∈ arms.map (·.1))
    (hcomm : AllComm v t fams) :
    Stable v (d + 1) (readStruct mode pre init arms fin) t := by
  intro tag
  refine stable_of_children (fam := famOf fams) ht ?_ (famOf_comm hcomm)
  intro el attrs content _ hok n attrs' ns c hm t' ht' hc hd
  rcases armsHave_lookup harms n.localName with ⟨h1, h2⟩ | ⟨act, F, h1, h2, h3⟩
  · rcases hmiss attrs content hok _ hm n.localName rfl with rfl | h
    · exact ⟨some, by simp [famOf, h2], effect_skip h1, fun c' _ => effect_skip h1⟩
    · obtain ⟨x, hx⟩ := lookup_isSome h
      rw [hx] at h1
      cases h1
  · obtain ⟨e, he, g1, g2⟩ := h3 t' ht' n attrs' ns c rfl hc hd
    exact ⟨e, by simp only [famOf, h2]; exact he, effect_arm h1 g1, fun c' hex => effect_arm h1 (g2 c' hex)⟩

theorem stable_struct {t mode l} {pre : XName → List (String × String) → Except XErr ρ} {init : σ}
    {arms : List (String × Arm σ)} {fin : XName → ρ → σ → Except XErr α} {fams : List (String × Fam σ)}
    (known : List String) (ht : t.rule.content = .children l) (harms : ArmsHave v d t arms fams)
    (hknown : arms.map (·.1) = known)
    (hnames : mode = .skip ∨ ((t.items v).all fun q => known.contains q.1) = true)
    (hcomm : AllComm v t fams) :
    Stable v d (readStruct mode pre init arms fin) t := by
  refine (stable_struct_miss ht harms ?_ hcomm).mono (Nat.le_succ d)
  intro attrs content hok x hx name hn
  rcases hnames with h | hnames
  · exact .inl h
  · refine .inr ?_
    have := hok.items x hx name hn
    obtain ⟨q, hq, rfl⟩ := List.mem_map.mp this
    rw [hknown]
    simpa using List.all_eq_true.mp hnames q hq

/-! ## Commuting -/

theorem allComm_append {t} {f g : List (String × Fam σ)} (h : AllComm v t (f ++ g)) {g'} (hs : g'.Sublist g) :
    AllComm v t (f ++ g') := List.Pairwise.sublist ((List.Sublist.refl f).append hs) h

theorem since14_sublist {γ : Type} {l : List γ} : (since14 v l []).Sublist l := by
  cases v
  · exact List.nil_sublist _
  · exact List.Sublist.refl _
  · exact List.Sublist.refl _

theorem since15_sublist {γ : Type} {l : List γ} : (since15 v l []).Sublist l := by
  cases v
  · exact List.nil_sublist _
  · exact List.nil_sublist _
  · exact List.Sublist.refl _

theorem allComm_sub {t} {f g : List (String × Fam σ)} (h : AllComm v t f) (hs : g.Sublist f) : AllComm v t g :=
  List.Pairwise.sublist hs h

theorem allComm_nil {t} : AllComm v t ([] : List (String × Fam σ)) := List.Pairwise.nil

/-- One arm and all later ones. -/
def OneComm (v : SpecVersion) (t : ElementType) (name : String) (F : Fam σ) (fams : List (String × Fam σ)) : Prop :=
  ∀ q ∈ fams, needs v t name q.1 = false ∨ Comm F q.2

theorem allComm_cons {t name F} {fams : List (String × Fam σ)} (h : OneComm v t name F fams) (h' : AllComm v t fams) :
    AllComm v t ((name, F) :: fams) := List.Pairwise.cons h h'

theorem oneComm_nil {t name} {F : Fam σ} : OneComm v t name F [] := fun _ h => nomatch h

theorem oneComm_cons {t name F name' G} {fams : List (String × Fam σ)} (h : Comm F G)
    (h' : OneComm v t name F fams) : OneComm v t name F ((name', G) :: fams) := by
  intro q hq
  rcases List.mem_cons.mp hq with rfl | hq
  · exact .inr h
  · exact h' q hq

theorem oneComm_near {t name F name' G} {fams : List (String × Fam σ)}
    (h : (needs .v1_3 t name name' || needs .v1_4 t name name' || needs .v1_5 t name name') = false)
    (h' : OneComm v t name F fams) : OneComm v t name F ((name', G) :: fams) := by
  replace h : needs v t name name' = false := by
    simp only [Bool.or_eq_false_iff] at h
    cases v
    · exact h.1.1
    · exact h.1.2
    · exact h.2
  intro q hq
  rcases List.mem_cons.mp hq with rfl | hq
  · exact .inl h
  · exact h' q hq

theorem comm_false_left {G : Fam σ} : Comm (fun _ => False) G := fun _ _ h => h.elim

theorem comm_false_right {F : Fam σ} : Comm F (fun _ => False) := fun _ _ _ h => h.elim

/-- Shows that two arms may be used in either order. -/
macro "comm_pair" : tactic => `(tactic| first
  | exact comm_false_left
  | exact comm_false_right
  | exact comm_stores (fun _ _ _ => rfl)
  | exact comm_once (fun _ _ => rfl) (fun _ _ _ => rfl)
  | exact Comm.symm (comm_once (fun _ _ => rfl) (fun _ _ _ => rfl)))

/-- Shows that the arms of a reader may be used in any order. -/
macro "all_comm" : tactic => `(tactic| (
  (try simp only [List.cons_append, List.nil_append])
  repeat' first
    | with_reducible exact allComm_nil
    | with_reducible exact oneComm_nil
    | with_reducible apply allComm_cons
    | (with_reducible refine oneComm_cons ?_ ?_; (focus comm_pair))
    | (with_reducible refine oneComm_near ?_ ?_; (focus decide +kernel))))

/-! ## Lists -/

theorem stable_list {t t' mode l inner} {r : XElem α} (ht : t.rule.content = .children l)
    (hitems : t.items v = [(inner, t')]) (hr : Takes v d r t') (h : Stable v d r t') :
    Stable v d (readListWith mode inner r) t := by
  have hs : Stable v (d + 1) (readStruct mode (fun _ _ => .ok ()) ([] : List α)
      [(inner, arm r fun x (l : List α) => l ++ [x])] fun _ _ l => .ok l) t := by
    refine stable_struct_miss ht
      (.cons t' (.inr (by simp [ElementType.child, hitems])) (armHas hr h) .nil) ?_
      (allComm_cons oneComm_nil allComm_nil)
    intro attrs content hok x hx name hn
    have := hok.items x hx name hn
    rw [hitems] at this
    exact .inr (by simpa using this)
  have e : ∀ n attrs evs, readListWith mode inner r n attrs evs = readStruct mode (fun _ _ => .ok ()) ([] : List α)
      [(inner, arm r fun x (l : List α) => l ++ [x])] (fun _ _ l => .ok l) n attrs evs := by
    intro n attrs evs
    simp only [readStruct, readListWith, bind, Except.bind]
    split <;> rename_i heq <;> simp [heq]
  intro tag n attrs ns c c' hn hc hd he x hx rest
  rw [e]
  exact hs tag n attrs ns c c' hn hc (by omega) he x (fun rest => by rw [← e]; exact hx rest) rest

end Cdx.Exchange
