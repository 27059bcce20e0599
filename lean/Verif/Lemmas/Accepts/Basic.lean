import Verif.Spec.XmlSchema
import Verif.Lemmas.Xml

set_option linter.unusedSectionVars false
set_option linter.unusedSimpArgs false
set_option linter.unusedVariables false

/-!
# Reading elements that conform to the format: the general part
-/

namespace Cdx

open Spec

variable {v : SpecVersion} {α β σ ρ : Type}

/-! ## Elements and their types -/

/-- What the readers need of an element, apart from its child elements. -/
def OkAt (v : SpecVersion) (t : ElementType) (attrs : List (String × String)) (content : List XNode) :
    Prop :=
  LocallyConforms false v t attrs content ∧ Supported v t attrs content

mutual
theorem throughout_mono {P Q : ElementType → List (String × String) → List XNode → Prop}
    (h : ∀ t a c, P t a c → Q t a c) : ∀ (x : XNode) (t : ElementType),
    Throughout P v t x → Throughout Q v t x
  | .elem n attrs ns content, t, hx => by
    rw [Throughout] at hx ⊢
    exact ⟨h _ _ _ hx.1, throughoutAll_mono h content t hx.2⟩
  | .chars _, t, _ => by rw [Throughout]; trivial
  | .cdata _, t, _ => by rw [Throughout]; trivial
  | .other, t, _ => by rw [Throughout]; trivial

theorem throughoutAll_mono {P Q : ElementType → List (String × String) → List XNode → Prop}
    (h : ∀ t a c, P t a c → Q t a c) : ∀ (l : List XNode) (t : ElementType),
    ThroughoutAll P v t l → ThroughoutAll Q v t l
  | [], t, _ => by rw [ThroughoutAll]; trivial
  | x :: l, t, hx => by
    rw [ThroughoutAll] at hx ⊢
    exact ⟨fun n hn t' ht' => throughout_mono h x t' (hx.1 n hn t' ht'), throughoutAll_mono h l t hx.2⟩
end

mutual
theorem throughout_and {P Q : ElementType → List (String × String) → List XNode → Prop} :
    ∀ (x : XNode) (t : ElementType), Throughout P v t x → Throughout Q v t x →
      Throughout (fun t a c => P t a c ∧ Q t a c) v t x
  | .elem n attrs ns content, t, hx, hy => by
    rw [Throughout] at hx hy ⊢
    exact ⟨⟨hx.1, hy.1⟩, throughoutAll_and content t hx.2 hy.2⟩
  | .chars _, t, _, _ => by rw [Throughout]; trivial
  | .cdata _, t, _, _ => by rw [Throughout]; trivial
  | .other, t, _, _ => by rw [Throughout]; trivial

theorem throughoutAll_and {P Q : ElementType → List (String × String) → List XNode → Prop} :
    ∀ (l : List XNode) (t : ElementType), ThroughoutAll P v t l → ThroughoutAll Q v t l →
      ThroughoutAll (fun t a c => P t a c ∧ Q t a c) v t l
  | [], t, _, _ => by rw [ThroughoutAll]; trivial
  | x :: l, t, hx, hy => by
    rw [ThroughoutAll] at hx hy ⊢
    exact ⟨fun n hn t' ht' => throughout_and x t' (hx.1 n hn t' ht') (hy.1 n hn t' ht'),
      throughoutAll_and l t hx.2 hy.2⟩
end

theorem locally_unordered {t attrs content} (h : LocallyConforms true v t attrs content) :
    LocallyConforms false v t attrs content := by
  refine ⟨h.1, ?_⟩
  have h2 := h.2
  unfold ContentConforms at h2 ⊢
  split at h2
  · exact h2
  · obtain ⟨names, e, l, hl, hf⟩ := h2
    exact ⟨names, e, l, hl, by simpa using ⟨names, List.Perm.refl _, by simpa using hf⟩⟩

/-- The lists of names that the child elements of an element can have. -/
def Legal (v : SpecVersion) (t : ElementType) (names : List String) : Prop :=
  ∃ l ∈ t.choices v, ∃ names', names'.Perm names ∧ Follows l names'

theorem follows_mem : ∀ {l : List Particle} {names : List String}, Follows l names → ∀ n ∈ names,
    ∃ p ∈ l, n ∈ p.items.map (·.1)
  | [], names, h, n, hn => by subst h; exact nomatch hn
  | p :: l, names, h, n, hn => by
    obtain ⟨piece, rest, rfl, h1, _, _, h4⟩ := h
    rcases List.mem_append.mp hn with hn | hn
    · exact ⟨p, .head _, h1 n hn⟩
    · obtain ⟨q, hq, e⟩ := follows_mem h4 n hn
      exact ⟨q, .tail _ hq, e⟩

theorem follows_least : ∀ {l : List Particle} {names : List String}, Follows l names → ∀ p ∈ l,
    1 ≤ p.least → ∃ n ∈ names, n ∈ p.items.map (·.1)
  | [], names, h, p, hp => nomatch hp
  | q :: l, names, h, p, hp => by
    intro hl
    obtain ⟨piece, rest, rfl, h1, h2, _, h4⟩ := h
    rcases List.mem_cons.mp hp with rfl | hp
    · cases piece with
      | nil => simp at h2; omega
      | cons n piece => exact ⟨n, by simp, h1 n (.head _)⟩
    · obtain ⟨n, hn, e⟩ := follows_least h4 p hp hl
      exact ⟨n, List.mem_append_right _ hn, e⟩

theorem Legal.mem {t names} (h : Legal v t names) : ∀ n ∈ names, n ∈ (t.items v).map (·.1) := by
  intro n hn
  obtain ⟨l, hl, names', hp, hf⟩ := h
  obtain ⟨p, hp', e⟩ := follows_mem hf n (hp.mem_iff.mpr hn)
  simp only [List.mem_map] at e ⊢
  obtain ⟨i, hi, rfl⟩ := e
  exact ⟨i, List.mem_flatMap.mpr ⟨p, List.mem_flatten.mpr ⟨l, hl, hp'⟩, hi⟩, rfl⟩

theorem Legal.least {t names} (h : Legal v t names) : ∃ l ∈ t.choices v, ∀ p ∈ l, 1 ≤ p.least →
    ∃ n ∈ p.items.map (·.1), n ∈ names := by
  obtain ⟨l, hl, names', hp, hf⟩ := h
  refine ⟨l, hl, fun p hp' h1 => ?_⟩
  obtain ⟨n, hn, e⟩ := follows_least hf p hp' h1
  exact ⟨n, e, hp.mem_iff.mp hn⟩

theorem lookup_isSome {α : Type} {k : String} : ∀ {l : List (String × α)}, k ∈ l.map (·.1) →
    ∃ x, l.lookup k = some x
  | [], h => by simp at h
  | (a, b) :: l, h => by
    rw [List.lookup_cons]
    by_cases e : (k == a) = true
    · simp [e]
    · simp only [Bool.not_eq_true] at e
      simp only [e]
      refine lookup_isSome ?_
      simp only [List.map_cons, List.mem_cons] at h
      rcases h with rfl | h
      · simp at e
      · exact h

theorem Legal.child {t names} (h : Legal v t names) {n} (hn : n ∈ names) : ∃ t', t.child v n = some t' :=
  lookup_isSome (h.mem n hn)

/-! ## Readers that take every element of a type -/

/-- A reader takes every element of a type that is not nested deeper than `d`. -/
def Takes (v : SpecVersion) (d : Nat) (r : XElem α) (t : ElementType) : Prop :=
  ∀ n attrs ns content, Throughout (OkAt v) v t (.elem n attrs ns content) →
    depth.depthAll content < d → ∃ x, ∀ rest,
      r n attrs (XNode.eventsAll content ++ .stop n :: rest) = .ok (x, rest)

theorem Takes.mono {d d' : Nat} {r : XElem α} {t} (h : Takes v d' r t) (hd : d ≤ d') : Takes v d r t :=
  fun n attrs ns content hc hk => h n attrs ns content hc (by omega)

theorem takes_map {d} {r : XElem α} {t} (h : Takes v d r t) (f : α → β) : Takes v d (r.map f) t := by
  intro n attrs ns content hc hd
  obtain ⟨x, e⟩ := h n attrs ns content hc hd
  exact ⟨f x, fun rest => by simp [XElem.map, e, bind, Except.bind]⟩

theorem filter_content {content : List XNode} (h : ∀ x ∈ content, isContent x = true) :
    content.filter isContent = content := List.filter_eq_self.mpr h

theorem text_cases {t attrs content type} (h : OkAt v t attrs content) (ht : t.rule.content = .text type) :
    content = [] ∧ type.Admits "" ∨
      ∃ s, (content = [.chars s] ∨ content = [.cdata s]) ∧ type.Admits s ∧ type.Fits s := by
  obtain ⟨⟨-, h1⟩, h2, -, h3, -⟩ := h
  rw [filter_content h2] at h1
  obtain ⟨hlen, hfit⟩ := h3 _ ht
  unfold ContentConforms at h1
  rw [ht] at h1
  obtain ⟨texts, e, ha⟩ := h1
  match content, hlen, e, hfit with
  | [], _, e, _ =>
    cases texts with
    | nil => exact .inl ⟨rfl, ha⟩
    | cons a l => simp at e
  | [x], _, e, hfit =>
    match texts, e with
    | [s], e =>
      have hx : textOf x = some s := by simpa using e
      have hj : String.join [s] = s := by simp [String.join]
      rw [hj] at ha
      refine .inr ⟨s, ?_, ha, hfit x (.head _) s hx⟩
      cases x <;> simp [textOf] at hx
      · exact .inl (by rw [hx])
      · exact .inr (by rw [hx])
    | [], e => simp at e
    | a :: b :: l, e => simp at e
  | x :: y :: l, hlen, _, _ => simp at hlen

theorem takes_simple {d t type} (ht : t.rule.content = .text type) : Takes v d readSimple t := by
  intro n attrs ns content hc _
  rw [Throughout] at hc
  rcases text_cases hc.1 ht with ⟨rfl, _⟩ | ⟨s, rfl | rfl, _⟩
  · exact ⟨"", fun _ => rfl⟩
  · exact ⟨s, fun rest => by simp [XNode.eventsAll, XNode.events, readSimple, readClose, bind, Except.bind]⟩
  · exact ⟨s, fun rest => by simp [XNode.eventsAll, XNode.events, readSimple, readClose, bind, Except.bind]⟩

theorem takes_optional {d t type} (ht : t.rule.content = .text type) : Takes v d readOptional t := by
  intro n attrs ns content hc _
  rw [Throughout] at hc
  rcases text_cases hc.1 ht with ⟨rfl, _⟩ | ⟨s, rfl | rfl, _⟩
  · exact ⟨none, fun rest => by simp [XNode.eventsAll, readOptional]⟩
  · exact ⟨some s, fun rest => by simp [XNode.eventsAll, XNode.events, readOptional, readClose, bind, Except.bind]⟩
  · exact ⟨some s, fun rest => by simp [XNode.eventsAll, XNode.events, readOptional, readClose, bind, Except.bind]⟩

theorem takes_inner {d t type} (ht : t.rule.content = .text type)
    (hne : t ∈ [ElementType.licenseId, .licenseName, .attachedText]) : Takes v d readInner t := by
  intro n attrs ns content hc _
  rw [Throughout] at hc
  rcases text_cases hc.1 ht with ⟨rfl, _⟩ | ⟨s, rfl | rfl, _⟩
  · exact absurd rfl (hc.1.2.2.2.2.1 hne)
  · exact ⟨s, fun rest => by simp [XNode.eventsAll, XNode.events, readInner, readText, readClose, bind, Except.bind]⟩
  · exact ⟨s, fun rest => by simp [XNode.eventsAll, XNode.events, readInner, readText, readClose, bind, Except.bind]⟩

theorem takes_attachment {d} : Takes v d Attachment.readContent .attachment := by
  intro n attrs ns content hc _
  rw [Throughout] at hc
  obtain ⟨s, rfl⟩ := hc.1.2.2.2.2.2.1 rfl
  exact ⟨s, fun rest => by simp [XNode.eventsAll, XNode.events, Attachment.readContent, Attachment.lastText, required,
    bind, Except.bind]⟩

theorem parseBool_admits {el s} (h : TextType.boolean.Admits s) : ∃ b, parseBool el s = .ok b := by
  unfold parseBool
  rcases h with rfl | rfl | rfl | rfl
  · exact ⟨true, by simp⟩
  · exact ⟨false, by simp⟩
  · exact ⟨true, by simp⟩
  · exact ⟨false, by simp⟩

theorem takes_bool {d t} (ht : t.rule.content = .text .boolean) : Takes v d readBool t := by
  intro n attrs ns content hc _
  rw [Throughout] at hc
  rcases text_cases hc.1 ht with ⟨rfl, h⟩ | ⟨s, hs, h, -⟩
  · simp [TextType.Admits] at h
  · obtain ⟨b, hb⟩ := parseBool_admits (el := n.localName) h
    rcases hs with rfl | rfl <;>
    exact ⟨b, fun rest => by simp [XNode.eventsAll, XNode.events, readBool, readSimple, readClose, bind, Except.bind, hb]⟩

theorem integer_parse {s : String} (h : TextType.integer.Admits s) (hf : TextType.integer.Fits s) :
    ∃ n, parseU32 s = some n := by
  obtain ⟨sign, digits, hs, hne, hd, e⟩ := h
  have hf := hf rfl
  have hall : digits.all Char.isDigit = true := List.all_eq_true.mpr hd
  unfold parseU32
  rcases hs with rfl | rfl | rfl
  · obtain ⟨-, hlt⟩ := hf digits (.inl e) hd
    have hh : s.toList.head? ≠ some '+' := by
      rw [e]
      cases digits with
      | nil => simp
      | cons c l =>
        have := hd c (.head _)
        intro h
        simp at h
        subst h
        exact absurd this (by decide)
    rw [if_neg hh, e]
    refine ⟨Nat.ofDigitChars 10 digits 0, ?_⟩
    simp only [List.nil_append]
    cases digits with
    | nil => exact absurd rfl hne
    | cons c l => simp only [hall, List.isEmpty_cons, Bool.not_true, Bool.or_self, Bool.false_eq_true,
        if_false, hlt, if_true]
  · obtain ⟨-, hlt⟩ := hf digits (.inr (.inl e)) hd
    have hh : s.toList.head? = some '+' := by rw [e]; rfl
    rw [if_pos hh, e]
    refine ⟨Nat.ofDigitChars 10 digits 0, ?_⟩
    simp only [List.cons_append, List.nil_append, List.tail_cons]
    cases digits with
    | nil => exact absurd rfl hne
    | cons c l => simp only [hall, List.isEmpty_cons, Bool.not_true, Bool.or_self, Bool.false_eq_true,
        if_false, hlt, if_true]
  · exact absurd e (hf digits (.inr (.inr e)) hd).1

theorem sign_space {l : List Char} (h : IsSign l) : ∀ c ∈ l, isWhitespace c = false := by
  rcases h with rfl | rfl | rfl
  · exact fun c hc => nomatch hc
  · intro c hc; simp at hc; subst hc; decide
  · intro c hc; simp at hc; subst hc; decide

theorem integer_trim {s : String} (h : TextType.integer.Admits s) : trim s = s := by
  obtain ⟨sign, digits, hs, -, hd, e⟩ := h
  refine trim_none fun c hc => ?_
  rw [e] at hc
  rcases List.mem_append.mp hc with hc | hc
  · exact sign_space hs c hc
  · exact digit_whitespace (hd c hc)

theorem decimal_trim {s : String} (h : TextType.decimal.Admits s) : trim s = s := by
  obtain ⟨sign, a, b, hs, ha, hb, e⟩ := h
  refine trim_none fun c hc => ?_
  rcases e with ⟨_, e⟩ | ⟨_, e⟩ <;> rw [e] at hc <;> simp only [List.mem_append, List.mem_cons] at hc
  · rcases hc with hc | hc
    · exact sign_space hs c hc
    · exact digit_whitespace (ha c hc)
  · rcases hc with (hc | hc) | rfl | hc
    · exact sign_space hs c hc
    · exact digit_whitespace (ha c hc)
    · decide
    · exact digit_whitespace (hb c hc)

theorem takes_u32 {d t} (ht : t.rule.content = .text .integer) : Takes v d readU32 t := by
  intro n attrs ns content hc _
  rw [Throughout] at hc
  rcases text_cases hc.1 ht with ⟨rfl, h⟩ | ⟨s, hs, h, hf⟩
  · obtain ⟨sign, digits, hs, hne, -, e⟩ := h
    cases digits with
    | nil => exact absurd rfl hne
    | cons c l => simp at e
  · obtain ⟨x, hx⟩ := integer_parse h hf
    rcases hs with rfl | rfl <;>
    exact ⟨x, fun rest => by simp [XNode.eventsAll, XNode.events, readU32, readText, readClose, bind, Except.bind,
      integer_trim h, hx]⟩

/-- Every decimal number can be read as an `f32`, which is so of `f32::from_str`. -/
def DecimalsParse [F32Format] : Prop := ∀ s, TextType.decimal.Admits s → ∃ x, F32Format.parse s = some x

theorem decimal_ne {s : String} (h : TextType.decimal.Admits s) : s ≠ "" := by
  rintro rfl
  obtain ⟨sign, a, b, -, -, -, e⟩ := h
  rcases e with ⟨h, e⟩ | ⟨h, e⟩
  · cases a with
    | nil => exact h rfl
    | cons c l => simp at e
  · simp at e

theorem takes_f32 [F32Format] (H : DecimalsParse) {d t} (ht : t.rule.content = .text .decimal) :
    Takes v d readF32 t := by
  intro n attrs ns content hc _
  rw [Throughout] at hc
  rcases text_cases hc.1 ht with ⟨rfl, h⟩ | ⟨s, hs, h, hf⟩
  · exact absurd rfl (decimal_ne h)
  · obtain ⟨x, hx⟩ := H s h
    rcases hs with rfl | rfl <;>
    exact ⟨x, fun rest => by simp [XNode.eventsAll, XNode.events, readF32, readText, readClose, bind, Except.bind,
      decimal_trim h, hx]⟩

theorem takes_score [F32Format] (H : DecimalsParse) {d t} (ht : t.rule.content = .text .decimal) :
    Takes v d readScore t := by
  intro n attrs ns content hc _
  rw [Throughout] at hc
  rcases text_cases hc.1 ht with ⟨rfl, h⟩ | ⟨s, hs, h, hf⟩
  · exact absurd rfl (decimal_ne h)
  · obtain ⟨x, hx⟩ := H s h
    rcases hs with rfl | rfl <;>
    exact ⟨x, fun rest => by simp [XNode.eventsAll, XNode.events, readScore, parseF32, readSimple, readClose, bind,
      Except.bind, hx]⟩

/-- What is known about the attributes of an element. -/
def AttrsOk (v : SpecVersion) (t : ElementType) (attrs : List (String × String)) : Prop :=
  AttributesConform (t.attributes v) attrs ∧
    ∀ a ∈ t.attributes v, ∀ s, attrs.lookup a.name = some s → a.type.Fits s

theorem OkAt.attrs {t attrs content} (h : OkAt v t attrs content) : AttrsOk v t attrs :=
  ⟨h.1.1, h.2.2.1⟩

theorem AttrsOk.req {t attrs} (h : AttrsOk v t attrs) (el : XName) (name : String)
    (hn : ((t.attributes v).any fun a => a.required && a.name == name) = true) :
    ∃ s, reqAttr el attrs name = .ok s := by
  obtain ⟨a, ha, e⟩ := List.any_eq_true.mp hn
  simp only [Bool.and_eq_true, beq_iff_eq] at e
  obtain ⟨s, hs⟩ := (h.1 a ha).1 e.1
  exact ⟨s, by rw [← e.2]; simp [reqAttr, hs]⟩

theorem takes_with {d t} {pre : XName → List (String × String) → Except XErr ρ} {r : XElem α}
    {fin : ρ → α → β} (hpre : ∀ el attrs, AttrsOk v t attrs → ∃ p, pre el attrs = .ok p)
    (h : Takes v d r t) : Takes v d (readWith pre r fin) t := by
  intro n attrs ns content hc hd
  obtain ⟨x, e⟩ := h n attrs ns content hc hd
  rw [Throughout] at hc
  obtain ⟨p, hp⟩ := hpre n attrs hc.1.attrs
  exact ⟨fin p x, fun rest => by simp [readWith, hp, e, bind, Except.bind]⟩

theorem children_names {t attrs content l} (h : OkAt v t attrs content)
    (ht : t.rule.content = .children l) :
    ∃ names, content.map nameOf = names.map some ∧ Legal v t names := by
  obtain ⟨⟨-, h1⟩, h2, -⟩ := h
  rw [filter_content h2] at h1
  unfold ContentConforms at h1
  rw [ht] at h1
  simpa [Legal] using h1

theorem takes_ref {d t} (ht : t.rule.content = .children [[]])
    (ha : ((t.attributes v).any fun a => a.required && a.name == "ref") = true) :
    Takes v d readRef t := by
  intro n attrs ns content hc _
  rw [Throughout] at hc
  obtain ⟨names, e, l, hl, names', hp, hf⟩ := children_names hc.1 ht
  simp only [ElementType.choices, ht, List.map_cons, List.map_nil, present, List.filter_nil,
    List.mem_singleton] at hl
  subst hl
  simp only [Follows] at hf
  subst hf
  have := hp.symm.eq_nil
  subst this
  have : content = [] := by simpa using e
  subst this
  obtain ⟨s, hs⟩ := hc.1.attrs.req n "ref" ha
  exact ⟨s, fun rest => by simp [readRef, hs, XNode.eventsAll, readClose, bind, Except.bind]⟩

theorem takes_subref {d} : Takes v d readRef .subDependency := by
  intro n attrs ns content hc _
  rw [Throughout] at hc
  have : content = [] := hc.1.2.2.2.2.2.2.1 rfl
  subst this
  obtain ⟨s, hs⟩ := hc.1.attrs.req n "ref" (by cases v <;> decide)
  exact ⟨s, fun rest => by simp [readRef, hs, XNode.eventsAll, readClose, bind, Except.bind]⟩

theorem map_some_inj {α : Type} : ∀ {a b : List α}, a.map some = b.map some → a = b
  | [], [], _ => rfl
  | [], _ :: _, h => by simp at h
  | _ :: _, [], h => by simp at h
  | x :: a, y :: b, h => by
    simp only [List.map_cons, List.cons.injEq, Option.some.injEq] at h
    rw [h.1, map_some_inj h.2]

/-! ## Structures -/

/-- One child element is handled: the reader goes on behind it, and what is known about the variables
covers its name too. -/
def Handles (v : SpecVersion) (d : Nat) (t : ElementType) (mode : Unknown) (el : XName)
    (arms : List (String × Arm σ)) (Inv : List String → σ → Prop) (names : List String) : Prop :=
  ∀ done name more, names = done ++ name :: more → ∀ n attrs ns content st, n.localName = name →
    (∀ t', t.child v name = some t' → Throughout (OkAt v) v t' (.elem n attrs ns content)) →
    depth.depthAll content < d → Inv done st → ∃ st', Inv (done ++ [name]) st' ∧ ∀ rest,
      readFields mode el arms st ((XNode.elem n attrs ns content).events ++ rest) =
        readFields mode el arms st' rest

theorem handle_content {d t mode el} {arms : List (String × Arm σ)} {Inv : List String → σ → Prop}
    {names : List String} (h : Handles v d t mode el arms Inv names) :
    ∀ (content : List XNode) (done more : List String) (st : σ), names = done ++ more →
      content.map nameOf = more.map some → ThroughoutAll (OkAt v) v t content →
      depth.depthAll content ≤ d → Inv done st → ∃ st', Inv names st' ∧ ∀ rest,
        readFields mode el arms st (XNode.eventsAll content ++ rest) = readFields mode el arms st' rest
  | [], done, more, st, e, em, _, _, hi => by
    have : more = [] := by simpa using em.symm
    subst this
    rw [List.append_nil] at e
    subst e
    exact ⟨st, hi, fun rest => by simp [XNode.eventsAll]⟩
  | x :: content, done, [], st, e, em, _, _, hi => by simp at em
  | x :: content, done, name :: more, st, e, em, hc, hd, hi => by
    simp only [List.map_cons, List.cons.injEq] at em
    rw [ThroughoutAll] at hc
    rw [depth.depthAll] at hd
    cases x with
    | elem n attrs ns c =>
      have hn : n.localName = name := by simpa [nameOf] using em.1
      have hd1 : depth (.elem n attrs ns c) = 1 + depth.depthAll c := rfl
      obtain ⟨st', hi', e'⟩ := h done name more e n attrs ns c st hn
        (fun t' ht' => hc.1 n.localName rfl t' (by rw [hn]; exact ht')) (by omega) hi
      obtain ⟨st'', hi'', e''⟩ := handle_content h content (done ++ [name]) more st' (by simp [e]) em.2
        hc.2 (by omega) hi'
      exact ⟨st'', hi'', fun rest => by rw [XNode.eventsAll, List.append_assoc, e', e'']⟩
    | chars s => simp [nameOf] at em
    | cdata s => simp [nameOf] at em
    | other => simp [nameOf] at em

theorem handle_all {d t mode el} {arms : List (String × Arm σ)} {Inv : List String → σ → Prop}
    {names : List String} (h : Handles v d t mode el arms Inv names) (content : List XNode)
    (done more : List String) (st : σ) (e : names = done ++ more)
    (em : content.map nameOf = more.map some) (hc : ThroughoutAll (OkAt v) v t content)
    (hd : depth.depthAll content ≤ d) (hi : Inv done st) : ∃ st', Inv names st' ∧ ∀ rest,
      readFields mode el arms st (XNode.eventsAll content ++ .stop el :: rest) = .ok (st', rest) := by
  obtain ⟨st', hi', e'⟩ := handle_content h content done more st e em hc hd hi
  exact ⟨st', hi', fun rest => by rw [e', readFields_stop]⟩

/-- The most general form: `Inv` says what is known about the variables after elements with the given
names. -/
theorem takes_struct_inv {d t mode l} {pre : XName → List (String × String) → Except XErr ρ} {init : σ}
    {arms : List (String × Arm σ)} {fin : XName → ρ → σ → Except XErr α}
    (ht : t.rule.content = .children l) (Inv : List String → σ → Prop)
    (hpre : ∀ el attrs, AttrsOk v t attrs → ∃ p, pre el attrs = .ok p)
    (hinit : Inv [] init)
    (hstep : ∀ el attrs (content : List XNode) (names : List String), OkAt v t attrs content → content.map nameOf = names.map some →
      Legal v t names → Handles v d t mode el arms Inv names)
    (hfin : ∀ el p st names, Legal v t names → Inv names st → ∃ x, fin el p st = .ok x) :
    Takes v (d + 1) (readStruct mode pre init arms fin) t := by
  intro n attrs ns content hc hd
  rw [Throughout] at hc
  obtain ⟨p, hp⟩ := hpre n attrs hc.1.attrs
  obtain ⟨names, e, hl⟩ := children_names hc.1 ht
  obtain ⟨st, hi, es⟩ := handle_all (hstep n attrs content names hc.1 e hl) content [] names init rfl e
    hc.2 (by omega) hinit
  obtain ⟨x, hx⟩ := hfin n p st names hl hi
  exact ⟨x, fun rest => by simp [readStruct, hp, es, hx, bind, Except.bind]⟩

theorem length_events (l : List XNode) (n : XName) (rest : List XEvent) :
    rest.length ≤ (XNode.eventsAll l ++ .stop n :: rest).length := by
  simp only [List.length_append, List.length_cons]; omega

theorem elem_events (n attrs ns content) (rest : List XEvent) :
    (XNode.elem n attrs ns content).events ++ rest =
      .start n attrs ns :: (XNode.eventsAll content ++ .stop n :: rest) := by
  simp [XNode.events]

theorem fields_arm {mode el} {arms : List (String × Arm σ)} {n : XName} {act : Arm σ}
    (h : arms.lookup n.localName = some act) {attrs ns content} {st st' : σ} {rest}
    (e : act n attrs st (XNode.eventsAll content ++ .stop n :: rest) = .ok (st', rest)) :
    readFields mode el arms st ((XNode.elem n attrs ns content).events ++ rest) =
      readFields mode el arms st' rest := by
  rw [elem_events, readFields_start, h]
  simp only [e, length_events, if_true]

theorem fields_skip {el} {arms : List (String × Arm σ)} {n : XName}
    (h : arms.lookup n.localName = none) {attrs ns content} {st : σ} {rest} :
    readFields .skip el arms st ((XNode.elem n attrs ns content).events ++ rest) =
      readFields .skip el arms st rest := by
  rw [elem_events, readFields_start, h]
  simp only
  rw [skipElem_eventsAll]
  simp only [skipElem, if_true, length_events]

/-- An arm takes every element of a type, and afterwards the name counts as seen. -/
def ArmTakes (v : SpecVersion) (d : Nat) (Has : String → σ → Prop) (name : String) (act : Arm σ)
    (t : ElementType) : Prop :=
  ∀ n attrs ns content, n.localName = name → Throughout (OkAt v) v t (.elem n attrs ns content) →
    depth.depthAll content < d → ∀ st, ∃ st',
      (∀ rest, act n attrs st (XNode.eventsAll content ++ .stop n :: rest) = .ok (st', rest)) ∧
      Has name st' ∧ ∀ m, Has m st → Has m st'

/-- All arms take the elements with their names. -/
def ArmsTake (v : SpecVersion) (d : Nat) (t : ElementType) (Has : String → σ → Prop)
    (arms : List (String × Arm σ)) : Prop :=
  ∀ q ∈ arms, ∀ t', t.child v q.1 = some t' → ArmTakes v d Has q.1 q.2 t'

theorem armsTake_nil {d t} {Has : String → σ → Prop} : ArmsTake v d t Has [] := fun _ h => nomatch h

theorem armsTake_cons {d t} {Has : String → σ → Prop} {name : String} {act : Arm σ} {arms}
    (t' : ElementType) (ht : t.child v name = none ∨ t.child v name = some t')
    (h : ArmTakes v d Has name act t') (hl : ArmsTake v d t Has arms) :
    ArmsTake v d t Has ((name, act) :: arms) := by
  intro q hq t'' ht''
  rcases List.mem_cons.mp hq with rfl | hq
  · rcases ht with ht | ht <;> rw [ht] at ht'' <;> cases ht''
    exact h
  · exact hl q hq t'' ht''

/-- An arm whose name the format does not have. -/
theorem armsTake_other {d t} {Has : String → σ → Prop} {name : String} {act : Arm σ} {arms}
    (ht : t.child v name = none) (hl : ArmsTake v d t Has arms) :
    ArmsTake v d t Has ((name, act) :: arms) := by
  intro q hq t'' ht''
  rcases List.mem_cons.mp hq with rfl | hq
  · rw [ht] at ht''; cases ht''
  · exact hl q hq t'' ht''

theorem armsTake_append {d t} {Has : String → σ → Prop} {l m : List (String × Arm σ)}
    (hl : ArmsTake v d t Has l) (hm : ArmsTake v d t Has m) : ArmsTake v d t Has (l ++ m) := by
  intro q hq
  rcases List.mem_append.mp hq with hq | hq
  · exact hl q hq
  · exact hm q hq

theorem armsTake_since14 {d t} {Has : String → σ → Prop} {l : List (String × Arm σ)}
    (hl : ArmsTake v d t Has l) : ArmsTake v d t Has (since14 v l []) := by
  cases v
  · exact armsTake_nil
  · exact hl
  · exact hl

theorem armsTake_since15 {d t} {Has : String → σ → Prop} {l : List (String × Arm σ)}
    (hl : ArmsTake v d t Has l) : ArmsTake v d t Has (since15 v l []) := by
  cases v
  · exact armsTake_nil
  · exact armsTake_nil
  · exact hl

theorem armTakes {d name t} {Has : String → σ → Prop} {r : XElem α} {set : α → σ → σ}
    (h : Takes v d r t) (h1 : ∀ y st, Has name (set y st)) (h2 : ∀ y st m, Has m st → Has m (set y st)) :
    ArmTakes v d Has name (arm r set) t := by
  intro n attrs ns content hn hc hd st
  obtain ⟨x, e⟩ := h n attrs ns content hc hd
  exact ⟨set x st, fun rest => by simp [arm, e, bind, Except.bind], h1 x st, h2 x st⟩

theorem takes_struct_has {d t mode l} {pre : XName → List (String × String) → Except XErr ρ} {init : σ}
    {arms : List (String × Arm σ)} {fin : XName → ρ → σ → Except XErr α}
    (ht : t.rule.content = .children l) (Has : String → σ → Prop)
    (hpre : ∀ el attrs, AttrsOk v t attrs → ∃ p, pre el attrs = .ok p)
    (harms : ArmsTake v d t Has arms)
    (hmiss : ∀ (el : XName) attrs (content : List XNode) (names : List String), OkAt v t attrs content → content.map nameOf = names.map some →
      ∀ name ∈ names, (mode = .skip ∧ ∀ st, Has name st) ∨ name ∈ arms.map (·.1))
    (hfin : ∀ el p st, (∃ l ∈ t.choices v, ∀ p ∈ l, 1 ≤ p.least →
      ∃ n ∈ p.items.map (·.1), Has n st) → ∃ x, fin el p st = .ok x) :
    Takes v (d + 1) (readStruct mode pre init arms fin) t := by
  refine takes_struct_inv ht (fun names st => ∀ m ∈ names, Has m st) hpre (fun m hm => nomatch hm) ?_ ?_
  · intro el attrs content names hok en hl done name more e n attrs' ns' c st hn hc hd hi
    have hmem : name ∈ names := by rw [e]; simp
    obtain ⟨t', ht'⟩ := hl.child hmem
    cases hlk : arms.lookup n.localName with
    | some act =>
      have hm := mem_of_lookup hlk
      rw [hn] at hm
      obtain ⟨st', e', h1, h2⟩ := harms _ hm t' ht' n attrs' ns' c hn (hc t' ht') hd st
      refine ⟨st', fun m hm' => ?_, fun rest => fields_arm hlk (e' rest)⟩
      rcases List.mem_append.mp hm' with hm' | hm'
      · exact h2 m (hi m hm')
      · rw [List.mem_singleton.mp hm']; exact h1
    | none =>
      rcases hmiss el attrs content names hok en name hmem with ⟨rfl, h⟩ | h
      · refine ⟨st, fun m hm' => ?_, fun rest => fields_skip hlk⟩
        rcases List.mem_append.mp hm' with hm' | hm'
        · exact hi m hm'
        · rw [List.mem_singleton.mp hm']; exact h st
      · obtain ⟨x, hx⟩ := lookup_isSome h
        rw [hn, hx] at hlk
        cases hlk
  · intro el p st names hl hi
    refine hfin el p st ?_
    obtain ⟨l, hl', h⟩ := hl.least
    refine ⟨l, hl', fun q hq h1 => ?_⟩
    obtain ⟨n, hn, hm⟩ := h q hq h1
    exact ⟨n, hn, hi n hm⟩

/-- A structure whose reader knows all names of the format. -/
theorem takes_struct {d t mode l} {pre : XName → List (String × String) → Except XErr ρ} {init : σ}
    {arms : List (String × Arm σ)} {fin : XName → ρ → σ → Except XErr α} (known : List String)
    (ht : t.rule.content = .children l) (Has : String → σ → Prop)
    (hpre : ∀ el attrs, AttrsOk v t attrs → ∃ p, pre el attrs = .ok p)
    (harms : ArmsTake v d t Has arms)
    (hknown : arms.map (·.1) = known)
    (hnames : ((t.items v).all fun q => known.contains q.1) = true)
    (hfin : ∀ el p st, (∃ l ∈ t.choices v, ∀ p ∈ l, 1 ≤ p.least →
      ∃ n ∈ p.items.map (·.1), Has n st) → ∃ x, fin el p st = .ok x) :
    Takes v d (readStruct mode pre init arms fin) t := by
  refine (takes_struct_has ht Has hpre harms ?_ hfin).mono (Nat.le_succ d)
  intro el attrs content ns hok e name hn
  refine .inr ?_
  obtain ⟨ns', e', hl⟩ := children_names hok ht
  have : ns = ns' := by
    have := e.symm.trans e'
    exact map_some_inj this
  subst this
  obtain ⟨q, hq, rfl⟩ := List.mem_map.mp (hl.mem name hn)
  rw [hknown]
  simpa using List.all_eq_true.mp hnames q hq

/-- A reader that skips what it does not know misses no required element. -/
theorem skip_missing {t l} {Has : String → σ → Prop} {arms : List (String × Arm σ)} (known : List String)
    (ht : t.rule.content = .children l) (hknown : arms.map (·.1) = known)
    (h : ∀ name, name ∉ known → ∀ st, Has name st) :
    ∀ (el : XName) attrs (content : List XNode) (names : List String), OkAt v t attrs content →
      content.map nameOf = names.map some →
      ∀ name ∈ names, (Unknown.skip = .skip ∧ ∀ st, Has name st) ∨ name ∈ arms.map (·.1) := by
  intro el attrs content names hok e name hn
  rw [hknown]
  by_cases hk : name ∈ known
  · exact .inr hk
  · exact .inl ⟨rfl, h name hk⟩

/-- Required elements have been seen. -/
theorem seen_of_choices {t : ElementType} {Has : String → σ → Prop} {st : σ} (names : List String)
    (hdec : ((t.choices v).all fun l => l.any fun p => decide (1 ≤ p.least) && p.items.map (·.1) == names) = true)
    (h : ∃ l ∈ t.choices v, ∀ p ∈ l, 1 ≤ p.least → ∃ n ∈ p.items.map (·.1), Has n st) :
    ∃ n ∈ names, Has n st := by
  obtain ⟨l, hl, h⟩ := h
  have := List.all_eq_true.mp hdec l hl
  obtain ⟨p, hp, e⟩ := List.any_eq_true.mp this
  simp only [Bool.and_eq_true, decide_eq_true_eq, beq_iff_eq] at e
  rw [← e.2]
  exact h p hp e.1

theorem seen_one {t : ElementType} {Has : String → σ → Prop} {st : σ} (name : String)
    (hdec : ((t.choices v).all fun l => l.any fun p => decide (1 ≤ p.least) && p.items.map (·.1) == [name]) = true)
    (h : ∃ l ∈ t.choices v, ∀ p ∈ l, 1 ≤ p.least → ∃ n ∈ p.items.map (·.1), Has n st) : Has name st := by
  obtain ⟨n, hn, h⟩ := seen_of_choices [name] hdec h
  rw [List.mem_singleton.mp hn] at h
  exact h

/-- A list: any number of elements with one name. -/
theorem takes_list {d t t' mode l inner} {r : XElem α} (ht : t.rule.content = .children l)
    (hitems : t.items v = [(inner, t')]) (h : Takes v d r t') :
    Takes v d (readListWith mode inner r) t := by
  have hs : Takes v (d + 1) (readStruct mode (fun _ _ => .ok ()) ([] : List α)
      [(inner, arm r fun x (l : List α) => l ++ [x])] fun _ _ l => .ok l) t := by
    refine takes_struct_has ht (fun _ _ => True) (fun _ _ _ => ⟨(), rfl⟩) ?_ ?_ fun _ _ st _ => ⟨st, rfl⟩
    · refine armsTake_cons t' (.inr ?_) (armTakes h (fun _ _ => trivial) fun _ _ _ _ => trivial) armsTake_nil
      simp [ElementType.child, hitems]
    · intro el attrs content ns hok e name hn
      obtain ⟨ns', e', hl⟩ := children_names hok ht
      have : ns = ns' := by
        have := e.symm.trans e'
        exact map_some_inj this
      subst this
      have := hl.mem name hn
      rw [hitems] at this
      exact .inr (by simpa using this)
  intro n attrs ns content hc hd
  obtain ⟨x, e⟩ := hs n attrs ns content hc (by omega)
  refine ⟨x, fun rest => ?_⟩
  rw [← e rest]
  simp only [readStruct, readListWith, bind, Except.bind]
  split <;> rename_i heq <;> simp [heq]

macro "has_set" : tactic => `(tactic| (intro y s; first | rfl | simp))

macro "has_keep" : tactic => `(tactic| (intro y s m h; first
  | exact h | rfl | exact fun _ => rfl
  | exact ⟨fun _ => rfl, h.2⟩ | exact ⟨h.1, fun _ => rfl⟩
  | exact ⟨h.1, fun _ => rfl, h.2.2⟩ | exact ⟨h.1, h.2.1, fun _ => rfl⟩))

end Cdx
