import Verif.Spec.XmlWritten
import Verif.Lemmas.Xml

/-!
# Lemmas: how written elements that follow the schema are put together
-/

set_option linter.unusedSectionVars false
set_option linter.unusedSimpArgs false
set_option linter.unusedVariables false

namespace Cdx.Conforming

open Spec

variable [F32Format]

/-- An element is valid, or one of those that are written in another way, if that is `ok`. -/
def Meets (ok : Prop) (v : SpecVersion) (t : ElementType) (attrs : List (String × String)) (content : List XNode) : Prop :=
  ok ∧ Departs v t attrs content ∨ ValidElement v t attrs content

/-- The name of a written element. -/
class Tag (w : List WEvent) (n : outParam String) : Prop where
  mk ::

/-- An item of a list. -/
class HasItem (items : List (String × ElementType)) (n : String) (t : outParam ElementType) : Prop where
  mem : (n, t) ∈ items

instance (n t l) : HasItem ((n, t) :: l) n t := ⟨List.mem_cons_self⟩
instance (priority := low) (n t q l) [h : HasItem l n t] : HasItem (q :: l) n t :=
  ⟨List.mem_cons_of_mem _ h.mem⟩

/-- An element of the given name in the namespace of the version. -/
def IsNode (v : SpecVersion) (n : String) (x : XNode) : Prop :=
  ∃ attrs content, x = .elem ⟨n, some v.namespace, none⟩ attrs (some v.namespace) content

theorem IsNode.name {v n x} (h : IsNode v n x) : nameOf x = some n := by
  obtain ⟨attrs, content, rfl⟩ := h
  rfl

/-- What is written is an element of the given name and type. -/
class Elem (ok : Prop) (v : SpecVersion) (n : String) (t : ElementType) (w : List WEvent) : Prop where
  ex : ∃ x, IsNode v n x ∧ written x = w ∧ Throughout (Meets ok v) v t x

theorem Elem.root {ok v t w} (h : Elem ok v "bom" t w) : ∃ root, IsRoot v root ∧ written root = w ∧
    Throughout (Meets ok v) v t root := by
  obtain ⟨x, ⟨attrs, content, rfl⟩, hw, ht⟩ := h.ex
  exact ⟨_, ⟨_, _, _, rfl, rfl⟩, hw, ht⟩

/-- A node is one of the items. -/
def IsItem (ok : Prop) (v : SpecVersion) (items : List (String × ElementType)) (x : XNode) : Prop :=
  ∃ n t, (n, t) ∈ items ∧ nameOf x = some n ∧ Throughout (Meets ok v) v t x

/-- What is written is one of the items. -/
class One (ok : Prop) (v : SpecVersion) (items : List (String × ElementType)) (w : List WEvent) : Prop where
  ex : ∃ x, written x = w ∧ IsItem ok v items x

/-- What is written is at most one of the items. -/
class Maybe (ok : Prop) (v : SpecVersion) (items : List (String × ElementType)) (w : List WEvent) : Prop where
  ex : ∃ xs : List XNode, xs.length ≤ 1 ∧ writtenAll xs = w ∧ ∀ x ∈ xs, IsItem ok v items x

/-- What is written are some of the items. -/
class Any (ok : Prop) (v : SpecVersion) (items : List (String × ElementType)) (w : List WEvent) : Prop where
  ex : ∃ xs : List XNode, writtenAll xs = w ∧ ∀ x ∈ xs, IsItem ok v items x

/-- What is written follows a sequence. -/
class Row (ok : Prop) (v : SpecVersion) (l : List Particle) (w : List WEvent) : Prop where
  ex : ∃ xs names, writtenAll xs = w ∧ xs.map nameOf = names.map some ∧ Follows l names ∧
    ∀ x ∈ xs, IsItem ok v (l.flatMap (·.items)) x

/-- A sequence of a type of element. -/
class Kids (v : SpecVersion) (t : ElementType) (l : outParam (List Particle)) : Prop where
  rule : ∃ c, t.rule.content = .children c ∧ l ∈ c.map (present v)

/-- All items of a type of element. -/
class Items (v : SpecVersion) (t : ElementType) (l : outParam (List (String × ElementType))) : Prop where
  eq : t.items v = l

/-- The attributes of a type of element. -/
class Rules (v : SpecVersion) (t : ElementType) (l : outParam (List AttributeRule)) : Prop where
  eq : t.attributes v = l

/-- The content of a type of element is a text. -/
class Texty (t : ElementType) (type : outParam TextType) : Prop where
  eq : t.rule.content = .text type

/-- A text is of a type. -/
class TextOk (type : TextType) (s : String) : Prop where
  ok : type.Admits s

instance (s : String) : TextOk .string s := ⟨trivial⟩
instance (b : Bool) : TextOk .boolean (boolStr b) := ⟨by cases b <;> simp [boolStr, TextType.Admits]⟩
instance (n : Nat) : TextOk .integer (showNat n) :=
  ⟨⟨[], (showNat n).toList, .inl rfl, by
    intro h
    exact showNat_ne n (String.toList_eq_nil_iff.mp h), fun c hc => showNat_digit hc, rfl⟩⟩

/-- A name that no rule has. -/
class Fresh (n : String) (l : List AttributeRule) : Prop where
  ne : ∀ a ∈ l, a.name ≠ n

/-- Attributes with optional values fit some rules. -/
class Fit (rules : List AttributeRule) (l : List (String × Option String)) : Prop where
  listed : ((mkAttrs l).map (·.1)).Nodup ∧ ∀ a ∈ mkAttrs l, a.1 ∈ rules.map (·.name)
  conform : AttributesConform rules (mkAttrs l)

theorem mkAttrs_none (n : String) (l) : mkAttrs ((n, none) :: l) = mkAttrs l := by simp [mkAttrs]
theorem mkAttrs_some (n s : String) (l) : mkAttrs ((n, some s) :: l) = (n, s) :: mkAttrs l := by simp [mkAttrs]

theorem lookup_ne {α : Type} {l : List (String × α)} {n : String} (h : ∀ a ∈ l, a.1 ≠ n) : l.lookup n = none := by
  induction l with
  | nil => rfl
  | cons q l ih =>
    rw [List.lookup_cons]
    have : (n == q.1) = false := by
      have := h q List.mem_cons_self
      simp [Ne.symm this]
    rw [this]
    exact ih fun a ha => h a (List.mem_cons_of_mem _ ha)

instance fit_nil : Fit [] [] := ⟨⟨by simp [mkAttrs], by simp [mkAttrs]⟩, by simp [AttributesConform]⟩

/-- Left out. -/
theorem fit_skip {a : AttributeRule} {R L} (hr : a.required = false) (hf : ∀ b ∈ R, b.name ≠ a.name)
    (h : Fit R L) : Fit (a :: R) L := by
  refine ⟨⟨h.listed.1, fun b hb => List.mem_cons_of_mem _ (h.listed.2 b hb)⟩, ?_⟩
  intro b hb
  rcases List.mem_cons.mp hb with rfl | hb
  · refine ⟨fun h => (by rw [hr] at h; cases h), fun s hs => ?_⟩
    rw [lookup_ne] at hs
    · cases hs
    · intro q hq e
      have := h.listed.2 q hq
      rw [List.mem_map] at this
      obtain ⟨b, hb, e'⟩ := this
      exact hf b hb (e'.trans e)
  · exact h.conform b hb

/-- Written. -/
theorem fit_take {a : AttributeRule} {R L} {s : String} (hs : a.type.Admits s) (hf : ∀ b ∈ R, b.name ≠ a.name)
    (h : Fit R L) : Fit (a :: R) ((a.name, some s) :: L) := by
  have hn : ∀ q ∈ mkAttrs L, q.1 ≠ a.name := by
    intro q hq e
    have := h.listed.2 q hq
    rw [List.mem_map] at this
    obtain ⟨b, hb, e'⟩ := this
    exact hf b hb (e'.trans e)
  refine ⟨?_, ?_⟩ <;> rw [mkAttrs_some]
  · refine ⟨?_, ?_⟩
    · rw [List.map_cons, List.nodup_cons]
      refine ⟨?_, h.listed.1⟩
      rw [List.mem_map]
      rintro ⟨q, hq, e⟩
      exact hn q hq e
    · intro q hq
      rcases List.mem_cons.mp hq with rfl | hq
      · exact List.mem_cons_self
      · exact List.mem_cons_of_mem _ (h.listed.2 q hq)
  · intro b hb
    rcases List.mem_cons.mp hb with rfl | hb
    · rw [List.lookup_cons, beq_self_eq_true]
      exact ⟨fun _ => ⟨s, rfl⟩, fun s' e => by cases e; exact hs⟩
    · rw [List.lookup_cons]
      have : (b.name == a.name) = false := by simp [hf b hb]
      rw [this]
      exact h.conform b hb

instance (n) : Fresh n [] := ⟨by simp⟩
/-- Different names. -/
class Differ (m n : String) : Prop where
  ne : m ≠ n
instance (m n q t s) [h : Fresh n q] [hd : Differ m n] (r) : Fresh n (⟨m, t, r, s⟩ :: q) := ⟨by
  intro a ha
  rcases List.mem_cons.mp ha with rfl | ha
  · exact hd.ne
  · exact h.ne a ha⟩

instance fit_required {n t s R L x} [ht : TextOk t x] [hf : Fresh n R] [h : Fit R L] :
    Fit (⟨n, t, true, s⟩ :: R) ((n, some x) :: L) := fit_take (a := ⟨n, t, true, s⟩) ht.ok hf.ne h

instance fit_given {n t s R L x} [ht : TextOk t x] [hf : Fresh n R] [h : Fit R L] :
    Fit (⟨n, t, false, s⟩ :: R) ((n, some x) :: L) := fit_take (a := ⟨n, t, false, s⟩) ht.ok hf.ne h

theorem fit_opt {n t s R L} {x : Option String} (ht : ∀ y, x = some y → t.Admits y) (hf : Fresh n R)
    (h : Fit R L) : Fit (⟨n, t, false, s⟩ :: R) ((n, x) :: L) := by
  cases x with
  | none =>
    have := fit_skip (a := ⟨n, t, false, s⟩) rfl hf.ne h
    exact ⟨by rw [mkAttrs_none]; exact this.listed, by rw [mkAttrs_none]; exact this.conform⟩
  | some y => exact fit_take (a := ⟨n, t, false, s⟩) (ht y rfl) hf.ne h

instance fit_string {n s R L} {x : Option String} [hf : Fresh n R] [h : Fit R L] :
    Fit (⟨n, .string, false, s⟩ :: R) ((n, x) :: L) := fit_opt (fun _ _ => trivial) hf h

instance fit_map {α : Type} {n t s R L} {x : Option α} {f : α → String} [ht : ∀ a, TextOk t (f a)]
    [hf : Fresh n R] [h : Fit R L] : Fit (⟨n, t, false, s⟩ :: R) ((n, x.map f) :: L) :=
  fit_opt (fun y e => by
    cases x with
    | none => cases e
    | some a => cases e; exact (ht a).ok) hf h

instance (priority := low) fit_absent {n t s R L} [hf : Fresh n R] [h : Fit R L] : Fit (⟨n, t, false, s⟩ :: R) L :=
  fit_skip (a := ⟨n, t, false, s⟩) rfl hf.ne h

/-- Finite numbers are displayed as decimal numbers. -/
class Decimals : Prop where
  decimal : ∀ x : F32, x.isFinite = true → TextType.decimal.Admits (F32Format.display x)

instance (priority := high) fit_none {n R L} [h : Fit R L] : Fit R ((n, none) :: L) :=
  ⟨by rw [mkAttrs_none]; exact h.listed, by rw [mkAttrs_none]; exact h.conform⟩

instance (priority := high) fit_13 {n R L} {x : Option String} [h : Fit R L] : Fit R ((n, since15 .v1_3 x none) :: L) :=
  ⟨by show (((mkAttrs ((n, none) :: L)).map _).Nodup ∧ ∀ a ∈ mkAttrs ((n, none) :: L), _); rw [mkAttrs_none]; exact h.listed,
   by show AttributesConform R (mkAttrs ((n, none) :: L)); rw [mkAttrs_none]; exact h.conform⟩
instance (priority := high) fit_14 {n R L} {x : Option String} [h : Fit R L] : Fit R ((n, since15 .v1_4 x none) :: L) :=
  ⟨by show (((mkAttrs ((n, none) :: L)).map _).Nodup ∧ ∀ a ∈ mkAttrs ((n, none) :: L), _); rw [mkAttrs_none]; exact h.listed,
   by show AttributesConform R (mkAttrs ((n, none) :: L)); rw [mkAttrs_none]; exact h.conform⟩

/-! ### Elements -/

variable {ok : Prop} {v : SpecVersion} {items : List (String × ElementType)}

theorem written_elem (tag attrs ns body) : written (.elem ⟨tag, ns, none⟩ attrs ns body) =
    writeElem tag attrs (writtenAll body) := by simp [written, writeElem]

theorem throughoutAll_iff {P : ElementType → List (String × String) → List XNode → Prop} {t} :
    ∀ {l : List XNode}, ThroughoutAll P v t l ↔ ∀ x ∈ l, ∀ n ∈ nameOf x, ∀ t' ∈ t.child v n, Throughout P v t' x
  | [] => by simp [ThroughoutAll]
  | x :: l => by
    rw [ThroughoutAll, throughoutAll_iff]
    simp only [List.forall_mem_cons]

/-- An element from its content. -/
theorem elem_of {tag t attrs} {xs : List XNode} {body : List WEvent} (hw : writtenAll xs = body)
    (hm : Meets ok v t attrs xs)
    (hc : ∀ x ∈ xs, ∀ n ∈ nameOf x, ∀ t' ∈ t.child v n, Throughout (Meets ok v) v t' x) :
    Elem ok v tag t (writeElem tag attrs body) :=
  ⟨.elem ⟨tag, some v.namespace, none⟩ attrs (some v.namespace) xs, ⟨_, _, rfl⟩, by rw [written_elem, hw], by
    rw [Throughout]
    exact ⟨hm, throughoutAll_iff.mpr hc⟩⟩

theorem isContent_of_name {x : XNode} {n} (h : nameOf x = some n) : isContent x = true := by
  cases x <;> simp_all [nameOf, isContent]

theorem filter_names {xs : List XNode} {names : List String} (h : xs.map nameOf = names.map some) :
    xs.filter isContent = xs := by
  rw [List.filter_eq_self]
  intro x hx
  have : nameOf x ∈ names.map some := h ▸ List.mem_map_of_mem hx
  rw [List.mem_map] at this
  obtain ⟨n, -, e⟩ := this
  exact isContent_of_name e.symm

/-- The items of a type of element have one type for each name. -/
theorem child_of_item {t : ElementType} {q} (h : q ∈ t.items v) : t.child v q.1 = some q.2 := by
  revert q
  cases t <;> cases v <;> decide +kernel

/-- A valid element. -/
theorem elem_row {tag t attrs l body} (hk : Kids v t l) (ha : AttributesConform (t.attributes v) attrs)
    (hl : AttributesListed v t attrs) (hb : Row ok v l body) : Elem ok v tag t (writeElem tag attrs body) := by
  obtain ⟨c, hc, hm⟩ := hk.rule
  obtain ⟨xs, names, hw, hn, hf, hi⟩ := hb.ex
  have hch : t.choices v = c.map (present v) := by unfold ElementType.choices; rw [hc]
  refine elem_of hw (.inr ⟨⟨ha, ?_⟩, hl⟩) ?_
  · unfold ContentConforms
    rw [hc, filter_names hn]
    exact ⟨names, hn, l, by rw [hch]; exact hm, hf⟩
  · intro x hx n hn t' ht'
    obtain ⟨m, u, hmu, hnm, hu⟩ := hi x hx
    have hni : (m, u) ∈ t.items v := by
      unfold ElementType.items
      rw [List.mem_flatMap] at hmu ⊢
      obtain ⟨p, hp, hq⟩ := hmu
      exact ⟨p, List.mem_flatten.mpr ⟨l, by rw [hch]; exact hm, hp⟩, hq⟩
    have := child_of_item hni
    simp only [Option.mem_def] at hn ht'
    rw [hnm] at hn
    cases hn
    rw [this] at ht'
    cases ht'
    exact hu

instance elem_mk {tag t attrs R l body} [hr : Rules v t R] [ha : Fit R attrs] [hk : Kids v t l]
    [hb : Row ok v l body] : Elem ok v tag t (writeElem tag (mkAttrs attrs) body) :=
  elem_row hk (by rw [hr.eq]; exact ha.conform)
    ⟨ha.listed.1, fun a h => by rw [hr.eq]; exact ha.listed.2 a h⟩ hb

instance elem_bare {tag t R l body} [hr : Rules v t R] [ha : Fit R []] [hk : Kids v t l]
    [hb : Row ok v l body] : Elem ok v tag t (writeElem tag [] body) := elem_mk (attrs := [])

theorem elem_text {tag t attrs type s} (x : XNode) (hx : textOf x = some s) (hn : nameOf x = none)
    (hi : isContent x = true)
    (ht : Texty t type) (ha : AttributesConform (t.attributes v) attrs)
    (hl : AttributesListed v t attrs) (hb : TextOk type s) :
    Elem ok v tag t (writeElem tag attrs (written x)) := by
  refine elem_of (xs := [x]) (by simp [writtenAll]) (.inr ⟨⟨ha, ?_⟩, hl⟩) ?_
  · unfold ContentConforms
    rw [ht.eq]
    refine ⟨[s], ?_, ?_⟩
    · simp [hi, hx]
    · have : String.join [s] = s := by simp [String.join]
      rw [this]
      exact hb.ok
  · intro y hy n hyn
    rw [List.mem_singleton] at hy
    subst hy
    simp [hn] at hyn

instance elem_chars {tag t attrs R type s} [hr : Rules v t R] [ha : Fit R attrs] [ht : Texty t type]
    [hb : TextOk type s] : Elem ok v tag t (writeElem tag (mkAttrs attrs) [.chars s]) := by
  have := elem_text (ok := ok) (v := v) (tag := tag) (s := s) (.chars s) rfl rfl rfl ht (attrs := mkAttrs attrs)
    (by rw [hr.eq]; exact ha.conform) ⟨ha.listed.1, fun a h => by rw [hr.eq]; exact ha.listed.2 a h⟩ hb
  simpa [written] using this

instance elem_cdata {tag t R type s} [hr : Rules v t R] [ha : Fit R []] [ht : Texty t type]
    [hb : TextOk type s] : Elem ok v tag t (writeElem tag [] [.cdata s]) := by
  have := elem_text (ok := ok) (v := v) (tag := tag) (s := s) (.cdata s) rfl rfl rfl ht (attrs := mkAttrs [])
    (by rw [hr.eq]; exact ha.conform) ⟨ha.listed.1, fun a h => by rw [hr.eq]; exact ha.listed.2 a h⟩ hb
  simpa [written, mkAttrs] using this

instance elem_simple {tag t R type s} [hr : Rules v t R] [ha : Fit R []] [ht : Texty t type]
    [hb : TextOk type s] : Elem ok v tag t (writeSimple tag s) := by
  have := elem_chars (ok := ok) (v := v) (tag := tag) (t := t) (attrs := []) (s := s)
  simpa [writeSimple, writeElem, mkAttrs] using this

instance elem_list {α : Type} {tag t R l} {f : α → List WEvent} {x : List α} [hr : Rules v t R] [ha : Fit R []]
    [hk : Kids v t l] [hb : Row ok v l (x.flatMap f)] : Elem ok v tag t (writeList tag f x) := elem_bare

instance elem_ref {tag t R l r} [hr : Rules v t R] [ha : Fit R [("ref", some r)]]
    [hk : Kids v t l] [hb : Row ok v l []] : Elem ok v tag t (writeRef tag r) := elem_mk

instance (tag attrs body) : Tag (writeElem tag attrs body) tag := ⟨⟩
instance (tag s) : Tag (writeSimple tag s) tag := ⟨⟩
instance {α : Type} (tag : String) (f : α → List WEvent) (x) : Tag (writeList tag f x) tag := ⟨⟩
instance (tag s) : Tag (writeRef tag s) tag := ⟨⟩

/-! ### Pieces -/

instance one_elem {w n t} [Tag w n] [hi : HasItem items n t] [h : Elem ok v n t w] : One ok v items w := by
  obtain ⟨x, hn, hw, ht⟩ := h.ex
  exact ⟨x, hw, n, t, hi.mem, hn.name, ht⟩

theorem maybe_nil : Maybe ok v items [] := ⟨[], by simp, rfl, by simp⟩

theorem maybe_one {w} (h : One ok v items w) : Maybe ok v items w := by
  obtain ⟨x, hw, hi⟩ := h.ex
  exact ⟨[x], by simp, by simp [writtenAll, hw], by simpa using hi⟩

instance maybe_nil' : Maybe ok v items [] := maybe_nil
instance (priority := low) maybe_one' {w} [h : One ok v items w] : Maybe ok v items w := maybe_one h

theorem maybe_some {α : Type} {f : α → List WEvent} {x : Option α} (h : ∀ a, x = some a → Maybe ok v items (f a)) :
    Maybe ok v items (writeOpt f x) := by
  cases x with
  | none => exact maybe_nil
  | some a => exact h a rfl

instance maybe_opt {α : Type} {f : α → List WEvent} {x : Option α} [h : ∀ a, Maybe ok v items (f a)] :
    Maybe ok v items (writeOpt f x) := maybe_some fun a _ => h a

instance maybe_if {c : Prop} [Decidable c] {w : List WEvent} [h : Maybe ok v items w] :
    Maybe ok v items (if c then w else []) := by
  split
  · exact h
  · exact maybe_nil

instance maybe_14_14 {w d : List WEvent} [h : Maybe ok v items w] : Maybe ok v items (since14 .v1_4 w d) := h
instance maybe_14_15 {w d : List WEvent} [h : Maybe ok v items w] : Maybe ok v items (since14 .v1_5 w d) := h
instance maybe_15_15 {w d : List WEvent} [h : Maybe ok v items w] : Maybe ok v items (since15 .v1_5 w d) := h

theorem any_maybe {w} (h : Maybe ok v items w) : Any ok v items w := by
  obtain ⟨xs, -, hw, hi⟩ := h.ex
  exact ⟨xs, hw, hi⟩

instance (priority := low) any_maybe' {w} [h : Maybe ok v items w] : Any ok v items w := any_maybe h

theorem writtenAll_append (xs ys : List XNode) : writtenAll (xs ++ ys) = writtenAll xs ++ writtenAll ys := by
  induction xs with
  | nil => rfl
  | cons x xs ih => simp [writtenAll, ih]

theorem any_append {a b} (ha : Any ok v items a) (hb : Any ok v items b) : Any ok v items (a ++ b) := by
  obtain ⟨xs, hw, hi⟩ := ha.ex
  obtain ⟨ys, hw', hi'⟩ := hb.ex
  refine ⟨xs ++ ys, by rw [writtenAll_append, hw, hw'], ?_⟩
  intro x hx
  rcases List.mem_append.mp hx with h | h
  · exact hi x h
  · exact hi' x h

instance any_nil : Any ok v items [] := any_maybe maybe_nil
instance any_append' {a b} [ha : Any ok v items a] [hb : Any ok v items b] : Any ok v items (a ++ b) := any_append ha hb

theorem any_mem {α : Type} {f : α → List WEvent} {x : List α} (h : ∀ a ∈ x, Any ok v items (f a)) :
    Any ok v items (x.flatMap f) := by
  induction x with
  | nil => exact any_nil
  | cons a x ih =>
    rw [List.flatMap_cons]
    exact any_append (h a List.mem_cons_self) (ih fun b hb => h b (List.mem_cons_of_mem _ hb))

instance any_flat {α : Type} {f : α → List WEvent} {x : List α} [h : ∀ a, Any ok v items (f a)] :
    Any ok v items (x.flatMap f) := any_mem fun a _ => h a

instance any_opt {α : Type} {f : α → List WEvent} {x : Option α} [h : ∀ a, Any ok v items (f a)] :
    Any ok v items (writeOpt f x) := by
  cases x with
  | none => exact any_nil
  | some a => exact h a

instance any_14_14 {w d : List WEvent} [h : Any ok v items w] : Any ok v items (since14 .v1_4 w d) := h
instance any_14_15 {w d : List WEvent} [h : Any ok v items w] : Any ok v items (since14 .v1_5 w d) := h
instance any_15_15 {w d : List WEvent} [h : Any ok v items w] : Any ok v items (since15 .v1_5 w d) := h

/-! ### Sequences -/

theorem names_of_items {xs : List XNode} (h : ∀ x ∈ xs, IsItem ok v items x) :
    ∃ names : List String, xs.map nameOf = names.map some ∧ ∀ n ∈ names, n ∈ items.map (·.1) := by
  induction xs with
  | nil => exact ⟨[], rfl, by simp⟩
  | cons x xs ih =>
    obtain ⟨names, hn, hm⟩ := ih fun y hy => h y (List.mem_cons_of_mem _ hy)
    obtain ⟨n, t, hi, hx, -⟩ := h x List.mem_cons_self
    refine ⟨n :: names, by simp [hx, hn], ?_⟩
    intro m hm'
    rcases List.mem_cons.mp hm' with rfl | h'
    · exact List.mem_map_of_mem hi
    · exact hm m h'

theorem IsItem.left {a b x} (h : IsItem ok v a x) : IsItem ok v (a ++ b) x := by
  obtain ⟨n, t, hm, hn, ht⟩ := h
  exact ⟨n, t, List.mem_append_left _ hm, hn, ht⟩

theorem IsItem.right {a b x} (h : IsItem ok v b x) : IsItem ok v (a ++ b) x := by
  obtain ⟨n, t, hm, hn, ht⟩ := h
  exact ⟨n, t, List.mem_append_right _ hm, hn, ht⟩

/-- A part and what follows. -/
theorem row_cons {p : Particle} {l a b} {xs : List XNode} (hw : writtenAll xs = a)
    (hi : ∀ x ∈ xs, IsItem ok v p.items x) (hleast : p.least ≤ xs.length)
    (hmost : ∀ m, p.most = some m → xs.length ≤ m) (hb : Row ok v l b) : Row ok v (p :: l) (a ++ b) := by
  obtain ⟨ys, names, hw', hn', hf, hi'⟩ := hb.ex
  obtain ⟨ns, hn, hm⟩ := names_of_items hi
  have hlen : ns.length = xs.length := by
    have := congrArg List.length hn
    simpa using this.symm
  refine ⟨xs ++ ys, ns ++ names, by rw [writtenAll_append, hw, hw'], by rw [List.map_append, hn, hn', List.map_append],
    ⟨ns, names, rfl, hm, by rw [hlen]; exact hleast, fun m e => by rw [hlen]; exact hmost m e, hf⟩, ?_⟩
  intro x hx
  rw [List.flatMap_cons]
  rcases List.mem_append.mp hx with h | h
  · exact (hi x h).left
  · exact (hi' x h).right

instance row_nil : Row ok v [] [] := ⟨[], [], rfl, rfl, rfl, by simp⟩

instance row_must {items s e l a b} [h : One ok v items a] [hb : Row ok v l b] :
    Row ok v (⟨items, 1, some 1, s, e⟩ :: l) (a ++ b) := by
  obtain ⟨x, hw, hi⟩ := h.ex
  exact row_cons (xs := [x]) (by simp [writtenAll, hw]) (by simpa using hi) (by simp)
    (fun m e => by cases e; simp) hb

instance row_may {items s e l a b} [h : Maybe ok v items a] [hb : Row ok v l b] :
    Row ok v (⟨items, 0, some 1, s, e⟩ :: l) (a ++ b) := by
  obtain ⟨xs, hl, hw, hi⟩ := h.ex
  exact row_cons hw hi (by simp) (fun m e => by cases e; exact hl) hb

instance row_any {items s e l a b} [h : Any ok v items a] [hb : Row ok v l b] :
    Row ok v (⟨items, 0, none, s, e⟩ :: l) (a ++ b) := by
  obtain ⟨xs, hw, hi⟩ := h.ex
  exact row_cons hw hi (by simp) (fun m e => by cases e) hb

instance row_must_last {items s e l a} [h : One ok v items a] [hb : Row ok v l []] :
    Row ok v (⟨items, 1, some 1, s, e⟩ :: l) a := by
  have := row_must (ok := ok) (v := v) (items := items) (s := s) (e := e) (l := l) (a := a) (b := [])
  simpa using this

instance row_may_last {items s e l a} [h : Maybe ok v items a] [hb : Row ok v l []] :
    Row ok v (⟨items, 0, some 1, s, e⟩ :: l) a := by
  have := row_may (ok := ok) (v := v) (items := items) (s := s) (e := e) (l := l) (a := a) (b := [])
  simpa using this

instance row_any_last {items s e l a} [h : Any ok v items a] [hb : Row ok v l []] :
    Row ok v (⟨items, 0, none, s, e⟩ :: l) a := by
  have := row_any (ok := ok) (v := v) (items := items) (s := s) (e := e) (l := l) (a := a) (b := [])
  simpa using this

instance (priority := low) row_skip {items m s e l a} [hb : Row ok v l a] : Row ok v (⟨items, 0, m, s, e⟩ :: l) a := by
  have := row_cons (ok := ok) (v := v) (p := ⟨items, 0, m, s, e⟩) (xs := []) (l := l) (a := []) (b := a) rfl (by simp) (by simp)
    (by simp) hb
  simpa using this

theorem writeOpt_none {α : Type} (f : α → List WEvent) : writeOpt f none = [] := rfl
theorem writeOpt_some {α : Type} (f : α → List WEvent) (a : α) : writeOpt f (some a) = f a := rfl

theorem row_least {items s e a b} [h : One ok v items a] [hb : Any ok v items b] : Row ok v [⟨items, 1, none, s, e⟩] (a ++ b) := by
  obtain ⟨x, hw, hi⟩ := h.ex
  obtain ⟨ys, hw', hi'⟩ := hb.ex
  have := row_cons (ok := ok) (v := v) (p := ⟨items, 1, none, s, e⟩) (l := []) (a := a ++ b) (b := []) (xs := x :: ys)
    (by simp [writtenAll, hw, hw']) (by
      intro y hy
      rcases List.mem_cons.mp hy with rfl | hy
      · exact hi
      · exact hi' y hy) (by simp) (fun m e => by cases e) row_nil
  simpa using this

instance (priority := high) row_14_13 {l w b} [hb : Row ok v l b] : Row ok v l (since14 .v1_3 w [] ++ b) := hb
instance (priority := high) row_15_13 {l w b} [hb : Row ok v l b] : Row ok v l (since15 .v1_3 w [] ++ b) := hb
instance (priority := high) row_15_14 {l w b} [hb : Row ok v l b] : Row ok v l (since15 .v1_4 w [] ++ b) := hb
instance (priority := high) row_14_13' {l w} [hb : Row ok v l []] : Row ok v l (since14 .v1_3 w []) := hb
instance (priority := high) row_15_13' {l w} [hb : Row ok v l []] : Row ok v l (since15 .v1_3 w []) := hb
instance (priority := high) row_15_14' {l w} [hb : Row ok v l []] : Row ok v l (since15 .v1_4 w []) := hb
instance (priority := high) row_none {α : Type} {f : α → List WEvent} {l b} [hb : Row ok v l b] :
    Row ok v l (writeOpt f none ++ b) := hb

/-! ### Elements in another order -/

/-- What is written are child elements of a type of element, in any order. -/
def IsLoose (ok : Prop) (v : SpecVersion) (t : ElementType) (xs : List XNode) : Prop :=
  ∀ x ∈ xs, ∃ n, nameOf x = some n ∧ ∀ t' ∈ t.child v n, Throughout (Meets ok v) v t' x

theorem IsLoose.each {t : ElementType} {xs : List XNode} (h : IsLoose ok v t xs) :
    ∀ x ∈ xs, ∀ n ∈ nameOf x, ∀ t' ∈ t.child v n, Throughout (Meets ok v) v t' x := by
  intro x hx n hn t' ht'
  obtain ⟨m, hm, h⟩ := h x hx
  simp only [Option.mem_def] at hn
  rw [hm] at hn
  cases hn
  exact h t' ht'

/-- What is written are child elements of a type of element. -/
class Loose (ok : Prop) (v : SpecVersion) (t : ElementType) (w : List WEvent) : Prop where
  ex : ∃ xs, writtenAll xs = w ∧ IsLoose ok v t xs

/-- What is written are child elements of a type of element, one of which has the given name. -/
class Carries (ok : Prop) (v : SpecVersion) (t : ElementType) (n : String) (w : List WEvent) : Prop where
  ex : ∃ xs, writtenAll xs = w ∧ IsLoose ok v t xs ∧ HasChild n xs

theorem IsLoose.append {t} {xs ys : List XNode} (h : IsLoose ok v t xs) (h' : IsLoose ok v t ys) : IsLoose ok v t (xs ++ ys) := by
  intro x hx
  rcases List.mem_append.mp hx with hx | hx
  · exact h x hx
  · exact h' x hx

instance loose_append {t a b} [ha : Loose ok v t a] [hb : Loose ok v t b] : Loose ok v t (a ++ b) := by
  obtain ⟨xs, hw, hl⟩ := ha.ex
  obtain ⟨ys, hw', hl'⟩ := hb.ex
  exact ⟨xs ++ ys, by rw [writtenAll_append, hw, hw'], hl.append hl'⟩

theorem IsItem.loose {t : ElementType} {x} (h : IsItem ok v (t.items v) x) : ∃ n, nameOf x = some n ∧ ∀ t' ∈ t.child v n, Throughout (Meets ok v) v t' x := by
  obtain ⟨n, u, hm, hn, hu⟩ := h
  refine ⟨n, hn, fun t' ht' => ?_⟩
  have := child_of_item hm
  simp only [Option.mem_def] at ht'
  rw [this] at ht'
  cases ht'
  exact hu

instance loose_any {t w l} [hi : Items v t l] [h : Any ok v l w] : Loose ok v t w := by
  obtain ⟨xs, hw, hx⟩ := h.ex
  exact ⟨xs, hw, fun x h => IsItem.loose (by rw [hi.eq]; exact hx x h)⟩

instance loose_14_13 {t w} : Loose ok v t (since14 .v1_3 w []) := ⟨[], rfl, fun x h => by cases h⟩
instance loose_15_13 {t w} : Loose ok v t (since15 .v1_3 w []) := ⟨[], rfl, fun x h => by cases h⟩
instance loose_15_14 {t w} : Loose ok v t (since15 .v1_4 w []) := ⟨[], rfl, fun x h => by cases h⟩

instance carries_left {t n a b} [ha : Carries ok v t n a] [hb : Loose ok v t b] : Carries ok v t n (a ++ b) := by
  obtain ⟨xs, hw, hl, x, hx, hn⟩ := ha.ex
  obtain ⟨ys, hw', hl'⟩ := hb.ex
  exact ⟨xs ++ ys, by rw [writtenAll_append, hw, hw'], hl.append hl', x, List.mem_append_left _ hx, hn⟩

instance carries_right {t n a b} [ha : Loose ok v t a] [hb : Carries ok v t n b] : Carries ok v t n (a ++ b) := by
  obtain ⟨xs, hw, hl⟩ := ha.ex
  obtain ⟨ys, hw', hl', x, hx, hn⟩ := hb.ex
  exact ⟨xs ++ ys, by rw [writtenAll_append, hw, hw'], hl.append hl', x, List.mem_append_right _ hx, hn⟩

instance carries_elem {t n u w l} [ht : Tag w n] [hi : Items v t l] [hm : HasItem l n u] [h : Elem ok v n u w] :
    Carries ok v t n w := by
  obtain ⟨x, hn, hw, hx⟩ := h.ex
  refine ⟨[x], by simp [writtenAll, hw], ?_, x, List.mem_singleton_self x, hn.name⟩
  intro y hy
  rw [List.mem_singleton] at hy
  subst hy
  exact IsItem.loose ⟨n, u, by rw [hi.eq]; exact hm.mem, hn.name, hx⟩

instance carries_some {α : Type} {t n} {f : α → List WEvent} {a : α} [h : Carries ok v t n (f a)] :
    Carries ok v t n (writeOpt f (some a)) := h

instance carries_14_14 {t n w d} [h : Carries ok v t n w] : Carries ok v t n (since14 .v1_4 w d) := h
instance carries_14_15 {t n w d} [h : Carries ok v t n w] : Carries ok v t n (since14 .v1_5 w d) := h
instance carries_15_15 {t n w d} [h : Carries ok v t n w] : Carries ok v t n (since15 .v1_5 w d) := h

/-- An element that is written in another way. -/
theorem elem_departs {tag t attrs n body} (h : Carries ok v t n body)
    (hok : ok) (hd : ∀ xs, HasChild n xs → Departs v t attrs xs) : Elem ok v tag t (writeElem tag attrs body) := by
  obtain ⟨xs, hw, hl, hc⟩ := h.ex
  refine elem_of hw (.inl ⟨hok, hd xs hc⟩) ?_
  intro x hx n hn t' ht'
  obtain ⟨m, hm, h⟩ := hl x hx
  simp only [Option.mem_def] at hn
  rw [hm] at hn
  cases hn
  exact h t' ht'

/-- An element whose child elements are items of another sequence. -/
theorem elem_own {tag t attrs l body} (h : Row ok v l body) (hi : ∀ q ∈ l.flatMap (·.items), q ∈ t.items v)
    (hok : ok) (hd : ∀ xs, (∀ x ∈ xs, ∃ n ∈ (l.flatMap (·.items)).map (·.1), nameOf x = some n) → Departs v t attrs xs) :
    Elem ok v tag t (writeElem tag attrs body) := by
  obtain ⟨xs, names, hw, -, -, hx⟩ := h.ex
  refine elem_of hw (.inl ⟨hok, hd xs fun x h => ?_⟩) ?_
  · obtain ⟨n, u, hm, hn, -⟩ := hx x h
    exact ⟨n, List.mem_map_of_mem hm, hn⟩
  · intro x h n hn t' ht'
    obtain ⟨m, u, hm, hnm, hu⟩ := hx x h
    have := child_of_item (hi _ hm)
    simp only [Option.mem_def] at hn ht'
    rw [hnm] at hn
    cases hn
    rw [this] at ht'
    cases ht'
    exact hu

/-- What is well formed can be a tree. -/
theorem tree_of {loose w} (h : WellFormed loose w) : ∃ xs, writtenAll xs = w := by
  induction h with
  | nil => exact ⟨[], rfl⟩
  | chars s => exact ⟨[.chars s], by simp [writtenAll, written]⟩
  | cdata s => exact ⟨[.cdata s], by simp [writtenAll, written]⟩
  | @elem tag attrs body _ _ ih =>
    obtain ⟨xs, hw⟩ := ih
    exact ⟨[.elem ⟨tag, none, none⟩ attrs none xs], by simp [writtenAll, written, hw]⟩
  | append _ _ ih ih' =>
    obtain ⟨xs, hw⟩ := ih
    obtain ⟨ys, hw'⟩ := ih'
    exact ⟨xs ++ ys, by rw [writtenAll_append, hw, hw']⟩

/-- A child element that the type does not have. -/
theorem carries_foreign {t : ElementType} {loose n w} (h : OneElement loose n w) (hn : t.child v n = none) :
    Carries ok v t n w := by
  obtain ⟨attrs, body, -, hb, rfl⟩ := h
  obtain ⟨xs, rfl⟩ := tree_of hb
  refine ⟨[.elem ⟨n, none, none⟩ attrs none xs], by simp [writtenAll, written], ?_,
    _, List.mem_singleton_self _, rfl⟩
  intro x hx
  rw [List.mem_singleton] at hx
  subst hx
  exact ⟨n, rfl, fun t' h => by rw [hn] at h; cases h⟩

end Cdx.Conforming
