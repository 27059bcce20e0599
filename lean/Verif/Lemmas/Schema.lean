import Verif.Spec.Schema
import Verif.Model.Xml

/-!
# Lemmas about JSON schemas
-/

namespace Cdx

open Spec

set_option linter.unusedVariables false

theorem two_positions {α : Type} {a b c d e : List α} {s t u : α}
    (h : a ++ s :: b = c ++ t :: d ++ u :: e) : t ∈ a ∨ t ∈ b ∨ u ∈ a ∨ u ∈ b := by
  induction a generalizing c with
  | nil =>
    cases c with
    | nil =>
      simp only [List.nil_append, List.cons_append, List.cons.injEq] at h
      obtain ⟨rfl, rfl⟩ := h
      simp
    | cons x c =>
      simp only [List.nil_append, List.cons_append, List.cons.injEq] at h
      obtain ⟨rfl, rfl⟩ := h
      simp
  | cons y a ih =>
    cases c with
    | nil =>
      simp only [List.nil_append, List.cons_append, List.cons.injEq] at h
      obtain ⟨rfl, h⟩ := h
      simp
    | cons x c =>
      simp only [List.cons_append, List.cons.injEq] at h
      obtain ⟨rfl, h⟩ := h
      rcases ih h with h | h | h | h <;> simp [h]

theorem Spec.Valid.oneOf_mem {C : Context} {l : List Schema} {j : Json} (h : Valid C (.oneOf l) j) :
    ∃ s, s ∈ l ∧ Valid C s j := by
  cases h with
  | oneOf h1 h2 h3 => exact ⟨_, by simp, h1⟩

mutual

theorem Spec.Valid.not_invalid {C : Context} : ∀ {s : Schema} {j : Json}, Valid C s j → ¬ Invalid C s j
  | _, _, .kw h, .kw h' => h' h
  | _, _, .properties h, .properties h1 h2 h3 => Spec.Valid.not_invalid (h _ rfl _ _ _ h1 h2) h3
  | _, _, .items h, .items h1 h2 => Spec.Valid.not_invalid (h _ rfl _ h1) h2
  | _, _, .itemAt h, .itemAt h1 h2 => Spec.Valid.not_invalid (h _ _ rfl h1) h2
  | _, _, .allOf h, .allOf h1 h2 => Spec.Valid.not_invalid (h _ h1) h2
  | _, _, .anyOf h1 h2, .anyOf h => Spec.Valid.not_invalid h2 (h _ h1)
  | _, _, .then h1 h2, .ifThen h3 h4 => Spec.Valid.not_invalid h2 h4
  | _, _, .ifNot h1, .ifThen h3 h4 => Spec.Invalid.not_valid h1 h3
  | _, _, .ref h1 h2, .ref h3 h4 => by
    rw [h1] at h3
    cases h3
    exact Spec.Valid.not_invalid h2 h4
  | _, j, .oneOf (before := a) (after := b) (s := s) h1 h2 h3, h => by
    generalize hl : a ++ s :: b = l at h
    cases h with
    | oneOfNone h => exact Spec.Valid.not_invalid h1 (h _ (by rw [← hl]; simp))
    | oneOfTwo h4 h5 =>
      rcases two_positions hl with h | h | h | h
      · exact Spec.Invalid.not_valid (h2 _ h) h4
      · exact Spec.Invalid.not_valid (h3 _ h) h4
      · exact Spec.Invalid.not_valid (h2 _ h) h5
      · exact Spec.Invalid.not_valid (h3 _ h) h5

theorem Spec.Invalid.not_valid {C : Context} : ∀ {s : Schema} {j : Json}, Invalid C s j → ¬ Valid C s j
  | _, _, .kw h', .kw h => h' h
  | _, _, .properties h1 h2 h3, .properties h => Spec.Invalid.not_valid h3 (h _ rfl _ _ _ h1 h2)
  | _, _, .items h1 h2, .items h => Spec.Invalid.not_valid h2 (h _ rfl _ h1)
  | _, _, .itemAt h1 h2, .itemAt h => Spec.Invalid.not_valid h2 (h _ _ rfl h1)
  | _, _, .allOf h1 h2, .allOf h => Spec.Invalid.not_valid h2 (h _ h1)
  | _, _, .anyOf h, .anyOf h1 h2 => Spec.Invalid.not_valid (h _ h1) h2
  | _, _, .ifThen h3 h4, .then h1 h2 => Spec.Invalid.not_valid h4 h2
  | _, _, .ifThen h3 h4, .ifNot h1 => Spec.Valid.not_invalid h3 h1
  | _, _, .ref h3 h4, .ref h1 h2 => by
    rw [h1] at h3
    cases h3
    exact Spec.Invalid.not_valid h4 h2
  | _, j, .oneOfNone h, hv =>
    have ⟨_, hs, hv'⟩ := hv.oneOf_mem
    Spec.Invalid.not_valid (h _ hs) hv'
  | _, j, .oneOfTwo (before := a) (between := b) (after := c) (s := s) (t := t) h4 h5, hv => by
    generalize hl : a ++ s :: b ++ t :: c = l at hv
    cases hv with
    | oneOf h1 h2 h3 =>
      rcases two_positions hl.symm with h | h | h | h
      · exact Spec.Valid.not_invalid h4 (h2 _ h)
      · exact Spec.Valid.not_invalid h4 (h3 _ h)
      · exact Spec.Valid.not_invalid h5 (h2 _ h)
      · exact Spec.Valid.not_invalid h5 (h3 _ h)

end

variable {C : Context}

theorem valid_kw {c : Keyword} {j : Json} : Valid C (.kw c) j ↔ c.Holds C.format j :=
  ⟨fun h => by cases h; assumption, .kw⟩

theorem valid_allOf {l : List Schema} {j : Json} : Valid C (.allOf l) j ↔ ∀ s ∈ l, Valid C s j :=
  ⟨fun h => by cases h; assumption, .allOf⟩

theorem valid_anyOf {l : List Schema} {j : Json} : Valid C (.anyOf l) j ↔ ∃ s ∈ l, Valid C s j :=
  ⟨fun h => by cases h with | anyOf h1 h2 => exact ⟨_, h1, h2⟩, fun ⟨_, h1, h2⟩ => .anyOf h1 h2⟩

theorem valid_items {s : Schema} {l : List Json} :
    Valid C (.items s) (.arr l) ↔ ∀ x ∈ l, Valid C s x :=
  ⟨fun h => by cases h with | items h => exact h _ rfl, fun h => .items fun _ e => by cases e; exact h⟩

/-- A member of an object fits the property of its name, if there is one. -/
def FieldFits (C : Context) (ps : List (String × Schema)) (k : String) (j : Option Json) : Prop :=
  ∀ x, j = some x → ∀ s, (k, s) ∈ ps → Valid C s x

theorem mem_mkFields {l : List (String × Option Json)} {k : String} {x : Json} :
    (k, x) ∈ Json.mkFields l ↔ (k, some x) ∈ l := by
  simp only [Json.mkFields, List.mem_filterMap, Option.map_eq_some_iff, Prod.mk.injEq, Prod.exists]
  constructor
  · rintro ⟨a, b, h, y, rfl, rfl, rfl⟩
    exact h
  · intro h
    exact ⟨k, some x, h, x, rfl, rfl, rfl⟩

theorem valid_properties {ps : List (String × Schema)} {l : List (String × Option Json)} :
    Valid C (.properties ps) (Json.mk l) ↔ ∀ p ∈ l, FieldFits C ps p.1 p.2 := by
  constructor
  · intro h
    cases h with
    | properties h =>
      rintro ⟨k, j⟩ hp x hx s hs
      exact h _ rfl k s x hs (mem_mkFields.mpr (by rw [← hx]; exact hp))
  · intro h
    refine .properties fun o ho k s x hs hx => ?_
    cases ho
    exact h _ (mem_mkFields.mp hx) x rfl s hs

theorem holds_required {F : Formats} {ks : List String} {l : List (String × Option Json)} :
    (Keyword.required ks).Holds F (Json.mk l) ↔ ∀ k ∈ ks, ∃ x, (k, some x) ∈ l := by
  simp only [Json.mk, Keyword.Holds, mem_mkFields]

theorem holds_closed {F : Formats} {ks : List String} {l : List (String × Option Json)} :
    (Keyword.closed ks).Holds F (Json.mk l) ↔ ∀ p ∈ l, p.2 ≠ none → p.1 ∈ ks := by
  simp only [Json.mk, Keyword.Holds, mem_mkFields]
  constructor
  · rintro h ⟨k, _ | x⟩ hp hn
    · exact absurd rfl hn
    · exact h k x hp
  · intro h k x hx
    exact h _ hx (by simp)

theorem fieldFits_none {ps : List (String × Schema)} {k : String} : FieldFits C ps k none ↔ True :=
  ⟨fun _ => trivial, fun _ _ h => nomatch h⟩

theorem fieldFits_some {ps : List (String × Schema)} {k : String} {j : Json} :
    FieldFits C ps k (some j) ↔ ∀ s, (k, s) ∈ ps → Valid C s j :=
  ⟨fun h => h j rfl, fun h x e => by cases e; exact h⟩

theorem fieldFits_map {α : Type} {ps : List (String × Schema)} {k : String} {f : α → Json}
    {o : Option α} :
    FieldFits C ps k (o.map f) ↔ ∀ y, o = some y → ∀ s, (k, s) ∈ ps → Valid C s (f y) := by
  cases o with
  | none => simp [fieldFits_none]
  | some y => simp [fieldFits_some]

theorem fits_ref {F : Formats} {v : SpecVersion} {n : String} {s : Schema} {j : Json}
    (h : (schemaContext F v).defs.lookup n = some s) (h' : Valid (schemaContext F v) s j) :
    Fits F v n j := .ref h h'

theorem holds_object {F : Formats} {l : List (String × Option Json)} :
    (Keyword.type .object).Holds F (Json.mk l) ↔ True := Iff.rfl

theorem holds_string {F : Formats} {s : String} :
    (Keyword.type .string).Holds F (.str s) ↔ True := Iff.rfl

theorem holds_bool {F : Formats} {s : Bool} :
    (Keyword.type .boolean).Holds F (.bool s) ↔ True := Iff.rfl

theorem holds_integer {F : Formats} {s : Nat} :
    (Keyword.type .integer).Holds F (.nat s) ↔ True := Iff.rfl

theorem holds_array {F : Formats} {α : Type} {f : α → Json} {l : List α} :
    (Keyword.type .array).Holds F (Json.ofList f l) ↔ True := Iff.rfl

/-- The string is one of the values of an `enum`. -/
def OneOf (l : List String) (s : String) : Prop := s ∈ l

theorem holds_enum {F : Formats} {l : List String} {s : String} :
    (Keyword.enum l).Holds F (.str s) ↔ OneOf l s :=
  ⟨fun ⟨_, h, e⟩ => by cases e; exact h, fun h => ⟨s, h, rfl⟩⟩

theorem holds_pattern {F : Formats} {p : Pattern} {s : String} :
    (Keyword.pattern p).Holds F (.str s) ↔ p.isMatch s = true := Iff.rfl

theorem holds_format {F : Formats} {n s : String} :
    (Keyword.format n).Holds F (.str s) ↔ F n s := Iff.rfl

theorem holds_minLength {F : Formats} {n : Nat} {s : String} :
    (Keyword.minLength n).Holds F (.str s) ↔ n ≤ s.length := Iff.rfl

theorem holds_maxLength {F : Formats} {n : Nat} {s : String} :
    (Keyword.maxLength n).Holds F (.str s) ↔ s.length ≤ n := Iff.rfl

theorem holds_uniqueItems {F : Formats} {α : Type} {f : α → Json} {l : List α} :
    Keyword.uniqueItems.Holds F (Json.ofList f l) ↔ l.Pairwise fun x y => ¬ Same (f x) (f y) := by
  simp only [Json.ofList, Keyword.Holds, List.pairwise_map]

theorem valid_itemsOf {α : Type} {f : α → Json} {s : Schema} {l : List α} :
    Valid C (.items s) (Json.ofList f l) ↔ ∀ x ∈ l, Valid C s (f x) := by
  rw [Json.ofList, valid_items, List.forall_mem_map]

theorem fieldFits_unlessEmpty {α : Type} {ps : List (String × Schema)} {k : String} {f : α → Json}
    {l : List α} :
    FieldFits C ps k (Json.unlessEmpty f l) ↔ l ≠ [] → ∀ s, (k, s) ∈ ps → Valid C s (Json.ofList f l) := by
  cases l with
  | nil => simp [Json.unlessEmpty, fieldFits_none]
  | cons x l => simp [Json.unlessEmpty, fieldFits_some]

theorem invalid_kw {c : Keyword} {j : Json} : Invalid C (.kw c) j ↔ ¬ c.Holds C.format j :=
  ⟨fun h => by cases h; assumption, .kw⟩

theorem valid_oneOf_two {s t : Schema} {j : Json} :
    Valid C (.oneOf [s, t]) j ↔ Valid C s j ∧ Invalid C t j ∨ Invalid C s j ∧ Valid C t j := by
  constructor
  · intro h
    generalize hl : [s, t] = l at h
    cases h with
    | @oneOf a b r _ h1 h2 h3 =>
      match a, b with
      | [], b =>
        simp only [List.nil_append, List.cons.injEq] at hl
        obtain ⟨rfl, rfl⟩ := hl
        exact .inl ⟨h1, h3 _ (.head _)⟩
      | [x], b =>
        simp only [List.cons_append, List.nil_append, List.cons.injEq] at hl
        obtain ⟨rfl, rfl, rfl⟩ := hl
        exact .inr ⟨h2 _ (.head _), h1⟩
      | x :: y :: a, b => simp at hl
  · rintro (⟨h1, h2⟩ | ⟨h1, h2⟩)
    · exact .oneOf (before := []) h1 (by simp) (by simpa using h2)
    · exact .oneOf (before := [s]) h2 (by simpa using h1) (by simp)

theorem schemaContext_format {F : Formats} {v : SpecVersion} : (schemaContext F v).format = F := rfl

/-- Unfold what a schema says about a value. -/
syntax "schema_simp" "[" Lean.Parser.Tactic.simpLemma,* "]" (Lean.Parser.Tactic.location)? : tactic

macro_rules
  | `(tactic| schema_simp [$ls,*] $[$loc:location]?) => `(tactic|
    simp only [valid_allOf, valid_anyOf, valid_itemsOf, List.forall_mem_cons, valid_kw, valid_properties,
      holds_required, holds_closed, holds_object, holds_string, holds_bool, holds_integer, holds_array,
      holds_enum, holds_pattern, holds_format, holds_minLength, holds_maxLength, holds_uniqueItems,
      schemaContext_format, fieldFits_none, fieldFits_some, fieldFits_map,
      fieldFits_unlessEmpty, Option.map_eq_none_iff, imp_false, not_not, List.mem_append, Json.ofEnum, List.not_mem_nil,
      List.mem_cons, List.cons_append, List.nil_append, List.append_nil, since14, since15, if_true, if_false,
      Prod.mk.injEq, reduceCtorEq, String.reduceEq, Option.map_none, Option.map_some,
      false_implies, true_implies, implies_true, and_true, true_and, false_and, and_false, false_or, or_false,
      true_or, or_true, or_imp, forall_and, forall_eq, exists_false, exists_eq, exists_eq_left, exists_eq', exists_const, ne_eq,
      not_true_eq_false, not_false_eq_true, Option.some.injEq, exists_eq_or_imp,
      $ls,*] $[$loc]?)

end Cdx
