import Verif.Spec.XmlElements

/-!
# Lemmas: how arranged content is put together
-/

set_option linter.unusedSectionVars false
set_option linter.unusedSimpArgs false

namespace Cdx

open Spec

theorem Spec.Arranged.skip {E : String → Element} {p : String} {l : List (List String)} {g : List String}
    {w : List WEvent} (h : Arranged E p l w) : Arranged E p (g :: l) w := by
  induction h with
  | nil => exact .nil
  | chars _ ih => exact .chars ih
  | cdata _ ih => exact .cdata ih
  | @elem parent before group after tag attrs body w hm ha hb hw ihb ihw =>
    exact Arranged.elem (before := g :: before) hm ha hb hw

/-- A name is in a group. -/
class In (a : String) (g : List String) : Prop where
  mem : a ∈ g

instance (a : String) (l : List String) : In a (a :: l) := ⟨by simp⟩
instance (priority := low) (a b : String) (l : List String) [h : In a l] : In a (b :: l) :=
  ⟨by simp [h.mem]⟩

/-- What is written are elements of a group. -/
class Made (E : String → Element) (p : String) (g : List String) (w : List WEvent) : Prop where
  before : ∀ (l : List (List String)) (r : List WEvent), Arranged E p (g :: l) r → Arranged E p (g :: l) (w ++ r)

/-- What is written is arranged. -/
class Laid (E : String → Element) (p : String) (l : List (List String)) (w : List WEvent) : Prop where
  arranged : Arranged E p l w

/-- The groups of an element. -/
class Kids (E : String → Element) (tag : String) (l : outParam (List (List String))) : Prop where
  eq : (E tag).children = l

/-- The attributes of an element. -/
class Marks (E : String → Element) (tag : String) (l : outParam (List String)) : Prop where
  eq : (E tag).attributes = l

/-- All names of attributes that may be written. -/
class Marked (names : List String) (l : List (String × Option String)) : Prop where
  mem : ∀ a ∈ l, a.2 = none ∨ a.1 ∈ names

instance (names : List String) : Marked names [] := ⟨by simp⟩
instance (names : List String) (n : String) (x : Option String) (l : List (String × Option String))
    [h : In n names] [h' : Marked names l] : Marked names ((n, x) :: l) :=
  ⟨by
    intro a ha
    rcases List.mem_cons.mp ha with rfl | ha
    · exact .inr h.mem
    · exact h'.mem a ha⟩
instance (priority := high) (names : List String) (n : String) (x : Option String)
    (l : List (String × Option String)) [h' : Marked names l] :
    Marked names ((n, since15 .v1_3 x none) :: l) :=
  ⟨by
    intro a ha
    rcases List.mem_cons.mp ha with rfl | ha
    · exact .inl rfl
    · exact h'.mem a ha⟩
instance (priority := high) (names : List String) (n : String) (x : Option String)
    (l : List (String × Option String)) [h' : Marked names l] :
    Marked names ((n, since15 .v1_4 x none) :: l) :=
  ⟨by
    intro a ha
    rcases List.mem_cons.mp ha with rfl | ha
    · exact .inl rfl
    · exact h'.mem a ha⟩

section
variable {E : String → Element} {p : String} {g : List String} {l : List (List String)}

instance : Made E p g [] := ⟨fun _ _ h => h⟩

theorem made_elem {tag : String} {attrs : List (String × String)} {body : List WEvent}
    (hm : tag ∈ g) (ha : ∀ a ∈ attrs, a.1 ∈ (E tag).attributes)
    (hb : Arranged E tag (E tag).children body) : Made E p g (writeElem tag attrs body) :=
  ⟨fun l r h => by
    have := Arranged.elem (E := E) (before := []) (group := g) (after := l) hm ha hb h
    simpa [writeElem] using this⟩

instance made_mk {tag : String} {attrs : List (String × Option String)} {body : List WEvent}
    {names : List String} {ks : List (List String)} [hm : In tag g] [hn : Marks E tag names]
    [ha : Marked names attrs] [hk : Kids E tag ks] [hb : Laid E tag ks body] :
    Made E p g (writeElem tag (mkAttrs attrs) body) :=
  made_elem hm.mem (by
    intro a h
    simp only [mkAttrs, List.mem_filterMap, Option.map_eq_some_iff] at h
    obtain ⟨q, hq, x, hx, rfl⟩ := h
    rw [hn.eq]
    rcases ha.mem q hq with h | h
    · rw [h] at hx; cases hx
    · exact h) (by rw [hk.eq]; exact hb.arranged)

instance made_bare {tag : String} {body : List WEvent} {ks : List (List String)} [hm : In tag g]
    [hk : Kids E tag ks] [hb : Laid E tag ks body] : Made E p g (writeElem tag [] body) :=
  made_elem hm.mem (by simp) (by rw [hk.eq]; exact hb.arranged)

instance made_simple {tag s : String} [hm : In tag g] : Made E p g (writeSimple tag s) :=
  made_elem (attrs := []) (body := [.chars s]) hm.mem (by simp) (.chars .nil)

instance made_opt {α : Type} {f : α → List WEvent} {x : Option α} [h : ∀ a, Made E p g (f a)] :
    Made E p g (writeOpt f x) := by
  cases x with
  | none => exact ⟨fun _ _ h => h⟩
  | some a => exact h a

instance made_if {c : Prop} [Decidable c] {w : List WEvent} [h : Made E p g w] :
    Made E p g (if c then w else []) := by
  split
  · exact h
  · exact ⟨fun _ _ h => h⟩

instance made_flat {α : Type} {f : α → List WEvent} {x : List α} [h : ∀ a, Made E p g (f a)] :
    Made E p g (x.flatMap f) :=
  ⟨fun l r hr => by
    induction x with
    | nil => exact hr
    | cons a x ih =>
      rw [List.flatMap_cons, List.append_assoc]
      exact (h a).before l _ ih⟩

instance made_list {α : Type} {tag : String} {f : α → List WEvent} {x : List α} {ks : List (List String)}
    [hm : In tag g] [hk : Kids E tag ks] [hb : Laid E tag ks (x.flatMap f)] :
    Made E p g (writeList tag f x) := made_bare

instance made_ref {tag r : String} {names : List String} {ks : List (List String)} [hm : In tag g]
    [hn : Marks E tag names] [ha : In "ref" names] [hk : Kids E tag ks] :
    Made E p g (writeRef tag r) :=
  haveI : Laid E tag ks [] := ⟨.nil⟩
  made_mk

instance made_14_13 {w d : List WEvent} [h : Made E p g d] : Made E p g (since14 .v1_3 w d) := h
instance made_14_14 {w d : List WEvent} [h : Made E p g w] : Made E p g (since14 .v1_4 w d) := h
instance made_14_15 {w d : List WEvent} [h : Made E p g w] : Made E p g (since14 .v1_5 w d) := h
instance made_15_13 {w d : List WEvent} [h : Made E p g d] : Made E p g (since15 .v1_3 w d) := h
instance made_15_14 {w d : List WEvent} [h : Made E p g d] : Made E p g (since15 .v1_4 w d) := h
instance made_15_15 {w d : List WEvent} [h : Made E p g w] : Made E p g (since15 .v1_5 w d) := h

instance laid_nil : Laid E p l [] := ⟨.nil⟩
instance laid_chars {s : String} : Laid E p l [.chars s] := ⟨.chars .nil⟩
instance laid_cdata {s : String} : Laid E p l [.cdata s] := ⟨.cdata .nil⟩

instance (priority := low) laid_skip {w : List WEvent} [h : Laid E p l w] : Laid E p (g :: l) w :=
  ⟨h.arranged.skip⟩

instance laid_take {w r : List WEvent} [h : Made E p g w] [h' : Laid E p (g :: l) r] :
    Laid E p (g :: l) (w ++ r) := ⟨h.before _ _ h'.arranged⟩

instance laid_last {w : List WEvent} [h : Made E p g w] : Laid E p (g :: l) w :=
  ⟨by simpa using h.before l [] .nil⟩

instance laid_15_13 {w d : List WEvent} [h : Laid E p l d] : Laid E p l (since15 .v1_3 w d) := h
instance laid_15_14 {w d : List WEvent} [h : Laid E p l d] : Laid E p l (since15 .v1_4 w d) := h
instance laid_15_15 {w d : List WEvent} [h : Laid E p l w] : Laid E p l (since15 .v1_5 w d) := h

end

end Cdx
