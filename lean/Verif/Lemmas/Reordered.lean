import Verif.Spec.Reordered
import Verif.Spec.Unique
import Verif.Lemmas.Json
import Verif.Lemmas.BTreeMap

/-!
# Lemmas on the order of the members of JSON objects
-/

set_option linter.unusedSectionVars false

namespace Cdx

open Spec

/-- Two lists of members that are the same up to order. -/
structure Rearranged (o p : List (String × Json)) : Prop where
  left : (o.map Prod.fst).Nodup
  right : (p.map Prod.fst).Nodup
  names : ∀ k, (∃ x, (k, x) ∈ o) ↔ ∃ y, (k, y) ∈ p
  values : ∀ k x y, (k, x) ∈ o → (k, y) ∈ p → Reordered alternatives x y
  first : ∀ names ∈ alternatives, firstOf names o = firstOf names p

/-- A reader that does not depend on the order of the members of objects. -/
class OrderFree {α : Type} (f : Json → Except String α) : Prop where
  eq : ∀ {a b : Json}, Reordered alternatives a b → f a = f b

/-- The same for a reader of some of the members of an object. -/
class OrderFreeFields {α : Type} (f : List (String × Json) → Except String α) : Prop where
  eq : ∀ {o p : List (String × Json)}, Rearranged o p → f o = f p

section
variable {α β : Type} {f : Json → Except String α} {o p : List (String × Json)} {k : String}

theorem mem_same {i j : Json} (hn : (o.map Prod.fst).Nodup) (hi : (k, i) ∈ o) (hj : (k, j) ∈ o) : i = j := by
  induction o with
  | nil => cases hi
  | cons m o ih =>
    rw [List.map_cons, List.nodup_cons] at hn
    cases hi with
    | head =>
      cases hj with
      | head => rfl
      | tail _ hj => exact absurd (List.mem_map_of_mem (f := Prod.fst) hj) hn.1
    | tail _ hi =>
      cases hj with
      | head => exact absurd (List.mem_map_of_mem (f := Prod.fst) hi) hn.1
      | tail _ hj => exact ih hn.2 hi hj

theorem get_of_mem {j : Json} (hn : (o.map Prod.fst).Nodup) (h : (k, j) ∈ o) : Json.get o k = .ok (some j) := by
  cases e : Json.get o k with
  | error => rw [Json.get_nodup hn] at e; cases e
  | ok x =>
    cases x with
    | none => exact absurd h (Json.get_none e)
    | some i => rw [mem_same hn h (Json.get_mem e)]

theorem Rearranged.get (h : Rearranged o p) (k : String) :
    Json.get o k = .ok none ∧ Json.get p k = .ok none ∨
      ∃ x y, Json.get o k = .ok (some x) ∧ Json.get p k = .ok (some y) ∧ Reordered alternatives x y := by
  by_cases e : ∃ x, (k, x) ∈ o
  · obtain ⟨x, hx⟩ := e
    obtain ⟨y, hy⟩ := (h.names k).mp ⟨x, hx⟩
    exact .inr ⟨x, y, get_of_mem h.left hx, get_of_mem h.right hy, h.values k x y hx hy⟩
  · refine .inl ⟨Json.get_absent fun hk => ?_, Json.get_absent fun hk => ?_⟩
    · obtain ⟨⟨_, x⟩, hm, rfl⟩ := List.mem_map.mp hk
      exact e ⟨x, hm⟩
    · obtain ⟨⟨_, x⟩, hm, rfl⟩ := List.mem_map.mp hk
      exact e ((h.names _).mpr ⟨x, hm⟩)

theorem Spec.Reordered.null_iff {G : List (List String)} {x y : Json} (h : Reordered G x y) : x = .null ↔ y = .null := by
  cases h <;> simp

theorem req_free [OrderFree f] (h : Rearranged o p) : Json.req o k f = Json.req p k f := by
  unfold Json.req
  rcases h.get k with ⟨e1, e2⟩ | ⟨x, y, e1, e2, hr⟩
  · rw [e1, e2]
  · rw [e1, e2]
    exact OrderFree.eq hr

theorem opt_free [OrderFree f] (h : Rearranged o p) : Json.opt o k f = Json.opt p k f := by
  unfold Json.opt
  rcases h.get k with ⟨e1, e2⟩ | ⟨x, y, e1, e2, hr⟩
  · rw [e1, e2]
  · rw [e1, e2]
    by_cases e : x = .null
    · obtain rfl := hr.null_iff.mp e
      subst e
      rfl
    · have e' : y ≠ .null := fun e' => e (hr.null_iff.mpr e')
      have hf := OrderFree.eq (f := f) hr
      cases hr <;> first | exact absurd rfl e | (simp only [hf])

theorem array_congr {l m : List Json} [OrderFree f] (h : Reordered alternatives (.arr l) (.arr m)) :
    l.mapM f = m.mapM f := by
  induction l generalizing m with
  | nil => cases h; rfl
  | cons x l ih =>
    cases h with
    | cons hx hl => rw [List.mapM_cons, List.mapM_cons, OrderFree.eq (f := f) hx, ih hl]

instance [OrderFree f] : OrderFree (Json.array f) where
  eq h := by
    cases h with
    | nil => rfl
    | cons hx hl => exact array_congr (.cons hx hl)
    | _ => rfl

theorem orEmpty_free [OrderFree f] (h : Rearranged o p) : Json.orEmpty o k f = Json.orEmpty p k f := by
  unfold Json.orEmpty
  rcases h.get k with ⟨e1, e2⟩ | ⟨x, y, e1, e2, hr⟩
  · rw [e1, e2]
  · rw [e1, e2]
    exact OrderFree.eq (f := Json.array f) hr

instance : OrderFree Json.string where eq h := by cases h <;> rfl
instance : OrderFree Json.boolean where eq h := by cases h <;> rfl
instance : OrderFree Json.u32 where eq h := by cases h <;> rfl
instance [F32Format] : OrderFree Json.f32 where eq h := by cases h <;> rfl
instance (new : String → α) : OrderFree (Json.enum new) where eq h := by cases h <;> rfl

instance [OrderFree f] (g : α → β) : OrderFree fun j => (f j).map g where
  eq h := by rw [OrderFree.eq (f := f) h]

/-- A reader of an object is order free if what it does with the members is. -/
theorem fields_free {g : List (String × Json) → Except String α} {a b : Json}
    (h : Reordered alternatives a b) (hg : ∀ o p, Rearranged o p → g o = g p) :
    (do let o ← a.fields; g o) = (do let o ← b.fields; g o) := by
  cases h with
  | obj h1 h2 h3 h4 h5 => exact hg _ _ ⟨h1, h2, h3, h4, h5⟩
  | _ => rfl

/-- All variants are order free. -/
inductive AllFree : List (String × (Json → Except String α)) → Prop
  | nil : AllFree []
  | cons {k : String} {f : Json → Except String α} {vs : List (String × (Json → Except String α))} :
    OrderFree f → AllFree vs → AllFree ((k, f) :: vs)

theorem AllFree.lookup {vs : List (String × (Json → Except String α))} (h : AllFree vs)
    (e : vs.lookup k = some f) : OrderFree f := by
  induction h with
  | nil => cases e
  | cons hf _ ih =>
    rw [List.lookup_cons] at e
    split at e
    · cases e; exact hf
    · exact ih e

theorem flatUntagged_free {vs : List (String × (Json → Except String α))} (hv : AllFree vs)
    (h : Rearranged o p) : Json.flatUntagged o vs = Json.flatUntagged p vs := by
  induction hv with
  | nil => rfl
  | @cons k f vs hf _ ih =>
    simp only [Json.flatUntagged]
    rcases h.get k with ⟨e1, e2⟩ | ⟨x, y, e1, e2, hr⟩
    · rw [e1, e2]; exact ih
    · rw [e1, e2]
      simp only
      rw [hf.eq hr, ih]

theorem flatVariant_first {vs : List (String × (Json → Except String α))} :
    Json.flatVariant o vs = match firstOf (vs.map Prod.fst) o with
      | none => .error "no variant of the enumeration found in flattened data"
      | some k => match o.lookup k, vs.lookup k with
        | some j, some f => f j
        | _, _ => .error "" := by
  induction o with
  | nil => rfl
  | cons m o ih =>
    obtain ⟨k, j⟩ := m
    simp only [Json.flatVariant, firstOf, List.map_cons, List.find?_cons]
    cases e : vs.lookup k with
    | some f =>
      have hk : k ∈ vs.map Prod.fst := by
        by_cases hk : k ∈ vs.map Prod.fst
        · exact hk
        · rw [List.lookup_eq_none_iff.mpr] at e
          · cases e
          · intro q hq
            have : k ≠ q.1 := fun e => hk (e ▸ List.mem_map_of_mem hq)
            simpa using this
      simp only [hk, decide_true, List.lookup_cons_self, e]
    | none =>
      have hk : k ∉ vs.map Prod.fst := by
        intro hk
        obtain ⟨q, hq, rfl⟩ := List.mem_map.mp hk
        have := List.lookup_eq_none_iff.mp e q hq
        simp at this
      simp only [hk, decide_false]
      rw [ih, firstOf]
      split
      · rename_i hf; rw [hf]
      · rename_i k' hf
        have hm := List.find?_some hf
        have : (k' == k) = false := by
          rw [beq_eq_false_iff_ne]
          rintro rfl
          exact hk (by simpa using hm)
        rw [hf]
        simp only [List.lookup_cons, this]

theorem flatVariant_free {vs : List (String × (Json → Except String α))} (hv : AllFree vs)
    (hk : vs.map Prod.fst ∈ alternatives) (h : Rearranged o p) :
    Json.flatVariant o vs = Json.flatVariant p vs := by
  rw [flatVariant_first, flatVariant_first, h.first _ hk]
  split
  · rfl
  · rename_i k hf
    rcases h.get k with ⟨e1, e2⟩ | ⟨x, y, e1, e2, hr⟩
    · rw [Json.get_nodup h.left] at e1
      rw [Json.get_nodup h.right] at e2
      rw [Except.ok.inj e1, Except.ok.inj e2]
    · rw [Json.get_nodup h.left] at e1
      rw [Json.get_nodup h.right] at e2
      rw [Except.ok.inj e1, Except.ok.inj e2]
      cases e : vs.lookup k with
      | none => rfl
      | some f => exact (hv.lookup e).eq hr

theorem tagged_free {vs : List (String × (Json → Except String α))} (hv : AllFree vs) : OrderFree (Json.tagged vs) where
  eq h := by
    cases h with
    | @obj o p h1 h2 h3 h4 h5 =>
      have hk : (o.map Prod.fst).Perm (p.map Prod.fst) := by
        refine (List.perm_ext_iff_of_nodup h1 h2).mpr fun k => ?_
        have : ∀ l : List (String × Json), k ∈ l.map Prod.fst ↔ ∃ x, (k, x) ∈ l := by
          intro l
          simp
        rw [this, this, h3]
      have hl : o.length = p.length := by simpa using hk.length_eq
      match o, p, hl with
      | [], [], _ => rfl
      | [(k, x)], [(k', y)], _ =>
        obtain rfl : k = k' := by simpa using hk
        simp only [Json.tagged]
        split
        · rename_i f hf
          exact (hv.lookup hf).eq (h4 k x y (.head _) (.head _))
        · rfl
      | _ :: _ :: _, _ :: _ :: _, _ => rfl
    | _ => rfl

theorem Rearranged.obj (h : Rearranged o p) : Reordered alternatives (.obj o) (.obj p) :=
  .obj h.left h.right h.names h.values h.first

theorem Rearranged.length (h : Rearranged o p) : o.length = p.length := by
  have hk : (o.map Prod.fst).Perm (p.map Prod.fst) := by
    refine (List.perm_ext_iff_of_nodup h.left h.right).mpr fun k => ?_
    have : ∀ l : List (String × Json), k ∈ l.map Prod.fst ↔ ∃ x, (k, x) ∈ l := by
      intro l
      simp
    rw [this, this, h.names]
  simpa using hk.length_eq

theorem Rearranged.single {k k' : String} {x y : Json} (h : Rearranged [(k, x)] [(k', y)]) : k = k' := by
  obtain ⟨z, hz⟩ := (h.names k).mp ⟨x, .head _⟩
  cases hz with
  | head => rfl
  | tail _ hz => cases hz

theorem ofFields_free {f : List (String × Json) → Except String α} [OrderFreeFields f] (h : Rearranged o p) :
    f o = f p := OrderFreeFields.eq h

end

/-- All variants in a list of readers are order free. -/
syntax "free_variants" : tactic

macro_rules
  | `(tactic| free_variants) => `(tactic|
    repeat' first | exact AllFree.nil | refine AllFree.cons inferInstance ?_)

/-- The readers of members give the same. -/
syntax "free_fields " ident : tactic

macro_rules
  | `(tactic| free_fields $h) => `(tactic|
    simp only [opt_free $h, req_free $h, orEmpty_free $h])

end Cdx
