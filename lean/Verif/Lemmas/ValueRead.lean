import Verif.Lemmas.OrderFree
import Verif.Lemmas.Ranked

/-!
# Lemmas on reading a document through `serde_json::Value`
-/

set_option linter.unusedSectionVars false

namespace Cdx

open Spec

theorem omap_lookup {α : Type} (k : String) : ∀ m : List (String × α), OMap.lookup k m = List.lookup k m
  | [] => rfl
  | (k', x) :: m => by
    by_cases e : k = k'
    · subst e
      rw [OMap.lookup_cons_self, List.lookup_cons_self]
    · rw [OMap.lookup_cons_ne e, List.lookup_cons, beq_eq_false_iff_ne.mpr e, omap_lookup k m]

/-- The last of the members with the same name is kept. -/
theorem lookup_ofList {α : Type} (k : String) (l : List (String × α)) :
    List.lookup k (OMap.ofList l) = l.reverse.lookup k := by
  have : ∀ (l : List (String × α)) (m : OMap String α),
      OMap.lookup k (l.foldl (fun m p => m.insert p.1 p.2) m) = (l.reverse.lookup k).or (OMap.lookup k m) := by
    intro l
    induction l with
    | nil => intro m; rfl
    | cons a l ih =>
      intro m
      obtain ⟨k', x⟩ := a
      rw [List.foldl_cons, ih, List.reverse_cons, List.lookup_append, Option.or_assoc]
      congr 1
      by_cases e : k = k'
      · subst e
        rw [OMap.lookup_insert_self, List.lookup_cons_self]
        rfl
      · rw [OMap.lookup_insert_ne e, List.lookup_cons, beq_eq_false_iff_ne.mpr e]
        rfl
  rw [← omap_lookup, OMap.ofList, this]
  cases l.reverse.lookup k <;> rfl

theorem lookup_toMembers (k : String) : ∀ o : List (String × Json),
    (o.map fun m => (m.1, m.2.toValue)).lookup k = (o.lookup k).map Json.toValue
  | [] => rfl
  | (k', x) :: o => by
    rw [List.map_cons, List.lookup_cons, List.lookup_cons, lookup_toMembers k o]
    cases h : k == k' <;> rfl

theorem lookup_toValue (k : String) (o : List (String × Json)) :
    List.lookup k (OMap.ofList (Json.toMembers o)) = (o.reverse.lookup k).map Json.toValue := by
  rw [lookup_ofList, toMembers_map,
    ← List.map_reverse, lookup_toMembers]

theorem lookup_reverse {k : String} {o : List (String × Json)} (hn : (o.map Prod.fst).Nodup) :
    o.reverse.lookup k = o.lookup k := by
  have hn' : (o.reverse.map Prod.fst).Nodup := by
    rw [List.map_reverse]
    exact (List.reverse_perm _).nodup_iff.mpr hn
  have key : ∀ {p : List (String × Json)} {x}, (p.map Prod.fst).Nodup → (k, x) ∈ p → p.lookup k = some x := by
    intro p x hp hx
    have := get_of_mem hp hx
    rw [Json.get_nodup hp] at this
    exact Except.ok.inj this
  by_cases h : ∃ x, (k, x) ∈ o
  · obtain ⟨x, hx⟩ := h
    rw [key hn hx, key hn' (List.mem_reverse.mpr hx)]
  · have none : ∀ p : List (String × Json), (∀ x, (k, x) ∉ p) → p.lookup k = none := by
      intro p hp
      refine List.lookup_eq_none_iff.mpr fun q hq => ?_
      have : k ≠ q.1 := fun e => hp q.2 (e ▸ hq)
      simpa using this
    rw [none o fun x hx => h ⟨x, hx⟩, none _ fun x hx => h ⟨x, List.mem_reverse.mp hx⟩]

theorem toValue_str {x : Json} {s : String} : x.toValue = .str s ↔ x = .str s := by
  cases x <;> simp [Json.toValue]

section
variable [F32Format] [ReadLimit] {v w : SpecVersion} {b : Bom}

/-- What is written is read as a value without a change that matters. -/
theorem Bom.written_value (v : SpecVersion) (b : Bom) : Reordered alternatives (b.toJson v) (b.toJson v).toValue :=
  reordered_toValue (Bom.toJson_unique v b) (Bom.toJson_ranked v b)

theorem Bom.ofJson_written : Bom.ofJson w (b.toJson v).toValue = Bom.ofJson w (b.toJson v) :=
  (OrderFree.eq (f := Bom.ofJson w) (Bom.written_value v b)).symm

end

end Cdx
