import Verif.Lemmas.ValueRead
import Verif.Lemmas.ValueSchema

/-!
# Lemmas on members that are given twice
-/

namespace Cdx

open Spec

/-- Only the last of the members with the same name counts. -/
theorem ofList_drop {α : Type} {before after : List (String × α)} {k : String} {x : α}
    (h : ∃ y, (k, y) ∈ after) : OMap.ofList (before ++ (k, x) :: after) = OMap.ofList (before ++ after) := by
  refine OMap.ext (OMap.sorted_ofList _) (OMap.sorted_ofList _) fun k' => ?_
  rw [omap_lookup, omap_lookup, lookup_ofList, lookup_ofList, List.reverse_append, List.reverse_append,
    List.reverse_cons, List.lookup_append, List.lookup_append, List.lookup_append]
  by_cases e : k' = k
  · subst e
    obtain ⟨y, hy⟩ := h
    have : ∃ z, after.reverse.lookup k' = some z := by
      cases hl : after.reverse.lookup k' with
      | some z => exact ⟨z, rfl⟩
      | none =>
        have := List.lookup_eq_none_iff.mp hl (k', y) (List.mem_reverse.mpr hy)
        simp at this
    obtain ⟨z, hz⟩ := this
    rw [hz]
    rfl
  · have : List.lookup k' [(k, x)] = none := by
      rw [List.lookup_cons, beq_eq_false_iff_ne.mpr e]
      rfl
    rw [this, Option.or_none]

theorem Spec.Overridden.toValue {a b : Json} (h : Overridden a b) : a.toValue = b.toValue := by
  induction h with
  | @here before after k x y h =>
    simp only [Json.toValue, toMembers_map, List.map_append, List.map_cons]
    rw [ofList_drop]
    exact ⟨y.toValue, List.mem_map_of_mem (f := fun m : String × Json => (m.1, m.2.toValue)) h⟩
  | item _ ih => simp only [Json.toValue, toValues_map, List.map_append, List.map_cons, ih]
  | member _ ih => simp only [Json.toValue, toMembers_map, List.map_append, List.map_cons, ih]

/-- One member more at the end of an object. -/
theorem reordered_last {G : List (List String)} {o : List (String × Json)} {k : String} {x y : Json}
    (ho : Json.Unique (.obj (o ++ [(k, x)]))) (h : Reordered G x y) :
    Reordered G (.obj (o ++ [(k, x)])) (.obj (o ++ [(k, y)])) := by
  cases ho with | obj hn hu =>
  have hn' : ((o ++ [(k, y)]).map Prod.fst).Nodup := by
    rw [List.map_append] at hn ⊢
    exact hn
  refine .obj hn hn' (fun k' => ?_) (fun k' x' y' hx hy => ?_) fun names _ => ?_
  · simp only [List.mem_append, List.mem_singleton, Prod.mk.injEq]
    constructor
    · rintro ⟨z, hz | ⟨rfl, -⟩⟩
      · exact ⟨z, .inl hz⟩
      · exact ⟨y, .inr ⟨rfl, rfl⟩⟩
    · rintro ⟨z, hz | ⟨rfl, -⟩⟩
      · exact ⟨z, .inl hz⟩
      · exact ⟨x, .inr ⟨rfl, rfl⟩⟩
  · rw [List.map_append, List.nodup_append] at hn
    obtain ⟨h1, -, h2⟩ := hn
    simp only [List.mem_append, List.mem_singleton, Prod.mk.injEq] at hx hy
    rcases hx with hx | ⟨rfl, rfl⟩ <;> rcases hy with hy | ⟨e, rfl⟩
    · obtain rfl := mem_same h1 hx hy
      exact Spec.Reordered.refl_of_unique (hu _ (List.mem_append_left _ hx))
    · exact absurd e (h2 _ (List.mem_map_of_mem (f := Prod.fst) hx) _ (by simp))
    · exact absurd rfl (h2 _ (List.mem_map_of_mem (f := Prod.fst) hy) _ (by simp))
    · exact h
  · unfold firstOf
    rw [List.map_append, List.map_append]
    rfl

theorem get_twice {before mid after : List (String × Json)} {k : String} {x y : Json} :
    ∃ e, Json.get (before ++ (k, x) :: mid ++ (k, y) :: after) k = .error e := by
  unfold Json.get
  rw [List.filter_append, List.filter_append, List.filter_cons, List.filter_cons]
  simp only [beq_self_eq_true, if_true]
  split
  · rename_i h
    simp at h
  · rename_i p h
    have := congrArg List.length h
    simp at this
    omega
  · exact ⟨_, rfl⟩

end Cdx
