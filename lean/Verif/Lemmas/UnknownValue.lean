import Verif.Lemmas.Overridden
import Verif.Lemmas.Tolerant

/-!
# Lemmas: unknown members in `serde_json::Value`s
-/

namespace Cdx

open Spec

variable {α : Type}

/-- Where a member is inserted into a sorted list does not depend on its value. -/
theorem insert_split (k : String) : ∀ m : List (String × α), ∃ b a,
    (∀ x, OMap.insert k x m = b ++ (k, x) :: a) ∧ (m = b ++ a ∨ ∃ z, m = b ++ (k, z) :: a)
  | [] => ⟨[], [], fun _ => rfl, .inl rfl⟩
  | (k', v') :: m => by
    cases e : compare k k' with
    | lt => exact ⟨[], (k', v') :: m, fun x => by simp only [OMap.insert, e]; rfl, .inl rfl⟩
    | eq =>
      obtain rfl := OMap.cmp_eq.mp e
      exact ⟨[], m, fun x => by simp only [OMap.insert, e]; rfl, .inr ⟨v', rfl⟩⟩
    | gt =>
      obtain ⟨b, a, h1, h2⟩ := insert_split k m
      refine ⟨(k', v') :: b, a, fun x => ?_, ?_⟩
      · simp only [OMap.insert, e, h1]
        rfl
      · rcases h2 with h2 | ⟨z, h2⟩
        · exact .inl (by rw [h2]; rfl)
        · exact .inr ⟨z, by rw [h2]; rfl⟩

theorem ofList_insert {before after : List (String × α)} {k : String} (x : α) (h : ∀ y, (k, y) ∉ after) :
    OMap.ofList (before ++ (k, x) :: after) = OMap.insert k x (OMap.ofList (before ++ after)) := by
  refine OMap.ext (OMap.sorted_ofList _) (OMap.sorted_insert (OMap.sorted_ofList _)) fun k' => ?_
  rw [OMap.lookup_insert]
  rw [omap_lookup, omap_lookup, lookup_ofList, lookup_ofList, List.reverse_append, List.reverse_append,
    List.reverse_cons, List.lookup_append, List.lookup_append, List.lookup_append]
  by_cases e : k' = k
  · subst e
    have : after.reverse.lookup k' = none := by
      refine List.lookup_eq_none_iff.mpr fun q hq => ?_
      have hq' := List.mem_reverse.mp hq
      simp only [beq_eq_false_iff_ne, ne_eq, bne_iff_ne]
      rintro rfl
      exact h q.2 hq'
    rw [this]
    simp
  · have : List.lookup k' [(k, x)] = none := by
      rw [List.lookup_cons, beq_eq_false_iff_ne.mpr e]
      rfl
    rw [this, Option.or_none, if_neg e]

/-- The members of a value, with one of them varying. -/
theorem toValue_at (before after : List (String × Json)) (k : String) :
    (∀ x, (Json.obj (before ++ (k, x) :: after)).toValue = (Json.obj (before ++ after)).toValue) ∨
    ∃ b a, (∀ x, (Json.obj (before ++ (k, x) :: after)).toValue = .obj (b ++ (k, x.toValue) :: a)) ∧
      ((Json.obj (before ++ after)).toValue = .obj (b ++ a) ∨
        ∃ z, (Json.obj (before ++ after)).toValue = .obj (b ++ (k, z) :: a)) := by
  simp only [Json.toValue, toMembers_map, List.map_append, List.map_cons]
  by_cases e : ∃ y, (k, y) ∈ after.map fun m => (m.1, m.2.toValue)
  · exact .inl fun x => by rw [ofList_drop e]
  · obtain ⟨b, a, h1, h2⟩ := insert_split k
      (OMap.ofList (before.map (fun m => (m.1, m.2.toValue)) ++ after.map fun m => (m.1, m.2.toValue)))
    refine .inr ⟨b, a, fun x => ?_, ?_⟩
    · rw [ofList_insert _ fun y hy => e ⟨y, hy⟩, h1]
    · rcases h2 with h2 | ⟨z, h2⟩
      · exact .inl (by rw [h2])
      · exact .inr ⟨z, by rw [h2]⟩

theorem alone_toValue {o : List (String × Json)} (h : Alone (OMap.ofList (Json.toMembers o))) : Alone o := by
  obtain ⟨k, hk, h1, h2⟩ := h
  refine ⟨k, hk, ?_, fun m hm => ?_⟩
  · rintro rfl
    exact h1 rfl
  · have : m.1 ∈ (Json.toMembers o).map Prod.fst := by
      rw [toMembers_keys]
      exact List.mem_map_of_mem hm
    cases e : OMap.lookup m.1 (OMap.ofList (Json.toMembers o)) with
    | none =>
      rw [omap_lookup, lookup_ofList] at e
      obtain ⟨q, hq, e'⟩ := List.mem_map.mp this
      have := List.lookup_eq_none_iff.mp e q (List.mem_reverse.mpr hq)
      simp [e'] at this
    | some y => exact h2 (m.1, y) (OMap.lookup_mem e)

theorem Spec.Extended.toValue {a b : Json} (h : Extended a b) :
    a.toValue = b.toValue ∨ Extended a.toValue b.toValue := by
  induction h with
  | @added before after k x hk hn =>
    rcases toValue_at before after k with h | ⟨b, a, h1, h2 | ⟨z, h2⟩⟩
    · exact .inl (h x).symm
    · rw [h1, h2]
      refine .inr (.added hk fun ha => hn (alone_toValue ?_))
      rw [Json.toValue] at h2
      rw [Json.obj.inj h2]
      exact ha
    · rw [h1, h2]
      exact .inr (.changed hk)
  | @changed before after k x y hk =>
    rcases toValue_at before after k with h | ⟨b, a, h1, -⟩
    · exact .inl ((h x).trans (h y).symm)
    · rw [h1, h1]
      exact .inr (.changed hk)
  | item _ ih =>
    simp only [Json.toValue, toValues_map, List.map_append, List.map_cons]
    rcases ih with ih | ih
    · exact .inl (by rw [ih])
    · exact .inr (.item ih)
  | @member before after k x y _ ih =>
    rcases toValue_at before after k with h | ⟨b, a, h1, -⟩
    · exact .inl ((h x).trans (h y).symm)
    · rw [h1, h1]
      rcases ih with ih | ih
      · exact .inl (by rw [ih])
      · exact .inr (.member ih)

end Cdx
