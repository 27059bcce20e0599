import Verif.Model.BTreeMap

set_option linter.unusedSectionVars false
set_option linter.unusedSimpArgs false

namespace Cdx
namespace OMap
open Std

variable {κ α β : Type} [Ord κ]

/-- Strictly increasing keys. -/
def Sorted (m : OMap κ α) : Prop := m.Pairwise (fun a b => compare a.1 b.1 = .lt)

@[simp] theorem lookup_nil (k : κ) : lookup k ([] : OMap κ α) = none := rfl

variable [TransOrd κ] [LawfulEqOrd κ]

theorem cmp_self (k : κ) : compare k k = .eq := ReflCmp.compare_self

theorem cmp_eq {a b : κ} : compare a b = .eq ↔ a = b :=
  ⟨LawfulEqCmp.eq_of_compare, fun h => h ▸ cmp_self a⟩

theorem lookup_cons_self (k : κ) (v : α) (m : OMap κ α) : lookup k ((k, v) :: m) = some v := by
  simp [lookup, cmp_self]

theorem lookup_cons_ne {k k' : κ} (h : k ≠ k') (v : α) (m : OMap κ α) :
    lookup k ((k', v) :: m) = lookup k m := by
  have : compare k k' ≠ .eq := fun h' => h (cmp_eq.1 h')
  simp only [lookup]

theorem lookup_mem {k : κ} {v : α} {m : OMap κ α} (h : lookup k m = some v) : (k, v) ∈ m := by
  induction m with
  | nil => simp at h
  | cons kv m ih =>
    obtain ⟨k', v'⟩ := kv
    by_cases e : k = k'
    · subst e; rw [lookup_cons_self] at h; simp_all
    · rw [lookup_cons_ne e] at h; exact List.mem_cons_of_mem _ (ih h)

theorem lookup_insert_self (k : κ) (v : α) (m : OMap κ α) : lookup k (insert k v m) = some v := by
  induction m with
  | nil => simp [insert, lookup_cons_self]
  | cons kv m ih =>
    obtain ⟨k', v'⟩ := kv
    simp only [insert]
    split
    · exact lookup_cons_self ..
    · exact lookup_cons_self ..
    · next h =>
      have : k ≠ k' := by rintro rfl; simp [cmp_self] at h
      rw [lookup_cons_ne this]; exact ih

theorem lookup_insert_ne {k k' : κ} (hne : k' ≠ k) (v : α) (m : OMap κ α) :
    lookup k' (insert k v m) = lookup k' m := by
  induction m with
  | nil => simp [insert, lookup_cons_ne hne]
  | cons kv m ih =>
    obtain ⟨k2, v2⟩ := kv
    simp only [insert]
    split
    · rw [lookup_cons_ne hne]
    · next h => rw [cmp_eq] at h; subst h; rw [lookup_cons_ne hne, lookup_cons_ne hne]
    · by_cases e : k' = k2
      · subst e; rw [lookup_cons_self, lookup_cons_self]
      · rw [lookup_cons_ne e, lookup_cons_ne e]; exact ih

theorem lookup_insert [DecidableEq κ] (k k' : κ) (v : α) (m : OMap κ α) :
    lookup k' (insert k v m) = if k' = k then some v else lookup k' m := by
  split
  · next h => subst h; exact lookup_insert_self ..
  · next h => exact lookup_insert_ne h ..

theorem mem_insert_key {k : κ} {v : α} {m : OMap κ α} {x : κ × α} (h : x ∈ insert k v m) :
    x = (k, v) ∨ x ∈ m := by
  induction m with
  | nil => simp [insert] at h; exact .inl h
  | cons kv m ih =>
    obtain ⟨k2, v2⟩ := kv
    simp only [insert] at h
    split at h <;> simp only [List.mem_cons] at h ⊢
    · exact h
    · rcases h with h | h
      · exact .inl h
      · exact .inr (.inr h)
    · rcases h with h | h
      · exact .inr (.inl h)
      · rcases ih h with h | h
        · exact .inl h
        · exact .inr (.inr h)

theorem sorted_insert {k : κ} {v : α} {m : OMap κ α} (h : Sorted m) : Sorted (insert k v m) := by
  induction m with
  | nil => simp [insert, Sorted]
  | cons kv m ih =>
    obtain ⟨k2, v2⟩ := kv
    simp only [Sorted, List.pairwise_cons] at h
    obtain ⟨h1, h2⟩ := h
    simp only [insert]
    split
    · next hc =>
      simp only [Sorted, List.pairwise_cons]
      refine ⟨?_, h1, h2⟩
      intro x hx
      simp only [List.mem_cons] at hx
      rcases hx with rfl | hx
      · exact hc
      · exact TransCmp.lt_trans hc (h1 _ hx)
    · next hc =>
      rw [cmp_eq] at hc; subst hc
      simp only [Sorted, List.pairwise_cons]
      exact ⟨h1, h2⟩
    · next hc =>
      simp only [Sorted, List.pairwise_cons]
      refine ⟨?_, ih h2⟩
      intro x hx
      rcases mem_insert_key hx with rfl | hx
      · exact OrientedCmp.gt_iff_lt.1 hc
      · exact h1 _ hx

theorem sorted_nil : Sorted ([] : OMap κ α) := List.Pairwise.nil

theorem lookup_of_mem {k : κ} {v : α} {m : OMap κ α} (hs : Sorted m) (h : (k, v) ∈ m) :
    lookup k m = some v := by
  induction m with
  | nil => simp at h
  | cons kv m ih =>
    obtain ⟨k2, v2⟩ := kv
    simp only [Sorted, List.pairwise_cons] at hs
    simp only [List.mem_cons] at h
    rcases h with h | h
    · cases h; exact lookup_cons_self ..
    · have : compare k2 k = .lt := hs.1 _ h
      have : k ≠ k2 := by rintro rfl; simp [cmp_self] at this
      rw [lookup_cons_ne this]; exact ih hs.2 h

theorem lookup_iff_mem {k : κ} {v : α} {m : OMap κ α} (hs : Sorted m) :
    lookup k m = some v ↔ (k, v) ∈ m := ⟨lookup_mem, lookup_of_mem hs⟩

theorem lookup_none_of_lt {k : κ} {m : OMap κ α} (h : ∀ x ∈ m, compare k x.1 = .lt) :
    lookup k m = none := by
  cases hl : lookup k m with
  | none => rfl
  | some v => have := h _ (lookup_mem hl); simp [cmp_self] at this

/-- Two sorted maps with the same lookups are equal. -/
theorem ext {m₁ m₂ : OMap κ α} (h₁ : Sorted m₁) (h₂ : Sorted m₂)
    (h : ∀ k, lookup k m₁ = lookup k m₂) : m₁ = m₂ := by
  induction m₁ generalizing m₂ with
  | nil =>
    cases m₂ with
    | nil => rfl
    | cons kv m => obtain ⟨k, v⟩ := kv; have := h k; simp [lookup_cons_self] at this
  | cons kv m ih =>
    obtain ⟨k, v⟩ := kv
    cases m₂ with
    | nil => have := h k; simp [lookup_cons_self] at this
    | cons kv2 m' =>
      obtain ⟨k2, v2⟩ := kv2
      simp only [Sorted, List.pairwise_cons] at h₁ h₂
      have hk : k = k2 := by
        have e1 := h k; have e2 := h k2
        rw [lookup_cons_self] at e1 e2
        have m1 := lookup_mem e1.symm
        have m2 := lookup_mem e2
        simp only [List.mem_cons] at m1 m2
        rcases m1 with m1 | m1
        · simp_all
        · rcases m2 with m2 | m2
          · simp_all
          · have a := h₁.1 _ m2
            have b := h₂.1 _ m1
            have := TransCmp.lt_trans a b
            simp [cmp_self] at this
      subst hk
      have hv : v = v2 := by have := h k; simpa [lookup_cons_self] using this
      subst hv
      congr 1
      apply ih h₁.2 h₂.2
      intro k'
      by_cases e : k' = k
      · subst e
        rw [lookup_none_of_lt h₁.1, lookup_none_of_lt h₂.1]
      · have := h k'; rwa [lookup_cons_ne e, lookup_cons_ne e] at this

theorem foldl_insert_sorted (l : List (κ × α)) (m : OMap κ α) (h : Sorted m) :
    Sorted (l.foldl (fun m kv => m.insert kv.1 kv.2) m) := by
  induction l generalizing m with
  | nil => exact h
  | cons x l ih => exact ih _ (sorted_insert h)

theorem sorted_ofList (l : List (κ × α)) : Sorted (ofList l) :=
  foldl_insert_sorted l [] sorted_nil

theorem foldl_insert_lookup_notin (l : List (κ × α)) (m : OMap κ α) (k : κ)
    (h : k ∉ l.map (·.1)) :
    lookup k (l.foldl (fun m kv => m.insert kv.1 kv.2) m) = lookup k m := by
  induction l generalizing m with
  | nil => rfl
  | cons x l ih =>
    simp only [List.map_cons, List.mem_cons, not_or] at h
    rw [List.foldl_cons, ih _ h.2, lookup_insert_ne h.1]

theorem foldl_insert_lookup_mem (l : List (κ × α)) (m : OMap κ α) (k : κ) (v : α)
    (hn : (l.map (·.1)).Nodup) (h : (k, v) ∈ l) :
    lookup k (l.foldl (fun m kv => m.insert kv.1 kv.2) m) = some v := by
  induction l generalizing m with
  | nil => simp at h
  | cons x l ih =>
    simp only [List.map_cons, List.nodup_cons] at hn
    simp only [List.mem_cons] at h
    rcases h with h | h
    · subst h
      rw [List.foldl_cons, foldl_insert_lookup_notin _ _ _ hn.1, lookup_insert_self]
    · rw [List.foldl_cons]; exact ih _ hn.2 h

theorem lookup_ofList_none {l : List (κ × α)} {k : κ} (h : k ∉ l.map (·.1)) :
    lookup k (ofList l) = none := by
  unfold ofList; rw [foldl_insert_lookup_notin _ _ _ h]; rfl

theorem lookup_ofList_some {l : List (κ × α)} {k : κ} {v : α} (hn : (l.map (·.1)).Nodup) :
    lookup k (ofList l) = some v ↔ (k, v) ∈ l := by
  constructor
  · intro h
    by_cases e : k ∈ l.map (·.1)
    · obtain ⟨⟨k', v'⟩, hm, rfl⟩ := List.mem_map.1 e
      have := foldl_insert_lookup_mem l [] _ _ hn hm
      unfold ofList at h
      rw [this] at h; cases h; exact hm
    · rw [lookup_ofList_none e] at h; cases h
  · exact foldl_insert_lookup_mem l [] k v hn

/-- Collecting is independent of the order of the pairs. -/
theorem ofList_perm {l₁ l₂ : List (κ × α)} (hn : (l₁.map (·.1)).Nodup) (hp : l₁.Perm l₂) :
    ofList l₁ = ofList l₂ := by
  apply ext (sorted_ofList _) (sorted_ofList _)
  intro k
  have hn2 : (l₂.map (·.1)).Nodup := (hp.map _).nodup_iff.1 hn
  apply Option.ext
  intro v
  rw [lookup_ofList_some hn, lookup_ofList_some hn2, hp.mem_iff]

theorem keys_nodup {m : OMap κ α} (h : Sorted m) : (keys m).Nodup := by
  unfold keys
  rw [List.Nodup, List.pairwise_map]
  apply List.Pairwise.imp _ h
  intro a b hab e
  rw [e, cmp_self] at hab; cases hab

theorem contains_iff {m : OMap κ α} {k : κ} : contains k m = true ↔ ∃ v, lookup k m = some v := by
  unfold contains; exact Option.isSome_iff_exists

theorem filter_sorted {m : OMap κ α} (h : Sorted m) (p : κ × α → Bool) :
    Sorted (m.filter p : List (κ × α)) := List.Pairwise.filter _ h

theorem mem_keys_iff {m : OMap κ α} {k : κ} (hs : Sorted m) :
    k ∈ keys m ↔ ∃ v, lookup k m = some v := by
  unfold keys
  simp only [List.mem_map, Prod.exists, exists_and_right, exists_eq_right]
  exact ⟨fun ⟨v, h⟩ => ⟨v, lookup_of_mem hs h⟩, fun ⟨v, h⟩ => ⟨v, lookup_mem h⟩⟩

end OMap
end Cdx
