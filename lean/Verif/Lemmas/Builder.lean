import Verif.Spec.Builder
import Verif.Lemmas.BomPasses

/-!
# The builder and its specification
-/

namespace Cdx

open Spec

set_option linter.unusedSimpArgs false

/-- A strictly increasing list of positions is determined by its elements. -/
theorem sorted_unique {β : Type} {a b : List (Nat × β)} (ha : (a.map (·.1)).Pairwise (· < ·))
    (hb : (b.map (·.1)).Pairwise (· < ·)) (h : ∀ p, p ∈ a ↔ p ∈ b) : a = b := by
  induction a generalizing b with
  | nil =>
    cases b with
    | nil => rfl
    | cons p b => exact absurd ((h p).mpr (by simp)) (by simp)
  | cons p a ih =>
    cases b with
    | nil => exact absurd ((h p).mp (by simp)) (by simp)
    | cons q b =>
      simp only [List.map_cons, List.pairwise_cons, List.mem_map, forall_exists_index, and_imp,
        forall_apply_eq_imp_iff₂] at ha hb
      have hpq : p = q := by
        rcases List.mem_cons.mp ((h p).mp (by simp)) with h1 | h1
        · exact h1
        · rcases List.mem_cons.mp ((h q).mpr (by simp)) with h2 | h2
          · exact h2.symm
          · have := hb.1 p h1
            have := ha.1 q h2
            omega
      subst hpq
      congr 1
      refine ih ha.2 hb.2 fun x => ⟨fun hx => ?_, fun hx => ?_⟩
      · rcases List.mem_cons.mp ((h x).mp (by simp [hx])) with h1 | h1
        · subst h1
          have := ha.1 x hx
          omega
        · exact h1
      · rcases List.mem_cons.mp ((h x).mpr (by simp [hx])) with h1 | h1
        · subst h1
          have := hb.1 x hx
          omega
        · exact h1

theorem numbered_entries (rs : List VResult) : ListEntries rs (numbered rs) := by
  constructor
  · unfold numbered
    rw [List.map_map]
    have h : ((rs.zipIdx).map (·.2)).Pairwise (· < ·) := by
      rw [List.zipIdx_map_snd]
      exact List.pairwise_lt_range'
    have hs : List.Sublist ((rs.zipIdx.filter fun p => p.1.hasErrors).map (·.2))
        (rs.zipIdx.map (·.2)) := List.Sublist.map _ List.filter_sublist
    exact List.Pairwise.sublist hs h
  · intro i r
    unfold numbered
    simp only [List.mem_map, List.mem_filter, Prod.mk.injEq, Prod.exists]
    constructor
    · rintro ⟨a, j, ⟨h1, h2⟩, rfl, rfl⟩
      refine ⟨List.mk_mem_zipIdx_iff_getElem?.mp h1, ?_⟩
      intro h; simp [VResult.hasErrors, h] at h2
    · rintro ⟨h1, h2⟩
      refine ⟨r, i, ⟨List.mk_mem_zipIdx_iff_getElem?.mpr h1, ?_⟩, rfl, rfl⟩
      cases r with
      | nil => exact absurd rfl h2
      | cons p r => rfl

theorem listEntries_eq {rs : List VResult} {errs : List (Nat × VResult)}
    (h : ListEntries rs errs) : errs = numbered rs :=
  sorted_unique h.1 (numbered_entries rs).1 fun p => by
    obtain ⟨i, r⟩ := p
    rw [h.2, (numbered_entries rs).2]

/-- What the loop over a list of unique items collects, from position `i` on. -/
theorem uniqueErrors_entries {α : Type} [DecidableEq α] {f : α → Res VResult} {xs : List α}
    (h : ∀ x ∈ xs, ∃ a, f x = .ok a) (seen : List α) (i : Nat) :
    ∃ errs, uniqueErrors f seen i xs = .ok errs ∧ (errs.map (·.1)).Pairwise (· < ·) ∧
      (∀ p ∈ errs, i ≤ p.1) ∧
      ∀ j r, (i + j, r) ∈ errs ↔ ∃ x, xs[j]? = some x ∧
        ((x ∈ seen ∨ x ∈ xs.take j) ∧ r = [("", .custom ["repeated element"])] ∨
         ¬(x ∈ seen ∨ x ∈ xs.take j) ∧ f x = .ok r ∧ r ≠ []) := by
  induction xs generalizing seen i with
  | nil => exact ⟨[], rfl, by simp, by simp, by simp⟩
  | cons x xs ih =>
    have ih := fun s => ih (fun y hy => h y (by simp [hy])) s (i + 1)
    by_cases hx : x ∈ seen
    · obtain ⟨errs, h1, h2, h3, h4⟩ := ih seen
      refine ⟨(i, VResult.ofCheck (.error "repeated element")) :: errs, ?_, ?_, ?_, ?_⟩
      · simp [uniqueErrors, hx, h1, bind, Except.bind]
      · simp only [List.map_cons, List.pairwise_cons]
        refine ⟨fun j hj => ?_, h2⟩
        obtain ⟨p, hp, rfl⟩ := List.mem_map.mp hj
        exact h3 p hp
      · intro p hp
        rcases List.mem_cons.mp hp with rfl | hp
        · exact Nat.le_refl _
        · have := h3 p hp; omega
      · intro j r
        cases j with
        | zero =>
          have : ¬ (i, r) ∈ errs := fun hm => by have := h3 _ hm; simp only at this; omega
          simp [this, hx, VResult.ofCheck]
        | succ j =>
          have hji : i + (j + 1) = (i + 1) + j := by omega
          rw [hji, List.mem_cons, h4 j r]
          have hne : ¬ ((i + 1 + j, r) = (i, VResult.ofCheck (.error "repeated element"))) := by
            simp only [Prod.mk.injEq, not_and]; omega
          simp only [hne, false_or, List.getElem?_cons_succ, List.take_succ_cons, List.mem_cons]
          have he : ∀ y, (y ∈ seen ∨ y = x ∨ y ∈ xs.take j) ↔ (y ∈ seen ∨ y ∈ xs.take j) := by
            intro y
            constructor
            · rintro (h | rfl | h)
              · exact .inl h
              · exact .inl hx
              · exact .inr h
            · rintro (h | h)
              · exact .inl h
              · exact .inr (.inr h)
          simp only [he]
    · obtain ⟨errs, h1, h2, h3, h4⟩ := ih (x :: seen)
      obtain ⟨a, ha⟩ := h x (by simp)
      have hbody : ∀ j r, (i + (j + 1), r) ∈ errs ↔ ∃ y, xs[j]? = some y ∧
          ((y ∈ seen ∨ y ∈ (x :: xs).take (j + 1)) ∧ r = [("", .custom ["repeated element"])] ∨
           ¬(y ∈ seen ∨ y ∈ (x :: xs).take (j + 1)) ∧ f y = .ok r ∧ r ≠ []) := by
        intro j r
        have hji : i + (j + 1) = (i + 1) + j := by omega
        rw [hji, h4 j r]
        simp only [List.take_succ_cons, List.mem_cons]
        have he : ∀ y, ((y = x ∨ y ∈ seen) ∨ y ∈ xs.take j) ↔ (y ∈ seen ∨ y = x ∨ y ∈ xs.take j) := by
          intro y; grind
        simp only [he]
      refine ⟨if a.hasErrors then (i, a) :: errs else errs, ?_, ?_, ?_, ?_⟩
      · simp [uniqueErrors, hx, h1, ha, bind, Except.bind]
      · split
        · simp only [List.map_cons, List.pairwise_cons]
          refine ⟨fun j hj => ?_, h2⟩
          obtain ⟨p, hp, rfl⟩ := List.mem_map.mp hj
          exact h3 p hp
        · exact h2
      · intro p hp
        split at hp
        · rcases List.mem_cons.mp hp with rfl | hp
          · exact Nat.le_refl _
          · have := h3 p hp; omega
        · have := h3 p hp; omega
      · intro j r
        cases j with
        | zero =>
          have hn : ¬ (i, r) ∈ errs := fun hm => by have := h3 _ hm; simp only at this; omega
          cases a with
          | nil => simp [VResult.hasErrors, hn, hx, ha]
          | cons q a => simp [VResult.hasErrors, hn, hx, ha]; grind
        | succ j =>
          have hne : ¬ ((i + (j + 1), r) = (i, a)) := by
            simp only [Prod.mk.injEq, not_and]; omega
          rw [List.getElem?_cons_succ, ← hbody j r]
          split
          · simp only [List.mem_cons, hne, false_or]
          · exact Iff.rfl

theorem uniqueErrors_spec {α : Type} [DecidableEq α] {f : α → Res VResult} {xs : List α}
    (h : ∀ x ∈ xs, ∃ a, f x = .ok a) :
    ∃ errs, uniqueErrors f [] 0 xs = .ok errs ∧ UniqueEntries xs f errs := by
  obtain ⟨errs, h1, h2, -, h4⟩ := uniqueErrors_entries h [] 0
  refine ⟨errs, h1, h2, fun i r => ?_⟩
  have := h4 i r
  simpa using this

theorem mapM_of_map {α : Type} {f : α → Res VResult} {xs : List α} {rs : List VResult}
    (h : xs.map f = rs.map .ok) : xs.mapM f = .ok rs := by
  induction xs generalizing rs with
  | nil => cases rs with
    | nil => rfl
    | cons r rs => simp at h
  | cons x xs ih => cases rs with
    | nil => simp at h
    | cons r rs =>
      simp only [List.map_cons, List.cons.injEq] at h
      rw [List.mapM_cons, h.1]
      simp only [bind, Except.bind, ih h.2, pure, Except.pure]

/-- The builder meets its specification. -/
theorem Performed.reports {s : VStep} {n : String} {k : Option ErrorsKind}
    (h : Performed s n k) : Reports s n k := by
  induction h with
  | fieldOk h =>
    rename_i n x f
    simpa [fieldKind, h] using reports_field n x f
  | fieldFailed h =>
    rename_i n x f e
    simpa [fieldKind, h] using reports_field n x f
  | fieldAbsent => exact reports_ok _
  | fieldPresent _ ih => exact ih
  | enumOk h =>
    rename_i n x f
    simpa [enumKind, h] using reports_enum n x f
  | enumFailed h =>
    rename_i n x f e
    simpa [enumKind, h] using reports_enum n x f
  | enumAbsent => exact reports_ok _
  | enumPresent _ ih => exact ih
  | structOk h => unfold addStruct; rw [h]; exact reports_structResult _ []
  | structFailed h hr =>
    rename_i r
    unfold addStruct; rw [h]
    simpa [structKind, hr] using reports_structResult _ r
  | structAbsent => exact reports_ok _
  | structPresent _ ih => exact ih
  | listOk h =>
    rename_i xs f
    have hm : xs.map f = (xs.map fun _ => ([] : VResult)).map .ok := by
      rw [List.map_map]; exact List.map_congr_left fun x hx => h x hx
    unfold addList
    rw [mapM_of_map hm]
    have hn : numbered (xs.map fun _ => ([] : VResult)) = [] := by
      rw [numbered_eq_nil]; simp
    simpa [listKind, hn] using reports_listResults _ (xs.map fun _ => ([] : VResult))
  | listFailed h he hr =>
    rename_i rs errs
    unfold addList
    rw [mapM_of_map h]
    have := listEntries_eq he
    subst this
    simpa [listKind, hr] using reports_listResults _ rs
  | listAbsent => exact reports_ok _
  | listPresent _ ih => exact ih
  | uniqueOk h hd =>
    rename_i xs f
    obtain ⟨errs, h1, h2⟩ := uniqueErrors_total (xs := xs) (fun x hx => ⟨_, h x hx⟩) [] 0
    have : errs = [] := h2.mpr ⟨fun x hx => ⟨by simp, h x hx⟩, hd⟩
    subst this
    exact reports_uniqueResults _ _ _ _ h1
  | uniqueFailed h he hr =>
    rename_i xs f errs
    obtain ⟨errs', h1, h2⟩ := uniqueErrors_spec h
    have : errs = errs' := sorted_unique he.1 h2.1 fun p => by
      obtain ⟨i, r⟩ := p
      rw [he.2, h2.2]
    subst this
    simpa [listKind, hr] using reports_uniqueResults _ _ _ _ h1
  | uniqueAbsent => exact reports_ok _
  | uniquePresent _ ih => exact ih
  | custom => exact reports_custom _ _

theorem Performs.chain {steps : List VStep} {reports : List (String × Option ErrorsKind)}
    (h : Performs steps reports) (nd : (reports.map (·.1)).Nodup) :
    Cdx.chain steps = .ok (entries reports) := by
  refine chain_reports ?_ nd
  clear nd
  induction h with
  | nil => exact .nil
  | cons h _ ih => exact .cons (Performed.reports h) ih

theorem lookup_entries {specs : List (String × Option ErrorsKind)}
    (nd : (specs.map (·.1)).Nodup) {n : String} {k : Option ErrorsKind} (h : (n, k) ∈ specs) :
    (entries specs).lookup n = k := by
  induction specs with
  | nil => simp at h
  | cons p specs ih =>
    simp only [List.map_cons, List.nodup_cons] at nd
    show List.lookup n ((p.2.map (p.1, ·)).toList ++ entries specs) = k
    rw [List.lookup_append]
    rcases List.mem_cons.mp h with rfl | h
    · rw [lookup_entries_none nd.1]
      cases k <;> simp [List.lookup]
    · have hne : n ≠ p.1 := by
        rintro rfl
        exact nd.1 (List.mem_map.mpr ⟨_, h, rfl⟩)
      rw [ih nd.2 h]
      cases p.2 with
      | none => simp
      | some e => simp [List.lookup, beq_eq_false_iff_ne.mpr hne]

/-- Every call whose nested validations end without panic performs some check. -/
theorem Performed.exists_list {α : Type} (n : String) (xs : List α) (f : α → Res VResult)
    (h : ∀ x ∈ xs, ∃ r, f x = .ok r) : ∃ k, Performed (addList n xs f) n k := by
  obtain ⟨rs, -, h2⟩ := mapM_validate h
  by_cases hn : numbered rs = []
  · exact ⟨_, .listOk ((all_ok_nil h2).mp ((numbered_eq_nil rs).mp hn))⟩
  · exact ⟨_, .listFailed h2 (numbered_entries rs) hn⟩

theorem Performed.exists_unique {α : Type} [DecidableEq α] (n : String) (xs : List α)
    (f : α → Res VResult) (h : ∀ x ∈ xs, ∃ r, f x = .ok r) :
    ∃ k, Performed (addUniqueList n xs f) n k := by
  obtain ⟨errs, h1, h2⟩ := uniqueErrors_total (xs := xs) h [] 0
  obtain ⟨errs', h3, h4⟩ := uniqueErrors_spec h
  rw [h1] at h3
  obtain rfl := Except.ok.inj h3
  by_cases hn : errs = []
  · have := h2.mp hn
    exact ⟨_, .uniqueOk (fun x hx => (this.1 x hx).2) this.2⟩
  · exact ⟨_, .uniqueFailed h h4 hn⟩

end Cdx
