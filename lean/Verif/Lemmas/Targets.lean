import Verif.Lemmas.Generator

set_option linter.unusedSectionVars false
set_option linter.unusedSimpArgs false

namespace Cdx
open OMap

theorem str_append_left_cancel {a b c : String} (h : a ++ b = a ++ c) : b = c := by
  have := congrArg String.toList h
  simp only [String.toList_append, List.append_cancel_left_eq] at this
  exact String.toList_inj.1 this

theorem targetRef_inj {ref : String} {m n : Nat} (h : targetRef ref m = targetRef ref n) : m = n := by
  unfold targetRef at h
  exact Nat.repr_injective (str_append_left_cancel h)

theorem createSubcomponent_ok {env : Env} {g : SbomGenerator} {p : Package} {t : Target}
    {ty : Classification} {ref : String} {c : Component}
    (h : createSubcomponent env g p t ty ref = .ok c) :
    c = { Component.new ty t.name p.version (some ref) with purl := c.purl } ∧
    ∃ dir, FPath.parent p.manifestPath = some dir ∧
      match FPath.stripPrefix t.srcPath dir with
      | some rel => getPurl env p p g.workspaceRoot (some rel) = .ok c.purl
      | none => c.purl = none := by
  unfold createSubcomponent at h
  simp only at h
  split at h
  · cases h
  · next dir hd =>
    refine (and_iff_right_of_imp ?_).2 ⟨dir, hd, ?_⟩
    · intro _
      split at h
      · simp only [Res.bind_ok] at h
        obtain ⟨u, h1, h2⟩ := h
        cases h2; rfl
      · cases h; rfl
    · split at h
      · next rel hrel =>
        simp only [Res.bind_ok] at h
        obtain ⟨u, h1, h2⟩ := h
        cases h2
        rw [hrel]; exact h1
      · next hrel =>
        cases h
        rw [hrel]; rfl

/-- The targets that become subcomponents, with their classification. -/
def describedTargets (ts : List Target) : List (Target × Classification) :=
  ts.filterMap fun t => (targetType t).map fun c => (t, c)

theorem targetLoop_ok {env : Env} {g : SbomGenerator} {p : Package} {ref : String}
    {ts : List Target} {subs subs' : List Component} {kinds kinds' : TargetKinds}
    (h : targetLoop env g p ref ts subs kinds = .ok (subs', kinds')) :
    ∃ new, subs' = subs ++ new ∧ new.length = (describedTargets ts).length ∧
      (∀ (j : Nat) t ty, (describedTargets ts)[j]? = some (t, ty) → ∃ c, new[j]? = some c ∧
        createSubcomponent env g p t ty (targetRef ref (subs.length + j)) = .ok c ∧
        kinds'.lookup (targetRef ref (subs.length + j)) = some t.kind) ∧
      (∀ k, (∀ j, j < new.length → k ≠ targetRef ref (subs.length + j)) →
        kinds'.lookup k = kinds.lookup k) := by
  induction ts generalizing subs kinds with
  | nil =>
    simp only [targetLoop, Except.ok.injEq, Prod.mk.injEq] at h
    obtain ⟨rfl, rfl⟩ := h
    exact ⟨[], by simp [describedTargets]⟩
  | cons t ts ih =>
    unfold targetLoop at h
    split at h
    · next hty =>
      have : describedTargets (t :: ts) = describedTargets ts := by
        simp [describedTargets, hty]
      rw [this]
      exact ih h
    · next ty hty =>
      have hd : describedTargets (t :: ts) = (t, ty) :: describedTargets ts := by
        simp [describedTargets, hty]
      simp only [Res.bind_ok] at h
      obtain ⟨c, hc, h⟩ := h
      obtain ⟨new, h1, h2, h3, h4⟩ := ih h
      refine ⟨c :: new, by simp [h1], by simp [h2, hd], ?_, ?_⟩
      · intro j t' ty' hj
        rw [hd] at hj
        cases j with
        | zero =>
          simp only [List.getElem?_cons_zero, Option.some.injEq, Prod.mk.injEq] at hj
          obtain ⟨rfl, rfl⟩ := hj
          refine ⟨c, rfl, hc, ?_⟩
          rw [h4, Nat.add_zero, lookup_insert_self]
          intro j _ e
          have := targetRef_inj e
          simp only [List.length_append, List.length_singleton] at this
          omega
        | succ j =>
          simp only [List.getElem?_cons_succ] at hj
          obtain ⟨c', a, b, d⟩ := h3 j t' ty' hj
          have e : (subs ++ [c]).length + j = subs.length + (j + 1) := by simp; omega
          rw [e] at b d
          exact ⟨c', by simpa using a, b, d⟩
      · intro k hk
        rw [h4, lookup_insert_ne]
        · exact hk 0 (by simp)
        · intro j hj
          have e : (subs ++ [c]).length + j = subs.length + (j + 1) := by simp; omega
          rw [e]
          exact hk (j + 1) (by simp; omega)

theorem targetLoop_refs {env : Env} {g : SbomGenerator} {p : Package} {ref : String}
    {ts : List Target} {subs' : List Component} {kinds' : TargetKinds}
    (h : targetLoop env g p ref ts [] [] = .ok (subs', kinds')) :
    subs'.map (·.bomRef) = (List.range subs'.length).map (fun j => some (targetRef ref j)) := by
  obtain ⟨new, h1, h2, h3, _⟩ := targetLoop_ok h
  simp only [List.nil_append] at h1
  subst h1
  apply List.ext_getElem?
  intro j
  simp only [List.getElem?_map, List.getElem?_range']
  by_cases hj : j < subs'.length
  · have : j < (describedTargets ts).length := by omega
    obtain ⟨c, a, b, _⟩ := h3 j _ _ (List.getElem?_eq_getElem this)
    obtain ⟨e, _⟩ := createSubcomponent_ok b
    rw [a, List.getElem?_range hj, Option.map_some, Option.map_some, e]
    simp [Component.new]
  · rw [List.getElem?_eq_none (by omega), List.getElem?_eq_none (by simp; omega)]
    rfl

theorem targetLoop_total {env : Env} {g : SbomGenerator} {p : Package} {ref : String}
    {ts : List Target}
    (h : ∀ t ∈ ts, ∀ ty r, ∃ c, createSubcomponent env g p t ty r = .ok c)
    (subs : List Component) (kinds : TargetKinds) :
    ∃ r, targetLoop env g p ref ts subs kinds = .ok r := by
  induction ts generalizing subs kinds with
  | nil => exact ⟨_, rfl⟩
  | cons t ts ih =>
    unfold targetLoop
    split
    · exact ih (fun t' h' => h t' (List.mem_cons_of_mem _ h')) _ _
    · next ty _ =>
      obtain ⟨c, hc⟩ := h t List.mem_cons_self ty (targetRef ref subs.length)
      simp only [hc, bind, Except.bind]
      exact ih (fun t' h' => h t' (List.mem_cons_of_mem _ h')) _ _

end Cdx
