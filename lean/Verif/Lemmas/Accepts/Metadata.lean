import Verif.Lemmas.Accepts.Component

set_option linter.unusedSectionVars false
set_option linter.unusedVariables false

/-!
# Reading elements that conform to the format: metadata

Generated by a script from the arms of the readers and the table of the format.
-/

namespace Cdx

open Spec

variable {v : SpecVersion} {d : Nat} [F32Format] [ReadLimit]

theorem Tool.takes (H : DecimalsParse) : Takes v d (Tool.readXml v) .tool := 
  takes_struct (["vendor", "name", "version", "hashes"] ++ since14 v ["externalReferences"] []) rfl (fun _ _ => True) (fun _ _ _ => ⟨_, rfl⟩)
    (armsTake_append (armsTake_cons .string (by cases v <;> decide +kernel) (armTakes (takes_simple rfl) (fun _ _ => trivial) fun _ _ _ _ => trivial) <|
      armsTake_cons .string (by cases v <;> decide +kernel) (armTakes (takes_simple rfl) (fun _ _ => trivial) fun _ _ _ _ => trivial) <|
      armsTake_cons .string (by cases v <;> decide +kernel) (armTakes (takes_simple rfl) (fun _ _ => trivial) fun _ _ _ _ => trivial) <|
      armsTake_cons .hashes (by cases v <;> decide +kernel) (armTakes (takes_list (t' := .hash) rfl (by cases v <;> rfl) (Hash.takes H)) (fun _ _ => trivial) fun _ _ _ _ => trivial) <|
      armsTake_nil) <|
      armsTake_since14 <|
      armsTake_cons .externalReferences (by cases v <;> decide +kernel) (armTakes (takes_list (t' := .externalReference) rfl (by cases v <;> rfl) (ExternalReference.takes H)) (fun _ _ => trivial) fun _ _ _ _ => trivial) <|
      armsTake_nil)
    (by cases v <;> rfl) (by cases v <;> decide +kernel)
    (fun _ _ _ _ => ⟨_, rfl⟩)

/-- What is known after some child elements of an element with tools. -/
def Tools.Inv (names : List String) (st : Tools.Vars) : Prop :=
  (st.tools.isSome = true → "tool" ∈ names) ∧ (st.components.isSome = true → "components" ∈ names) ∧
    (st.services.isSome = true → "services" ∈ names)

theorem Tools.takes (H : DecimalsParse) (hd : d ≤ ReadLimit.limit) : Takes v d (Tools.readXml v) .tools := by
  refine Takes.mono ?_ (Nat.le_succ d)
  refine takes_struct_inv rfl Tools.Inv (fun _ _ _ => ⟨_, rfl⟩) (by simp [Tools.Inv]) ?_ ?_
  · intro el attrs content names hok e hl
    refine handles_inv (known := ["tool"] ++ since15 v ["components", "services"] []) hl
      (by cases v <;> rfl) (by cases v <;> decide +kernel) ?_
    have h1 : Steps v d Tools.Inv names "tool" (arm (Tool.readXml v)
        fun y s => { s with tools := some (s.tools.getD [] ++ [y]) }) .tool :=
      steps_arm (Tool.takes H) fun done st x h => by
        obtain ⟨h1, h2, h3⟩ := h
        exact ⟨by simp, fun h => List.mem_append_left _ (h2 h), fun h => List.mem_append_left _ (h3 h)⟩
    have h2 : Steps v d Tools.Inv names "components" (arm (readListLax "component" (Component.readXml v))
        fun y s => { s with components := some y }) .components :=
      steps_arm (takes_list (t' := .component) rfl (by cases v <;> rfl) (Component.takes H hd)) fun done st x h => by
        obtain ⟨h1, h2, h3⟩ := h
        exact ⟨fun h => List.mem_append_left _ (h1 h), by simp, fun h => List.mem_append_left _ (h3 h)⟩
    have h3 : Steps v d Tools.Inv names "services" (arm (readListLax "service" (Service.readXml v))
        fun y s => { s with services := some y }) .services :=
      steps_arm (takes_list (t' := .service) rfl (by cases v <;> rfl) (Service.takes H hd)) fun done st x h => by
        obtain ⟨h1, h2, h3⟩ := h
        exact ⟨fun h => List.mem_append_left _ (h1 h), fun h => List.mem_append_left _ (h2 h), by simp⟩
    intro q hq t' ht'
    have k1 : ElementType.tools.child v "tool" = some .tool := by cases v <;> decide +kernel
    simp only [Tools.arms, List.mem_append, List.mem_cons, List.not_mem_nil, or_false] at hq
    rcases hq with rfl | hq
    · rw [k1] at ht'; cases ht'; exact h1
    · cases v with
      | v1_5 =>
        simp only [since15, List.mem_cons, List.not_mem_nil, or_false] at hq
        rcases hq with rfl | rfl
        · have : ElementType.tools.child .v1_5 "components" = some .components := by decide +kernel
          rw [this] at ht'; cases ht'; exact h2
        · have : ElementType.tools.child .v1_5 "services" = some .services := by decide +kernel
          rw [this] at ht'; cases ht'; exact h3
      | v1_4 => exact absurd hq (by simp [since15])
      | v1_3 => exact absurd hq (by simp [since15])
  · intro el p st names hl hi
    obtain ⟨l, hl, hin, -⟩ := hl.choice
    obtain ⟨h1, h2, h3⟩ := hi
    cases ht : st.tools with
    | none => cases v <;> simp [since15]
    | some x =>
      have g1 := hin _ (h1 (by simp [ht]))
      have hone : ((ElementType.tools.choices v).all fun l =>
          let names := (l.flatMap (·.items)).map (·.1)
          !(names.contains "tool" && (names.contains "components" || names.contains "services"))) = true := by
        cases v <;> decide +kernel
      have := List.all_eq_true.mp hone l hl
      have g2 : st.components = none := by
        cases hs : st.components with
        | none => rfl
        | some y =>
          have g := hin _ (h2 (by simp [hs]))
          simp [List.contains_iff_mem, g1, g] at this
      have g3 : st.services = none := by
        cases hs : st.services with
        | none => rfl
        | some y =>
          have g := hin _ (h3 (by simp [hs]))
          simp [List.contains_iff_mem, g1, g] at this
      simp [g2, g3]

theorem Metadata.takes (H : DecimalsParse) (hd : d ≤ ReadLimit.limit) : Takes v d (Metadata.readXml v) .metadata := 
  takes_struct (["timestamp", "tools", "authors", "component", "manufacture", "supplier", "licenses", "properties"] ++ since15 v ["lifecycles"] []) rfl (fun _ _ => True) (fun _ _ _ => ⟨_, rfl⟩)
    (armsTake_append (armsTake_cons .string (by cases v <;> decide +kernel) (armTakes (takes_simple rfl) (fun _ _ => trivial) fun _ _ _ _ => trivial) <|
      armsTake_cons .tools (by cases v <;> decide +kernel) (armTakes (Tools.takes H hd) (fun _ _ => trivial) fun _ _ _ _ => trivial) <|
      armsTake_cons .authors (by cases v <;> decide +kernel) (armTakes (takes_list (t' := .organizationalContact) rfl (by cases v <;> rfl) (OrganizationalContact.takes H)) (fun _ _ => trivial) fun _ _ _ _ => trivial) <|
      armsTake_cons .component (by cases v <;> decide +kernel) (armTakes (Component.takes H hd) (fun _ _ => trivial) fun _ _ _ _ => trivial) <|
      armsTake_cons .organizationalEntity (by cases v <;> decide +kernel) (armTakes (OrganizationalEntity.takes H) (fun _ _ => trivial) fun _ _ _ _ => trivial) <|
      armsTake_cons .organizationalEntity (by cases v <;> decide +kernel) (armTakes (OrganizationalEntity.takes H) (fun _ _ => trivial) fun _ _ _ _ => trivial) <|
      armsTake_cons .licenses (by cases v <;> decide +kernel) (armTakes (Licenses.takes H) (fun _ _ => trivial) fun _ _ _ _ => trivial) <|
      armsTake_cons .properties (by cases v <;> decide +kernel) (armTakes (takes_list (t' := .property) rfl (by cases v <;> rfl) (Property.takes H)) (fun _ _ => trivial) fun _ _ _ _ => trivial) <|
      armsTake_nil) <|
      armsTake_since15 <|
      armsTake_cons .lifecycles (by cases v <;> decide +kernel) (armTakes (takes_list (t' := .lifecycle) rfl (by cases v <;> rfl) (Lifecycle.takes)) (fun _ _ => trivial) fun _ _ _ _ => trivial) <|
      armsTake_nil)
    (by cases v <;> rfl) (by cases v <;> decide +kernel)
    (fun _ _ _ _ => ⟨_, rfl⟩)

end Cdx
