import Verif.Lemmas.Accepts.Metadata

set_option linter.unusedSectionVars false
set_option linter.unusedVariables false

/-!
# Reading elements that conform to the format: vulnerabilities and annotations

Generated by a script from the arms of the readers and the table of the format.
-/

namespace Cdx

open Spec

variable {v : SpecVersion} {d : Nat} [F32Format] [ReadLimit]

theorem Vulnerability.takes (H : DecimalsParse) (hd : d ≤ ReadLimit.limit) : Takes v d (Vulnerability.readXml v) .vulnerability := 
  takes_struct (["id", "source", "references", "ratings", "cwes", "description", "detail", "recommendation", "advisories", "created", "published", "updated", "credits", "tools", "analysis", "affects", "properties"] ++ since15 v ["proofOfConcept", "rejected", "workaround"] []) rfl (fun _ _ => True) (fun _ _ _ => ⟨_, rfl⟩)
    (armsTake_append (armsTake_cons .string (by cases v <;> decide +kernel) (armTakes (takes_simple rfl) (fun _ _ => trivial) fun _ _ _ _ => trivial) <|
      armsTake_cons .namedUrl (by cases v <;> decide +kernel) (armTakes (VulnerabilitySource.takes H) (fun _ _ => trivial) fun _ _ _ _ => trivial) <|
      armsTake_cons .vulnerabilityReferences (by cases v <;> decide +kernel) (armTakes (takes_list (t' := .vulnerabilityReference) rfl (by cases v <;> rfl) (VulnerabilityReference.takes H)) (fun _ _ => trivial) fun _ _ _ _ => trivial) <|
      armsTake_cons .ratings (by cases v <;> decide +kernel) (armTakes (takes_list (t' := .rating) rfl (by cases v <;> rfl) (VulnerabilityRating.takes H)) (fun _ _ => trivial) fun _ _ _ _ => trivial) <|
      armsTake_cons .cwes (by cases v <;> decide +kernel) (armTakes (takes_list (t' := .integer) rfl (by cases v <;> rfl) (takes_u32 rfl)) (fun _ _ => trivial) fun _ _ _ _ => trivial) <|
      armsTake_cons .string (by cases v <;> decide +kernel) (armTakes (takes_simple rfl) (fun _ _ => trivial) fun _ _ _ _ => trivial) <|
      armsTake_cons .string (by cases v <;> decide +kernel) (armTakes (takes_optional rfl) (fun _ _ => trivial) fun _ _ _ _ => trivial) <|
      armsTake_cons .string (by cases v <;> decide +kernel) (armTakes (takes_simple rfl) (fun _ _ => trivial) fun _ _ _ _ => trivial) <|
      armsTake_cons .advisories (by cases v <;> decide +kernel) (armTakes (takes_list (t' := .advisory) rfl (by cases v <;> rfl) (Advisory.takes H)) (fun _ _ => trivial) fun _ _ _ _ => trivial) <|
      armsTake_cons .string (by cases v <;> decide +kernel) (armTakes (takes_simple rfl) (fun _ _ => trivial) fun _ _ _ _ => trivial) <|
      armsTake_cons .string (by cases v <;> decide +kernel) (armTakes (takes_simple rfl) (fun _ _ => trivial) fun _ _ _ _ => trivial) <|
      armsTake_cons .string (by cases v <;> decide +kernel) (armTakes (takes_simple rfl) (fun _ _ => trivial) fun _ _ _ _ => trivial) <|
      armsTake_cons .credits (by cases v <;> decide +kernel) (armTakes (VulnerabilityCredits.takes H) (fun _ _ => trivial) fun _ _ _ _ => trivial) <|
      armsTake_cons .tools (by cases v <;> decide +kernel) (armTakes (Tools.takes H hd) (fun _ _ => trivial) fun _ _ _ _ => trivial) <|
      armsTake_cons .analysis (by cases v <;> decide +kernel) (armTakes (VulnerabilityAnalysis.takes H) (fun _ _ => trivial) fun _ _ _ _ => trivial) <|
      armsTake_cons .affects (by cases v <;> decide +kernel) (armTakes (takes_list (t' := .target) rfl (by cases v <;> rfl) (VulnerabilityTarget.takes H)) (fun _ _ => trivial) fun _ _ _ _ => trivial) <|
      armsTake_cons .properties (by cases v <;> decide +kernel) (armTakes (takes_list (t' := .property) rfl (by cases v <;> rfl) (Property.takes H)) (fun _ _ => trivial) fun _ _ _ _ => trivial) <|
      armsTake_nil) <|
      armsTake_since15 <|
      armsTake_cons .proofOfConcept (by cases v <;> decide +kernel) (armTakes (VulnerabilityProofOfConcept.takes H) (fun _ _ => trivial) fun _ _ _ _ => trivial) <|
      armsTake_cons .string (by cases v <;> decide +kernel) (armTakes (takes_simple rfl) (fun _ _ => trivial) fun _ _ _ _ => trivial) <|
      armsTake_cons .string (by cases v <;> decide +kernel) (armTakes (takes_simple rfl) (fun _ _ => trivial) fun _ _ _ _ => trivial) <|
      armsTake_nil)
    (by cases v <;> rfl) (by cases v <;> decide +kernel)
    (fun _ _ _ _ => ⟨_, rfl⟩)

theorem Annotator.takes (H : DecimalsParse) (hd : d ≤ ReadLimit.limit) : Takes v d (Annotator.readXml v) .annotator := 
  takes_struct ["organization", "individual", "component", "service"] rfl (fun _ (s : Option Annotator) => s.isSome = true) (fun _ _ _ => ⟨_, rfl⟩)
    (armsTake_cons .organizationalEntity (by cases v <;> decide +kernel) (armTakes (OrganizationalEntity.takes H) (by has_set) (by has_keep)) <|
      armsTake_cons .organizationalContact (by cases v <;> decide +kernel) (armTakes (OrganizationalContact.takes H) (by has_set) (by has_keep)) <|
      armsTake_cons .component (by cases v <;> decide +kernel) (armTakes (Component.takes H hd) (by has_set) (by has_keep)) <|
      armsTake_cons .service (by cases v <;> decide +kernel) (armTakes (Service.takes H hd) (by has_set) (by has_keep)) <|
      armsTake_nil)
    rfl (by cases v <;> decide +kernel)
    (fun el p st h => by
      obtain ⟨n, -, h0⟩ := seen_of_choices (v := v) (t := .annotator) (st := st) (Has := fun _ (s : Option Annotator) => s.isSome = true) ["organization", "individual", "component", "service"] (by cases v <;> decide +kernel) h
      obtain ⟨x, rfl⟩ := Option.isSome_iff_exists.mp h0
      exact ⟨x, rfl⟩)

theorem Annotation.takes (H : DecimalsParse) (hd : d ≤ ReadLimit.limit) : Takes v d (Annotation.readXml v) .annotation := 
  takes_struct ["subjects", "annotator", "timestamp", "text", "signature"] rfl (fun m (s : Annotation.Vars) => (m = "annotator" → s.annotator.isSome = true) ∧ (m = "timestamp" → s.timestamp.isSome = true) ∧ (m = "text" → s.text.isSome = true)) (fun _ _ _ => ⟨_, rfl⟩)
    (armsTake_cons .subjects (by cases v <;> decide +kernel) (armTakes (takes_list (t' := .reference) rfl (by cases v <;> rfl) (takes_ref rfl (by cases v <;> decide +kernel))) (by has_set) (by has_keep)) <|
      armsTake_cons .annotator (by cases v <;> decide +kernel) (armTakes (Annotator.takes H hd) (by has_set) (by has_keep)) <|
      armsTake_cons .string (by cases v <;> decide +kernel) (armTakes (takes_simple rfl) (by has_set) (by has_keep)) <|
      armsTake_cons .string (by cases v <;> decide +kernel) (armTakes (takes_simple rfl) (by has_set) (by has_keep)) <|
      armsTake_other (by cases v <;> decide +kernel) <|
      armsTake_nil)
    rfl (by cases v <;> decide +kernel)
    (fun el p st h => by
      have g0 := seen_one (v := v) (t := .annotation) (st := st) (Has := fun m (s : Annotation.Vars) => (m = "annotator" → s.annotator.isSome = true) ∧ (m = "timestamp" → s.timestamp.isSome = true) ∧ (m = "text" → s.text.isSome = true)) "annotator" (by cases v <;> decide +kernel) h
      obtain ⟨x0, e0⟩ := Option.isSome_iff_exists.mp (g0.1 rfl)
      have g1 := seen_one (v := v) (t := .annotation) (st := st) (Has := fun m (s : Annotation.Vars) => (m = "annotator" → s.annotator.isSome = true) ∧ (m = "timestamp" → s.timestamp.isSome = true) ∧ (m = "text" → s.text.isSome = true)) "timestamp" (by cases v <;> decide +kernel) h
      obtain ⟨x1, e1⟩ := Option.isSome_iff_exists.mp (g1.2.1 rfl)
      have g2 := seen_one (v := v) (t := .annotation) (st := st) (Has := fun m (s : Annotation.Vars) => (m = "annotator" → s.annotator.isSome = true) ∧ (m = "timestamp" → s.timestamp.isSome = true) ∧ (m = "text" → s.text.isSome = true)) "text" (by cases v <;> decide +kernel) h
      obtain ⟨x2, e2⟩ := Option.isSome_iff_exists.mp (g2.2.2 rfl)
      simp [Cdx.required, e0, e1, e2, bind, Except.bind])

end Cdx
