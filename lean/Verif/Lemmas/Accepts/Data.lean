import Verif.Lemmas.Accepts.Evidence

set_option linter.unusedSectionVars false
set_option linter.unusedVariables false

/-!
# Reading elements that conform to the format: data and model cards

Generated by a script from the arms of the readers and the table of the format.
-/

namespace Cdx

open Spec

variable {v : SpecVersion} {d : Nat} [F32Format] [ReadLimit]

theorem DataGovernanceResponsibleParty.takes (H : DecimalsParse) : Takes v d DataGovernanceResponsibleParty.readXml .responsibleParty := 
  takes_struct ["organization", "contact"] rfl (fun _ (s : Option DataGovernanceResponsibleParty) => s.isSome = true) (fun _ _ _ => ⟨_, rfl⟩)
    (armsTake_cons .organizationalEntity (by cases v <;> decide +kernel) (armTakes (OrganizationalEntity.takes H) (by has_set) (by has_keep)) <|
      armsTake_cons .organizationalContact (by cases v <;> decide +kernel) (armTakes (OrganizationalContact.takes H) (by has_set) (by has_keep)) <|
      armsTake_nil)
    rfl (by cases v <;> decide +kernel)
    (fun el p st h => by
      obtain ⟨n, -, h0⟩ := seen_of_choices (v := v) (t := .responsibleParty) (st := st) (Has := fun _ (s : Option DataGovernanceResponsibleParty) => s.isSome = true) ["organization", "contact"] (by cases v <;> decide +kernel) h
      obtain ⟨x, rfl⟩ := Option.isSome_iff_exists.mp h0
      exact ⟨x, rfl⟩)

theorem DataGovernance.takes (H : DecimalsParse) : Takes v d DataGovernance.readXml .governance := 
  takes_struct ["owners", "custodians", "stewards"] rfl (fun _ _ => True) (fun _ _ _ => ⟨_, rfl⟩)
    (armsTake_cons .owners (by cases v <;> decide +kernel) (armTakes (takes_list (t' := .responsibleParty) rfl (by cases v <;> rfl) (DataGovernanceResponsibleParty.takes H)) (fun _ _ => trivial) fun _ _ _ _ => trivial) <|
      armsTake_cons .custodians (by cases v <;> decide +kernel) (armTakes (takes_list (t' := .responsibleParty) rfl (by cases v <;> rfl) (DataGovernanceResponsibleParty.takes H)) (fun _ _ => trivial) fun _ _ _ _ => trivial) <|
      armsTake_cons .stewards (by cases v <;> decide +kernel) (armTakes (takes_list (t' := .responsibleParty) rfl (by cases v <;> rfl) (DataGovernanceResponsibleParty.takes H)) (fun _ _ => trivial) fun _ _ _ _ => trivial) <|
      armsTake_nil)
    rfl (by cases v <;> decide +kernel)
    (fun _ _ _ _ => ⟨_, rfl⟩)

theorem Graphic.takes (H : DecimalsParse) : Takes v d Graphic.readXml .graphic := 
  takes_struct ["name", "image"] rfl (fun _ _ => True) (fun _ _ _ => ⟨_, rfl⟩)
    (armsTake_cons .string (by cases v <;> decide +kernel) (armTakes (takes_simple rfl) (fun _ _ => trivial) fun _ _ _ _ => trivial) <|
      armsTake_cons .attachment (by cases v <;> decide +kernel) (armTakes (Attachment.takes H) (fun _ _ => trivial) fun _ _ _ _ => trivial) <|
      armsTake_nil)
    rfl (by cases v <;> decide +kernel)
    (fun _ _ _ _ => ⟨_, rfl⟩)

theorem GraphicsCollection.takes (H : DecimalsParse) : Takes v d GraphicsCollection.readXml .graphics := 
  takes_struct ["description", "collection"] rfl (fun _ _ => True) (fun _ _ _ => ⟨_, rfl⟩)
    (armsTake_cons .string (by cases v <;> decide +kernel) (armTakes (takes_simple rfl) (fun _ _ => trivial) fun _ _ _ _ => trivial) <|
      armsTake_cons .graphicCollection (by cases v <;> decide +kernel) (armTakes (takes_list (t' := .graphic) rfl (by cases v <;> rfl) (Graphic.takes H)) (fun _ _ => trivial) fun _ _ _ _ => trivial) <|
      armsTake_nil)
    rfl (by cases v <;> decide +kernel)
    (fun _ _ _ _ => ⟨_, rfl⟩)

theorem DataContents.takes (H : DecimalsParse) : Takes v d DataContents.readXml .dataContents := 
  takes_struct ["attachment", "url", "properties"] rfl (fun _ _ => True) (fun _ _ _ => ⟨_, rfl⟩)
    (armsTake_cons .attachment (by cases v <;> decide +kernel) (armTakes (Attachment.takes H) (fun _ _ => trivial) fun _ _ _ _ => trivial) <|
      armsTake_cons .string (by cases v <;> decide +kernel) (armTakes (takes_simple rfl) (fun _ _ => trivial) fun _ _ _ _ => trivial) <|
      armsTake_cons .properties (by cases v <;> decide +kernel) (armTakes (takes_list (t' := .property) rfl (by cases v <;> rfl) (Property.takes H)) (fun _ _ => trivial) fun _ _ _ _ => trivial) <|
      armsTake_nil)
    rfl (by cases v <;> decide +kernel)
    (fun _ _ _ _ => ⟨_, rfl⟩)

theorem ComponentData.takes (H : DecimalsParse) : Takes v d ComponentData.readXml .componentData := 
  takes_struct ["type", "name", "contents", "classification", "sensitiveData", "graphics", "description", "governance"] rfl (fun m (s : ComponentData.Vars) => (m = "type" → s.dataType.isSome = true)) (fun _ _ _ => ⟨_, rfl⟩)
    (armsTake_cons .string (by cases v <;> decide +kernel) (armTakes (takes_map (takes_simple rfl) _) (by has_set) (by has_keep)) <|
      armsTake_cons .string (by cases v <;> decide +kernel) (armTakes (takes_simple rfl) (by has_set) (by has_keep)) <|
      armsTake_cons .dataContents (by cases v <;> decide +kernel) (armTakes (DataContents.takes H) (by has_set) (by has_keep)) <|
      armsTake_cons .string (by cases v <;> decide +kernel) (armTakes (takes_simple rfl) (by has_set) (by has_keep)) <|
      armsTake_cons .string (by cases v <;> decide +kernel) (armTakes (takes_simple rfl) (by has_set) (by has_keep)) <|
      armsTake_cons .graphics (by cases v <;> decide +kernel) (armTakes (GraphicsCollection.takes H) (by has_set) (by has_keep)) <|
      armsTake_cons .string (by cases v <;> decide +kernel) (armTakes (takes_simple rfl) (by has_set) (by has_keep)) <|
      armsTake_cons .governance (by cases v <;> decide +kernel) (armTakes (DataGovernance.takes H) (by has_set) (by has_keep)) <|
      armsTake_nil)
    rfl (by cases v <;> decide +kernel)
    (fun el p st h => by
      have g0 := seen_one (v := v) (t := .componentData) (st := st) (Has := fun m (s : ComponentData.Vars) => (m = "type" → s.dataType.isSome = true)) "type" (by cases v <;> decide +kernel) h
      obtain ⟨x0, e0⟩ := Option.isSome_iff_exists.mp (g0 rfl)
      simp [Cdx.required, e0, bind, Except.bind])

theorem ModelParametersApproach.takes (H : DecimalsParse) : Takes v d ModelParametersApproach.readXml .approach := 
  takes_struct ["type"] rfl (fun _ _ => True) (fun _ _ _ => ⟨_, rfl⟩)
    (armsTake_cons .string (by cases v <;> decide +kernel) (armTakes (takes_map (takes_simple rfl) _) (fun _ _ => trivial) fun _ _ _ _ => trivial) <|
      armsTake_nil)
    rfl (by cases v <;> decide +kernel)
    (fun _ _ _ _ => ⟨_, rfl⟩)

theorem MLParameter.takes (H : DecimalsParse) : Takes v d MLParameter.readXml .mlParameter := 
  takes_struct ["format"] rfl (fun _ _ => True) (fun _ _ _ => ⟨_, rfl⟩)
    (armsTake_cons .string (by cases v <;> decide +kernel) (armTakes (takes_simple rfl) (fun _ _ => trivial) fun _ _ _ _ => trivial) <|
      armsTake_nil)
    rfl (by cases v <;> decide +kernel)
    (fun _ _ _ _ => ⟨_, rfl⟩)

theorem Dataset.takes (H : DecimalsParse) : Takes v d Dataset.readXml .componentData :=
  takes_map (ComponentData.takes H) _

theorem ModelParameters.takes (H : DecimalsParse) : Takes v d ModelParameters.readXml .modelParameters := 
  takes_struct ["approach", "task", "architectureFamily", "modelArchitecture", "datasets", "inputs", "outputs"] rfl (fun _ _ => True) (fun _ _ _ => ⟨_, rfl⟩)
    (armsTake_cons .approach (by cases v <;> decide +kernel) (armTakes (ModelParametersApproach.takes H) (fun _ _ => trivial) fun _ _ _ _ => trivial) <|
      armsTake_cons .string (by cases v <;> decide +kernel) (armTakes (takes_simple rfl) (fun _ _ => trivial) fun _ _ _ _ => trivial) <|
      armsTake_cons .string (by cases v <;> decide +kernel) (armTakes (takes_simple rfl) (fun _ _ => trivial) fun _ _ _ _ => trivial) <|
      armsTake_cons .string (by cases v <;> decide +kernel) (armTakes (takes_simple rfl) (fun _ _ => trivial) fun _ _ _ _ => trivial) <|
      armsTake_cons .datasets (by cases v <;> decide +kernel) (armTakes (takes_datasets (Dataset.takes H)) (fun _ _ => trivial) fun _ _ _ _ => trivial) <|
      armsTake_cons .mlInputs (by cases v <;> decide +kernel) (armTakes (takes_list (t' := .mlParameter) rfl (by cases v <;> rfl) (MLParameter.takes H)) (fun _ _ => trivial) fun _ _ _ _ => trivial) <|
      armsTake_cons .mlOutputs (by cases v <;> decide +kernel) (armTakes (takes_list (t' := .mlParameter) rfl (by cases v <;> rfl) (MLParameter.takes H)) (fun _ _ => trivial) fun _ _ _ _ => trivial) <|
      armsTake_nil)
    rfl (by cases v <;> decide +kernel)
    (fun _ _ _ _ => ⟨_, rfl⟩)

theorem ConfidenceInterval.takes (H : DecimalsParse) : Takes v d ConfidenceInterval.readXml .confidenceInterval := 
  takes_struct ["lowerBound", "upperBound"] rfl (fun _ _ => True) (fun _ _ _ => ⟨_, rfl⟩)
    (armsTake_cons .string (by cases v <;> decide +kernel) (armTakes (takes_simple rfl) (fun _ _ => trivial) fun _ _ _ _ => trivial) <|
      armsTake_cons .string (by cases v <;> decide +kernel) (armTakes (takes_simple rfl) (fun _ _ => trivial) fun _ _ _ _ => trivial) <|
      armsTake_nil)
    rfl (by cases v <;> decide +kernel)
    (fun _ _ _ _ => ⟨_, rfl⟩)

theorem PerformanceMetric.takes (H : DecimalsParse) : Takes v d PerformanceMetric.readXml .performanceMetric := 
  takes_struct ["type", "value", "slice", "confidenceInterval"] rfl (fun _ _ => True) (fun _ _ _ => ⟨_, rfl⟩)
    (armsTake_cons .string (by cases v <;> decide +kernel) (armTakes (takes_simple rfl) (fun _ _ => trivial) fun _ _ _ _ => trivial) <|
      armsTake_cons .string (by cases v <;> decide +kernel) (armTakes (takes_simple rfl) (fun _ _ => trivial) fun _ _ _ _ => trivial) <|
      armsTake_cons .string (by cases v <;> decide +kernel) (armTakes (takes_simple rfl) (fun _ _ => trivial) fun _ _ _ _ => trivial) <|
      armsTake_cons .confidenceInterval (by cases v <;> decide +kernel) (armTakes (ConfidenceInterval.takes H) (fun _ _ => trivial) fun _ _ _ _ => trivial) <|
      armsTake_nil)
    rfl (by cases v <;> decide +kernel)
    (fun _ _ _ _ => ⟨_, rfl⟩)

theorem QuantitativeAnalysis.takes (H : DecimalsParse) : Takes v d QuantitativeAnalysis.readXml .quantitativeAnalysis := 
  takes_struct ["performanceMetrics", "graphics"] rfl (fun _ _ => True) (fun _ _ _ => ⟨_, rfl⟩)
    (armsTake_cons .performanceMetrics (by cases v <;> decide +kernel) (armTakes (takes_list (t' := .performanceMetric) rfl (by cases v <;> rfl) (PerformanceMetric.takes H)) (fun _ _ => trivial) fun _ _ _ _ => trivial) <|
      armsTake_cons .graphics (by cases v <;> decide +kernel) (armTakes (GraphicsCollection.takes H) (fun _ _ => trivial) fun _ _ _ _ => trivial) <|
      armsTake_nil)
    rfl (by cases v <;> decide +kernel)
    (fun _ _ _ _ => ⟨_, rfl⟩)

theorem VulnerabilityProofOfConcept.takes (H : DecimalsParse) : Takes v d VulnerabilityProofOfConcept.readXml .proofOfConcept := 
  takes_struct ["reproductionSteps", "environment", "supportingMaterial"] rfl (fun _ _ => True) (fun _ _ _ => ⟨_, rfl⟩)
    (armsTake_cons .string (by cases v <;> decide +kernel) (armTakes (takes_simple rfl) (fun _ _ => trivial) fun _ _ _ _ => trivial) <|
      armsTake_cons .string (by cases v <;> decide +kernel) (armTakes (takes_simple rfl) (fun _ _ => trivial) fun _ _ _ _ => trivial) <|
      armsTake_cons .supportingMaterial (by cases v <;> decide +kernel) (armTakes (takes_list (t' := .attachment) rfl (by cases v <;> rfl) (Attachment.takes H)) (fun _ _ => trivial) fun _ _ _ _ => trivial) <|
      armsTake_nil)
    rfl (by cases v <;> decide +kernel)
    (fun _ _ _ _ => ⟨_, rfl⟩)

theorem ModelCard.takes (H : DecimalsParse) : TakesAs v d "modelCard" ModelCard.readXml .modelCard := by
  intro el attrs ns content hel hc hd
  rw [Throughout] at hc
  obtain ⟨names, e, hl⟩ := children_names hc.1 rfl
  have hh : Handles v d .modelCard .ignore el ModelCard.arms (fun _ _ => True) names := by
    intro done name more en n attrs' ns' c st hn hc' hd' _
    have hmem : name ∈ names := by rw [en]; simp
    have hm := hl.mem name hmem
    have e1 : (ElementType.modelCard.items v).map (·.1) =
        ["modelParameters", "quantitativeAnalysis", "considerations", "properties"] := by cases v <;> rfl
    rw [e1] at hm
    have hpass : ∀ t, t ∈ ModelCard.passed → ElementType.modelCard.child v n.localName = some t →
        ModelCard.arms.lookup n.localName = none → n.localName ≠ "modelCard" →
        ∀ rest', readFields .ignore el ModelCard.arms st (XNode.events (.elem n attrs' ns' c) ++ rest') =
          readFields .ignore el ModelCard.arms st rest' := by
      intro t ht hchild hlook hname rest'
      have h2 := hc' t (by rw [← hn]; exact hchild)
      rw [Throughout] at h2
      have hin := inside_names ModelCard.passed ["modelParameters", "quantitativeAnalysis", "modelCard"]
        (by cases v <;> decide +kernel) c t ht h2.1.items h2.2
      rw [elem_events, ignore_start hlook, ignore_all c _ fun m hm => ?_,
        ignore_stop fun e => hname (by rw [e]; exact hel)]
      have := hin m hm
      simp only [List.mem_cons, List.not_mem_nil, or_false, not_or] at this
      refine ⟨?_, by rw [hel]; exact this.2.2⟩
      have b1 : (m == "modelParameters") = false := by simpa using this.1
      have b2 : (m == "quantitativeAnalysis") = false := by simpa using this.2.1
      simp only [ModelCard.arms, List.lookup, b1, b2]
    simp only [List.mem_cons, List.not_mem_nil, or_false] at hm
    rcases hm with rfl | rfl | rfl | rfl
    · obtain ⟨x, hx⟩ := ModelParameters.takes H n attrs' ns' c (hc' .modelParameters (by cases v <;> decide +kernel)) hd'
      exact ⟨{ st with modelParameters := some x }, trivial, fun rest' => fields_arm (by rw [hn]; rfl)
        (by simp [arm, hx, bind, Except.bind])⟩
    · obtain ⟨x, hx⟩ := QuantitativeAnalysis.takes H n attrs' ns' c
        (hc' .quantitativeAnalysis (by cases v <;> decide +kernel)) hd'
      exact ⟨{ st with quantitativeAnalysis := some x }, trivial, fun rest' => fields_arm (by rw [hn]; rfl)
        (by simp [arm, hx, bind, Except.bind])⟩
    · exact ⟨st, trivial, hpass .considerations (by decide) (by rw [hn]; cases v <;> decide +kernel)
        (by rw [hn]; rfl) (by rw [hn]; decide)⟩
    · exact ⟨st, trivial, hpass .properties (by decide) (by rw [hn]; cases v <;> decide +kernel)
        (by rw [hn]; rfl) (by rw [hn]; decide)⟩
  obtain ⟨st, -, es⟩ := handle_all hh content [] names {} rfl e hc.2 (by omega) trivial
  exact ⟨_, fun rest => by simp [ModelCard.readXml, readStruct, es, bind, Except.bind]; rfl⟩

end Cdx
