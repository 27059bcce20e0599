import Verif.Lemmas.Foreign.Parts

set_option linter.unusedSectionVars false
set_option linter.unusedVariables false

/-!
# Foreign elements: data, model cards and services

Generated by a script from the arms of the readers and the table of the format.
-/

namespace Cdx.Foreign

open Cdx.Spec

variable {v : SpecVersion} [F32Format] [ReadLimit]

theorem DataGovernanceResponsibleParty.blind {tag : String} : Blind v .responsibleParty tag DataGovernanceResponsibleParty.readXml :=
  struct_fail
    (.cons .organizationalEntity (by cases v <;> decide +kernel) (arm OrganizationalEntity.blind) <|
      .cons .organizationalContact (by cases v <;> decide +kernel) (arm OrganizationalContact.blind) <|
      .nil) (by decide +kernel)

theorem DataGovernance.blind {tag : String} (hi : tag ∈ ignoring) : Blind v .governance tag DataGovernance.readXml :=
  struct_ignore
    (.cons .owners (by cases v <;> decide +kernel) (arm (list_fail (t' := .responsibleParty) (by cases v <;> decide +kernel) DataGovernanceResponsibleParty.blind (by decide +kernel))) <|
      .cons .custodians (by cases v <;> decide +kernel) (arm (list_fail (t' := .responsibleParty) (by cases v <;> decide +kernel) DataGovernanceResponsibleParty.blind (by decide +kernel))) <|
      .cons .stewards (by cases v <;> decide +kernel) (arm (list_fail (t' := .responsibleParty) (by cases v <;> decide +kernel) DataGovernanceResponsibleParty.blind (by decide +kernel))) <|
      .nil) hi ["owners", "custodians", "stewards"] rfl (by cases v <;> decide +kernel)

theorem Graphic.blind {tag : String} (hi : tag ∈ ignoring) : Blind v .graphic tag Graphic.readXml :=
  struct_ignore
    (.cons .string (by cases v <;> decide +kernel) (arm (leaf_text readSimple_local rfl (by decide +kernel))) <|
      .cons .attachment (by cases v <;> decide +kernel) (arm (leaf_text (Attachment.xml_local (by decide)) rfl (by decide +kernel))) <|
      .nil) hi ["name", "image"] rfl (by cases v <;> decide +kernel)

theorem GraphicsCollection.blind {tag : String} (hi : tag ∈ ignoring) : Blind v .graphics tag GraphicsCollection.readXml :=
  struct_ignore
    (.cons .string (by cases v <;> decide +kernel) (arm (leaf_text readSimple_local rfl (by decide +kernel))) <|
      .cons .graphicCollection (by cases v <;> decide +kernel) (arm (list_ignore (t' := .graphic) (by cases v <;> decide +kernel) (Graphic.blind (by decide)) (by decide) (by cases v <;> decide +kernel))) <|
      .nil) hi ["description", "collection"] rfl (by cases v <;> decide +kernel)

theorem DataContents.blind {tag : String} (hi : tag ∈ ignoring) : Blind v .dataContents tag DataContents.readXml :=
  struct_ignore
    (.cons .attachment (by cases v <;> decide +kernel) (arm (leaf_text (Attachment.xml_local (by decide)) rfl (by decide +kernel))) <|
      .cons .string (by cases v <;> decide +kernel) (arm (leaf_text readSimple_local rfl (by decide +kernel))) <|
      .cons .properties (by cases v <;> decide +kernel) (arm (list_skip (t' := .property) (by cases v <;> decide +kernel) (leaf_text Property.xml_local rfl (by decide +kernel)))) <|
      .nil) hi ["attachment", "url", "properties"] rfl (by cases v <;> decide +kernel)

theorem ComponentData.blind {tag : String} (hi : tag ∈ ignoring) : Blind v .componentData tag ComponentData.readXml :=
  struct_ignore
    (.cons .string (by cases v <;> decide +kernel) (arm (leaf_text (map_local readSimple_local _) rfl (by decide +kernel))) <|
      .cons .string (by cases v <;> decide +kernel) (arm (leaf_text readSimple_local rfl (by decide +kernel))) <|
      .cons .dataContents (by cases v <;> decide +kernel) (arm (DataContents.blind (by decide))) <|
      .cons .string (by cases v <;> decide +kernel) (arm (leaf_text readSimple_local rfl (by decide +kernel))) <|
      .cons .string (by cases v <;> decide +kernel) (arm (leaf_text readSimple_local rfl (by decide +kernel))) <|
      .cons .graphics (by cases v <;> decide +kernel) (arm (GraphicsCollection.blind (by decide))) <|
      .cons .string (by cases v <;> decide +kernel) (arm (leaf_text readSimple_local rfl (by decide +kernel))) <|
      .cons .governance (by cases v <;> decide +kernel) (arm (DataGovernance.blind (by decide))) <|
      .nil) hi ["type", "name", "contents", "classification", "sensitiveData", "graphics", "description", "governance"] rfl (by cases v <;> decide +kernel)

theorem ModelParametersApproach.blind {tag : String} (hi : tag ∈ ignoring) : Blind v .approach tag ModelParametersApproach.readXml :=
  struct_ignore
    (.cons .string (by cases v <;> decide +kernel) (arm (leaf_text (map_local readSimple_local _) rfl (by decide +kernel))) <|
      .nil) hi ["type"] rfl (by cases v <;> decide +kernel)

theorem MLParameter.blind {tag : String} (hi : tag ∈ ignoring) : Blind v .mlParameter tag MLParameter.readXml :=
  struct_ignore
    (.cons .string (by cases v <;> decide +kernel) (arm (leaf_text readSimple_local rfl (by decide +kernel))) <|
      .nil) hi ["format"] rfl (by cases v <;> decide +kernel)

theorem Dataset.blind {tag : String} (hi : tag ∈ ignoring) : Blind v .componentData tag Dataset.readXml :=
  map (ComponentData.blind hi) _

theorem ModelParameters.blind {tag : String} (hi : tag ∈ ignoring) : Blind v .modelParameters tag ModelParameters.readXml :=
  struct_ignore
    (.cons .approach (by cases v <;> decide +kernel) (arm (ModelParametersApproach.blind (by decide))) <|
      .cons .string (by cases v <;> decide +kernel) (arm (leaf_text readSimple_local rfl (by decide +kernel))) <|
      .cons .string (by cases v <;> decide +kernel) (arm (leaf_text readSimple_local rfl (by decide +kernel))) <|
      .cons .string (by cases v <;> decide +kernel) (arm (leaf_text readSimple_local rfl (by decide +kernel))) <|
      .cons .datasets (by cases v <;> decide +kernel) (arm (list_fail (t' := .componentData) (by cases v <;> decide +kernel) (Dataset.blind (by decide)) (by decide +kernel))) <|
      .cons .mlInputs (by cases v <;> decide +kernel) (arm (list_ignore (t' := .mlParameter) (by cases v <;> decide +kernel) (MLParameter.blind (by decide)) (by decide) (by cases v <;> decide +kernel))) <|
      .cons .mlOutputs (by cases v <;> decide +kernel) (arm (list_ignore (t' := .mlParameter) (by cases v <;> decide +kernel) (MLParameter.blind (by decide)) (by decide) (by cases v <;> decide +kernel))) <|
      .nil) hi ["approach", "task", "architectureFamily", "modelArchitecture", "datasets", "inputs", "outputs"] rfl (by cases v <;> decide +kernel)

theorem ConfidenceInterval.blind {tag : String} (hi : tag ∈ ignoring) : Blind v .confidenceInterval tag ConfidenceInterval.readXml :=
  struct_ignore
    (.cons .string (by cases v <;> decide +kernel) (arm (leaf_text readSimple_local rfl (by decide +kernel))) <|
      .cons .string (by cases v <;> decide +kernel) (arm (leaf_text readSimple_local rfl (by decide +kernel))) <|
      .nil) hi ["lowerBound", "upperBound"] rfl (by cases v <;> decide +kernel)

theorem PerformanceMetric.blind {tag : String} (hi : tag ∈ ignoring) : Blind v .performanceMetric tag PerformanceMetric.readXml :=
  struct_ignore
    (.cons .string (by cases v <;> decide +kernel) (arm (leaf_text readSimple_local rfl (by decide +kernel))) <|
      .cons .string (by cases v <;> decide +kernel) (arm (leaf_text readSimple_local rfl (by decide +kernel))) <|
      .cons .string (by cases v <;> decide +kernel) (arm (leaf_text readSimple_local rfl (by decide +kernel))) <|
      .cons .confidenceInterval (by cases v <;> decide +kernel) (arm (ConfidenceInterval.blind (by decide))) <|
      .nil) hi ["type", "value", "slice", "confidenceInterval"] rfl (by cases v <;> decide +kernel)

theorem QuantitativeAnalysis.blind {tag : String} (hi : tag ∈ ignoring) : Blind v .quantitativeAnalysis tag QuantitativeAnalysis.readXml :=
  struct_ignore
    (.cons .performanceMetrics (by cases v <;> decide +kernel) (arm (list_ignore (t' := .performanceMetric) (by cases v <;> decide +kernel) (PerformanceMetric.blind (by decide)) (by decide) (by cases v <;> decide +kernel))) <|
      .cons .graphics (by cases v <;> decide +kernel) (arm (GraphicsCollection.blind (by decide))) <|
      .nil) hi ["performanceMetrics", "graphics"] rfl (by cases v <;> decide +kernel)

theorem VulnerabilityProofOfConcept.blind {tag : String} (hi : tag ∈ ignoring) : Blind v .proofOfConcept tag VulnerabilityProofOfConcept.readXml :=
  struct_ignore
    (.cons .string (by cases v <;> decide +kernel) (arm (leaf_text readSimple_local rfl (by decide +kernel))) <|
      .cons .string (by cases v <;> decide +kernel) (arm (leaf_text readSimple_local rfl (by decide +kernel))) <|
      .cons .supportingMaterial (by cases v <;> decide +kernel) (arm (list_fail (t' := .attachment) (by cases v <;> decide +kernel) (leaf_text (Attachment.xml_local (by decide)) rfl (by decide +kernel)) (by decide +kernel))) <|
      .nil) hi ["reproductionSteps", "environment", "supportingMaterial"] rfl (by cases v <;> decide +kernel)

theorem ModelCard.blind {tag : String} (hi : tag ∈ ignoring) : Blind v .modelCard tag ModelCard.readXml := by
  have ha : ArmsBlind v .modelCard ModelCard.arms :=
    .cons .modelParameters (by cases v <;> decide +kernel) (arm (ModelParameters.blind (by decide))) <|
      .cons .quantitativeAnalysis (by cases v <;> decide +kernel) (arm (QuantitativeAnalysis.blind (by decide))) .nil
  have hnone : ∀ name, ["modelParameters", "quantitativeAnalysis"].contains name = false →
      ModelCard.arms.lookup name = none := by
    intro name h
    simp only [List.contains_cons, List.contains_nil, Bool.or_false, Bool.or_eq_false_iff] at h
    simp only [ModelCard.arms, List.lookup, h.1, h.2]
  have h1 : ((ElementType.modelCard.items v).all fun p =>
      ["modelParameters", "quantitativeAnalysis"].contains p.1 || ModelCard.passed.contains p.2) = true := by
    cases v <;> decide +kernel
  have h2 : (ModelCard.passed.all fun t => (t.items v).all fun p =>
      !["modelParameters", "quantitativeAnalysis"].contains p.1 && ModelCard.passed.contains p.2) = true := by
    cases v <;> decide +kernel
  refine struct_on (fun t => t = .modelCard ∨ t ∈ ModelCard.passed) ha.vocab ha.locals (fun _ => hi) (.inl rfl) ?_
  rintro t (rfl | ht)
  · refine ⟨fun _ => nofun, fun name t' h => ?_⟩
    rcases ha.lookup name with hn | ⟨act, g1, g2⟩
    · refine .inr ⟨hn, fun _ => .inr ?_⟩
      have := List.all_eq_true.mp h1 _ (mem_of_lookup h)
      simp only [Bool.or_eq_true] at this
      rcases this with this | this
      · exact absurd hn (lookup_names (names := ["modelParameters", "quantitativeAnalysis"]) rfl (by simpa using this))
      · simpa using this
    · exact .inl ⟨act, g1, g2 t' h⟩
  · refine ⟨fun _ => nofun, fun name t' h => .inr ?_⟩
    have := List.all_eq_true.mp (List.all_eq_true.mp h2 t ht) _ (mem_of_lookup h)
    simp only [Bool.and_eq_true, Bool.not_eq_true'] at this
    exact ⟨hnone name this.1, fun _ => .inr (by simpa using this.2)⟩

theorem DataClassification.blind {tag : String} : Blind v .classification tag DataClassification.readXml := leaf_text (DataClassification.xml_local) rfl (by decide +kernel)

theorem ServiceData.blind {tag : String} (hi : tag ∈ ignoring) : Blind v .dataflow tag ServiceData.readXml :=
  struct_ignore
    (.cons .classification (by cases v <;> decide +kernel) (arm (leaf_text DataClassification.xml_local rfl (by decide +kernel))) <|
      .cons .governance (by cases v <;> decide +kernel) (arm (DataGovernance.blind (by decide))) <|
      .cons .urls (by cases v <;> decide +kernel) (arm (list_fail (t' := .string) (by cases v <;> decide +kernel) (leaf_text readSimple_local rfl (by decide +kernel)) (by decide +kernel))) <|
      .cons .urls (by cases v <;> decide +kernel) (arm (list_fail (t' := .string) (by cases v <;> decide +kernel) (leaf_text readSimple_local rfl (by decide +kernel)) (by decide +kernel))) <|
      .nil) hi ["classification", "governance", "source", "destination"] rfl (by cases v <;> decide +kernel)

theorem ServiceDataChoice.blind {tag : String} (hi : tag ∈ ignoring) : Blind v .serviceData tag (ServiceDataChoice.readXml v) :=
  struct_ignore
    (.append (.cons .classification (by cases v <;> decide +kernel) (arm (leaf_text DataClassification.xml_local rfl (by decide +kernel))) <|
      .nil) <|
      .since15 <|
      .cons .dataflow (by cases v <;> decide +kernel) (arm (ServiceData.blind (by decide))) <|
      .nil) hi (["classification"] ++ since15 v ["dataflow"] []) (by cases v <;> rfl) (by cases v <;> decide +kernel)

theorem Service.blindWith {sub : XElem Service} (hsub : ∀ {tag}, Blind v .service tag sub) {tag : String} : Blind v .service tag (Service.readXmlWith sub v) :=
  struct_skip
    (.append (.append (.cons .organizationalEntity (by cases v <;> decide +kernel) (arm OrganizationalEntity.blind) <|
      .cons .string (by cases v <;> decide +kernel) (arm (leaf_text readSimple_local rfl (by decide +kernel))) <|
      .cons .string (by cases v <;> decide +kernel) (arm (leaf_text readSimple_local rfl (by decide +kernel))) <|
      .cons .string (by cases v <;> decide +kernel) (arm (leaf_text readSimple_local rfl (by decide +kernel))) <|
      .cons .string (by cases v <;> decide +kernel) (arm (leaf_text readSimple_local rfl (by decide +kernel))) <|
      .cons .endpoints (by cases v <;> decide +kernel) (arm (list_fail (t' := .string) (by cases v <;> decide +kernel) (leaf_text readSimple_local rfl (by decide +kernel)) (by decide +kernel))) <|
      .cons .boolean (by cases v <;> decide +kernel) (arm (leaf_text readBool_local rfl (by decide +kernel))) <|
      .cons .boolean (by cases v <;> decide +kernel) (arm (leaf_text readBool_local rfl (by decide +kernel))) <|
      .cons .serviceData (by cases v <;> decide +kernel) (arm (ServiceDataChoice.blind (by decide))) <|
      .cons .licenses (by cases v <;> decide +kernel) (arm Licenses.blind) <|
      .cons .externalReferences (by cases v <;> decide +kernel) (arm (list_fail (t' := .externalReference) (by cases v <;> decide +kernel) ExternalReference.blind (by decide +kernel))) <|
      .cons .properties (by cases v <;> decide +kernel) (arm (list_skip (t' := .property) (by cases v <;> decide +kernel) (leaf_text Property.xml_local rfl (by decide +kernel)))) <|
      .cons .services (by cases v <;> decide +kernel) (arm (list_skip (t' := .service) (by cases v <;> decide +kernel) hsub)) <|
      .nil) <|
      .since14 <|
      .other (by cases v <;> decide +kernel) (arm_local Signature.xml_local _) <|
      .nil) <|
      .since15 <|
      .cons .string (by cases v <;> decide +kernel) (arm (leaf_text readSimple_local rfl (by decide +kernel))) <|
      .nil)

theorem Service.blindN : ∀ n {tag : String}, Blind v .service tag (Service.readXmlN v n)
  | 0, _ => ⟨Service.xml_localN v, fun _ _ _ _ _ _ _ _ _ => rfl⟩
  | n + 1, _ => Service.blindWith (Service.blindN n)

theorem Service.blind {tag : String} : Blind v .service tag (Service.readXml v) := Service.blindN _

end Cdx.Foreign
