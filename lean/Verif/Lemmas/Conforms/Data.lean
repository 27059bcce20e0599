import Verif.Lemmas.Conforms.Small

/-!
# Data, model cards and evidence conform to the JSON schema
-/

namespace Cdx

open Spec

set_option linter.unusedVariables false
set_option linter.unusedSimpArgs false
set_option maxRecDepth 8000

variable {F : Formats} {v : SpecVersion}

@[schema_fits]
theorem confidence_number {x : F32} (h : (Elem.confidence x).Sound F v) :
    (Keyword.type .number).Holds F (Json.ofF32 x) := by
  have h : _ ∧ _ := rule_of_sound h
  rw [Json.ofF32, if_pos h.1]
  trivial

@[schema_fits]
theorem confidence_minimum {x : F32} (h : (Elem.confidence x).Sound F v) :
    (Keyword.minimum 0).Holds F (Json.ofF32 x) := by
  have h : _ ∧ _ ∧ _ := rule_of_sound h
  rw [Json.ofF32, if_pos h.1, Keyword.Holds]
  exact h.2.1

@[schema_fits]
theorem confidence_maximum {x : F32} (h : (Elem.confidence x).Sound F v) :
    (Keyword.maximum 1).Holds F (Json.ofF32 x) := by
  have h : _ ∧ _ ∧ _ := rule_of_sound h
  rw [Json.ofF32, if_pos h.1, Keyword.Holds]
  exact h.2.2

@[schema_fits]
theorem DataGovernanceResponsibleParty.fits {x : DataGovernanceResponsibleParty}
    (h : (Elem.dataGovernanceResponsibleParty x).Sound F v) :
    Fits F v "dataGovernanceResponsibleParty" x.toJson := (rule_of_sound h : False).elim

@[schema_fits]
theorem v1_3_ne_v1_5 : SpecVersion.v1_3 ≠ .v1_5 := by simp

@[schema_fits]
theorem v1_4_ne_v1_5 : SpecVersion.v1_4 ≠ .v1_5 := by simp

@[schema_fits]
theorem v1_4_ne_v1_3 : SpecVersion.v1_4 ≠ .v1_3 := by simp

@[schema_fits]
theorem v1_5_ne_v1_3 : SpecVersion.v1_5 ≠ .v1_3 := by simp

@[schema_fits]
theorem licenses_mem {l : Licenses} {c : LicenseChoice} (h : (Elem.licenses l).Sound F v) (hc : c ∈ l) :
    (Elem.licenseChoice c).Sound F v := by
  have h := (sound_licenses.mp h).2
  sound_simp at h
  exact h _ hc

theorem Considerations.toJson_mk (x : Considerations) : x.toJson = Json.mk [] := rfl

@[schema_fits]
theorem DataFlowType.named {x : DataFlowType} (h : (Elem.dataFlowType x).Sound F v) :
    OneOf ["inbound", "outbound", "bi-directional", "unknown"] x.display := by
  have h := (sound_dataFlowType.mp h).1
  enum_close h x [DataFlowType.display]

@[schema_fits]
theorem ApproachType.named {x : ApproachType} (h : (Elem.approachType x).Sound F v) :
    OneOf ["supervised", "unsupervised", "reinforcement-learning", "semi-supervised", "self-supervised"] x.display := by
  have h := (sound_approachType.mp h).1
  enum_close h x [ApproachType.display]

@[schema_fits]
theorem ComponentDataType.named {x : ComponentDataType} (h : (Elem.componentDataType x).Sound F v) :
    OneOf ["source-code", "configuration", "dataset", "definition", "other"] x.display := by
  have h := (sound_componentDataType.mp h).1
  enum_close h x [ComponentDataType.display]

@[schema_fits]
theorem IdentityField.named {x : IdentityField} (h : (Elem.identityField x).Sound F v) :
    OneOf ["group", "name", "version", "purl", "cpe", "swid", "hash"] x.display := by
  have h := (sound_identityField.mp h).1
  enum_close h x [IdentityField.display]

@[schema_fits]
theorem Graphic.fits {x : Graphic} (h : (Elem.graphic x).Sound F .v1_5) :
    Fits F .v1_5 "graphic" (Graphic.toJson x) := by
  have h := sound_graphic.mp h
  refine fits_ref (s := Schema15.graphic) rfl ?_
  schema_simp [Schema15.graphic, Graphic.toJson]
  fits_close h

@[schema_fits]
theorem GraphicsCollection.fits {x : GraphicsCollection} (h : (Elem.graphicsCollection x).Sound F .v1_5) :
    Fits F .v1_5 "graphicsCollection" (GraphicsCollection.toJson x) := by
  have h := sound_graphicsCollection.mp h
  refine fits_ref (s := Schema15.graphicsCollection) rfl ?_
  schema_simp [Schema15.graphicsCollection, GraphicsCollection.toJson]
  fits_close h

@[schema_fits]
theorem DataGovernance.fits {x : DataGovernance} (h : (Elem.dataGovernance x).Sound F .v1_5) :
    Fits F .v1_5 "dataGovernance" (DataGovernance.toJson x) := by
  have h := sound_dataGovernance.mp h
  refine fits_ref (s := Schema15.dataGovernance) rfl ?_
  schema_simp [Schema15.dataGovernance, DataGovernance.toJson]
  fits_close h

@[schema_fits]
theorem dataFlow_fits {x : DataFlowType} (h : (Elem.dataFlowType x).Sound F v) (hv : v ≠ .v1_5) :
    Fits F v "dataFlow" (.str x.display) := by
  cases v
  · refine fits_ref (s := Schema13.dataFlow) rfl ?_
    schema_simp [Schema13.dataFlow]
    exact DataFlowType.named h
  · refine fits_ref (s := Schema14.dataFlow) rfl ?_
    schema_simp [Schema14.dataFlow]
    exact DataFlowType.named h
  · exact absurd rfl hv

@[schema_fits]
theorem dataFlowDirection_fits {x : DataFlowType} (h : (Elem.dataFlowType x).Sound F .v1_5) :
    Fits F .v1_5 "dataFlowDirection" (.str x.display) := by
  refine fits_ref (s := Schema15.dataFlowDirection) rfl ?_
  schema_simp [Schema15.dataFlowDirection]
  exact DataFlowType.named h

@[schema_fits]
theorem dataClassification_fits {s : String} : Fits F .v1_5 "dataClassification" (.str s) :=
  fits_ref (s := Schema15.dataClassification) rfl (.kw trivial)

@[schema_fits]
theorem ComponentData.fits {x : ComponentData} (h : (Elem.componentData x).Sound F .v1_5) :
    Fits F .v1_5 "componentData" (ComponentData.toJson x) := by
  have h := sound_componentData.mp h
  sound_all [sound_dataContents] at h
  have hs : x.sensitiveData = none := by casesm* _ ∧ _; assumption
  refine fits_ref (s := Schema15.componentData) rfl ?_
  schema_simp [Schema15.componentData, ComponentData.toJson, DataContents.toJson, hs]
  fits_close h

@[schema_fits]
theorem Dataset.valid {x : Dataset} (h : (Elem.dataset x).Sound F .v1_5) :
    Valid (schemaContext F .v1_5) (.oneOf [.ref "componentData",
          .allOf [.kw (.type .object),
            .kw (.closed ["ref"]),
            .properties [("ref", .anyOf [.ref "refLinkType",
              .ref "bomLinkElementType"])]]]) x.toJson := by
  obtain ⟨c, rfl⟩ : ∃ c, x = .component c := rule_of_sound h
  have h := (sound_dataset_component.mp h).2
  sound_simp at h
  refine valid_oneOf_two.mpr (.inl ⟨ComponentData.fits h, .allOf (.tail _ (.head _)) (.kw ?_)⟩)
  schema_simp [Dataset.toJson, ComponentData.toJson]

@[schema_fits]
theorem uri_or_of_sound {x : Uri} {P : Prop} (h : (Elem.uri x).Sound F v) : F "iri-reference" x ∨ P :=
  .inl (rule_of_sound h)

@[schema_fits]
theorem DataClassification.fits3 {x : DataClassification} (h : (Elem.dataClassification x).Sound F .v1_3) :
    Fits F .v1_3 "dataClassification" (DataClassification.toJson x) := by
  have h := sound_dataClassification.mp h
  refine fits_ref (s := Schema13.dataClassification) rfl ?_
  schema_simp [Schema13.dataClassification, DataClassification.toJson]
  fits_close h

@[schema_fits]
theorem DataClassification.fits4 {x : DataClassification} (h : (Elem.dataClassification x).Sound F .v1_4) :
    Fits F .v1_4 "dataClassification" (DataClassification.toJson x) := by
  have h := sound_dataClassification.mp h
  refine fits_ref (s := Schema14.dataClassification) rfl ?_
  schema_simp [Schema14.dataClassification, DataClassification.toJson]
  fits_close h

@[schema_fits]
theorem MLParameter.fits {x : MLParameter} : Fits F .v1_5 "inputOutputMLParameters" x.toJson := by
  refine fits_ref (s := Schema15.inputOutputMLParameters) rfl ?_
  schema_simp [Schema15.inputOutputMLParameters, MLParameter.toJson]

@[schema_fits]
theorem PerformanceMetric.fits {x : PerformanceMetric} (h : x.confidenceInterval = none) :
    Fits F .v1_5 "performanceMetric" x.toJson := by
  refine fits_ref (s := Schema15.performanceMetric) rfl ?_
  schema_simp [Schema15.performanceMetric, PerformanceMetric.toJson, h]

@[schema_fits]
theorem Copyright.fits {x : String} : Fits F v "copyright" (Copyright.toJson x) := by
  cases v
  · refine fits_ref (s := Schema13.copyright) rfl ?_
    schema_simp [Schema13.copyright, Copyright.toJson]
  · refine fits_ref (s := Schema14.copyright) rfl ?_
    schema_simp [Schema14.copyright, Copyright.toJson]
  · refine fits_ref (s := Schema15.copyright) rfl ?_
    schema_simp [Schema15.copyright, Copyright.toJson]

@[schema_fits]
theorem ComponentEvidence.fits {x : ComponentEvidence} (h : (Elem.componentEvidence x).Sound F v) :
    Fits F v "componentEvidence" (ComponentEvidence.toJson v x) := by
  have h := sound_componentEvidence.mp h
  sound_all [sound_occurrence, sound_callstack, sound_identity] at h
  cases v
  · refine fits_ref (s := Schema13.componentEvidence) rfl ?_
    schema_simp [Schema13.componentEvidence, ComponentEvidence.toJson, Licenses.toJson, Occurrence.toJson, Callstack.toJson, Frame.toJson, Identity.toJson, Method.toJson, techniques]
    fits_close h
  · refine fits_ref (s := Schema14.componentEvidence) rfl ?_
    schema_simp [Schema14.componentEvidence, ComponentEvidence.toJson, Licenses.toJson, Occurrence.toJson, Callstack.toJson, Frame.toJson, Identity.toJson, Method.toJson, techniques]
    fits_close h
  · refine fits_ref (s := Schema15.componentEvidence) rfl ?_
    schema_simp [Schema15.componentEvidence, ComponentEvidence.toJson, Licenses.toJson, Occurrence.toJson, Callstack.toJson, Frame.toJson, Identity.toJson, Method.toJson, techniques]
    fits_close h

@[schema_fits]
theorem ModelCard.fits {x : ModelCard} (h : (Elem.modelCard x).Sound F .v1_5) :
    Fits F .v1_5 "modelCard" (ModelCard.toJson x) := by
  have h := sound_modelCard.mp h
  sound_all [sound_modelParameters, sound_modelParametersApproach, sound_quantitativeAnalysis] at h
  refine fits_ref (s := Schema15.modelCard) rfl ?_
  schema_simp [Schema15.modelCard, ModelCard.toJson, ModelParameters.toJson, ModelParametersApproach.toJson, QuantitativeAnalysis.toJson, Considerations.toJson_mk]
  fits_close h

@[schema_fits]
theorem ServiceData.fits {x : ServiceData} (h : (Elem.serviceData x).Sound F .v1_5) :
    Fits F .v1_5 "serviceData" (ServiceData.toJson x) := by
  have h := sound_serviceData.mp h
  sound_all [sound_dataClassification] at h
  refine fits_ref (s := Schema15.serviceData) rfl ?_
  schema_simp [Schema15.serviceData, ServiceData.toJson]
  fits_close h

end Cdx
