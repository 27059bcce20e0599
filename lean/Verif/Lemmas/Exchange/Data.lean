import Verif.Lemmas.Exchange.Parts

set_option linter.unusedSectionVars false
set_option linter.unusedVariables false

/-!
# The order of child elements: data, model cards and services

Generated by a script from the arms of the readers and the table of the format.
-/

namespace Cdx.Exchange

open Cdx.Spec

variable {v : SpecVersion} {d : Nat} [F32Format] [ReadLimit]

variable {α : Type}

theorem stable_datasets {r : XElem α} (hr : Takes v d r .componentData) (h : Stable v d r .componentData) :
    Stable v d (readList "dataset" r) .datasets := by
  have hs : Stable v (d + 1) (readStruct .fail (fun _ _ => .ok ()) ([] : List α)
      [("dataset", arm r fun x (l : List α) => l ++ [x])] fun _ _ l => .ok l) .datasets := by
    refine stable_struct_miss rfl
      (.cons .componentData (by cases v <;> decide +kernel) (armHas hr h) .nil) ?_
      (allComm_cons oneComm_nil allComm_nil)
    intro attrs content hok x hx name hn
    have := hok.items x hx name hn
    have e1 : (ElementType.datasets.items v).map (·.1) = ["dataset", "ref"] := by cases v <;> rfl
    rw [e1] at this
    simp only [List.mem_cons, List.not_mem_nil, or_false] at this
    rcases this with rfl | rfl
    · exact .inr (by simp)
    · exact absurd hn (hok.2.2.2.2.2.2.2.2 rfl x hx)
  have e : ∀ n attrs evs, readList "dataset" r n attrs evs = readStruct .fail (fun _ _ => .ok ()) ([] : List α)
      [("dataset", arm r fun x (l : List α) => l ++ [x])] (fun _ _ l => .ok l) n attrs evs := by
    intro n attrs evs
    simp only [readStruct, readList, readListWith, bind, Except.bind]
    split <;> rename_i heq <;> simp [heq]
  intro tag n attrs ns c c' hn hc hd he x hx rest
  rw [e]
  exact hs tag n attrs ns c c' hn hc (by omega) he x (fun rest => by rw [← e]; exact hx rest) rest

theorem DataGovernanceResponsibleParty.stable (H : DecimalsParse) : Stable v d DataGovernanceResponsibleParty.readXml .responsibleParty :=
  stable_struct ["organization", "contact"] rfl
    (.cons .organizationalEntity (by cases v <;> decide +kernel) (armHas (OrganizationalEntity.takes H) (OrganizationalEntity.stable H)) <|
      .cons .organizationalContact (by cases v <;> decide +kernel) (armHas (OrganizationalContact.takes H) (OrganizationalContact.stable H)) <|
      .nil)
    rfl (.inr (by cases v <;> decide +kernel))
    (by all_comm)

theorem DataGovernance.stable (H : DecimalsParse) : Stable v d DataGovernance.readXml .governance :=
  stable_struct ["owners", "custodians", "stewards"] rfl
    (.cons .owners (by cases v <;> decide +kernel) (armHas (takes_list (t' := .responsibleParty) rfl (by cases v <;> rfl) (DataGovernanceResponsibleParty.takes H)) (stable_list (t' := .responsibleParty) rfl (by cases v <;> rfl) (DataGovernanceResponsibleParty.takes H) (DataGovernanceResponsibleParty.stable H))) <|
      .cons .custodians (by cases v <;> decide +kernel) (armHas (takes_list (t' := .responsibleParty) rfl (by cases v <;> rfl) (DataGovernanceResponsibleParty.takes H)) (stable_list (t' := .responsibleParty) rfl (by cases v <;> rfl) (DataGovernanceResponsibleParty.takes H) (DataGovernanceResponsibleParty.stable H))) <|
      .cons .stewards (by cases v <;> decide +kernel) (armHas (takes_list (t' := .responsibleParty) rfl (by cases v <;> rfl) (DataGovernanceResponsibleParty.takes H)) (stable_list (t' := .responsibleParty) rfl (by cases v <;> rfl) (DataGovernanceResponsibleParty.takes H) (DataGovernanceResponsibleParty.stable H))) <|
      .nil)
    rfl (.inr (by cases v <;> decide +kernel))
    (by all_comm)

theorem Graphic.stable (H : DecimalsParse) : Stable v d Graphic.readXml .graphic :=
  stable_struct ["name", "image"] rfl
    (.cons .string (by cases v <;> decide +kernel) (armHas (takes_simple rfl) (stable_text rfl)) <|
      .cons .attachment (by cases v <;> decide +kernel) (armHas (Attachment.takes H) (stable_text rfl)) <|
      .nil)
    rfl (.inr (by cases v <;> decide +kernel))
    (by all_comm)

theorem GraphicsCollection.stable (H : DecimalsParse) : Stable v d GraphicsCollection.readXml .graphics :=
  stable_struct ["description", "collection"] rfl
    (.cons .string (by cases v <;> decide +kernel) (armHas (takes_simple rfl) (stable_text rfl)) <|
      .cons .graphicCollection (by cases v <;> decide +kernel) (armHas (takes_list (t' := .graphic) rfl (by cases v <;> rfl) (Graphic.takes H)) (stable_list (t' := .graphic) rfl (by cases v <;> rfl) (Graphic.takes H) (Graphic.stable H))) <|
      .nil)
    rfl (.inr (by cases v <;> decide +kernel))
    (by all_comm)

theorem DataContents.stable (H : DecimalsParse) : Stable v d DataContents.readXml .dataContents :=
  stable_struct ["attachment", "url", "properties"] rfl
    (.cons .attachment (by cases v <;> decide +kernel) (armHas (Attachment.takes H) (stable_text rfl)) <|
      .cons .string (by cases v <;> decide +kernel) (armHas (takes_simple rfl) (stable_text rfl)) <|
      .cons .properties (by cases v <;> decide +kernel) (armHas (takes_list (t' := .property) rfl (by cases v <;> rfl) (Property.takes H)) (stable_list (t' := .property) rfl (by cases v <;> rfl) (Property.takes H) (stable_text rfl))) <|
      .nil)
    rfl (.inr (by cases v <;> decide +kernel))
    (by all_comm)

theorem ComponentData.stable (H : DecimalsParse) : Stable v d ComponentData.readXml .componentData :=
  stable_struct ["type", "name", "contents", "classification", "sensitiveData", "graphics", "description", "governance"] rfl
    (.cons .string (by cases v <;> decide +kernel) (armHas (takes_map (takes_simple rfl) _) (stable_text rfl)) <|
      .cons .string (by cases v <;> decide +kernel) (armHas (takes_simple rfl) (stable_text rfl)) <|
      .cons .dataContents (by cases v <;> decide +kernel) (armHas (DataContents.takes H) (DataContents.stable H)) <|
      .cons .string (by cases v <;> decide +kernel) (armHas (takes_simple rfl) (stable_text rfl)) <|
      .cons .string (by cases v <;> decide +kernel) (armHas (takes_simple rfl) (stable_text rfl)) <|
      .cons .graphics (by cases v <;> decide +kernel) (armHas (GraphicsCollection.takes H) (GraphicsCollection.stable H)) <|
      .cons .string (by cases v <;> decide +kernel) (armHas (takes_simple rfl) (stable_text rfl)) <|
      .cons .governance (by cases v <;> decide +kernel) (armHas (DataGovernance.takes H) (DataGovernance.stable H)) <|
      .nil)
    rfl (.inr (by cases v <;> decide +kernel))
    (by all_comm)

theorem ModelParametersApproach.stable (H : DecimalsParse) : Stable v d ModelParametersApproach.readXml .approach :=
  stable_struct ["type"] rfl
    (.cons .string (by cases v <;> decide +kernel) (armHas (takes_map (takes_simple rfl) _) (stable_text rfl)) <|
      .nil)
    rfl (.inr (by cases v <;> decide +kernel))
    (by all_comm)

theorem MLParameter.stable (H : DecimalsParse) : Stable v d MLParameter.readXml .mlParameter :=
  stable_struct ["format"] rfl
    (.cons .string (by cases v <;> decide +kernel) (armHas (takes_simple rfl) (stable_text rfl)) <|
      .nil)
    rfl (.inr (by cases v <;> decide +kernel))
    (by all_comm)

theorem Dataset.stable (H : DecimalsParse) : Stable v d Dataset.readXml .componentData :=
  stable_map (ComponentData.takes H) (ComponentData.stable H) _

theorem ModelParameters.stable (H : DecimalsParse) : Stable v d ModelParameters.readXml .modelParameters :=
  stable_struct ["approach", "task", "architectureFamily", "modelArchitecture", "datasets", "inputs", "outputs"] rfl
    (.cons .approach (by cases v <;> decide +kernel) (armHas (ModelParametersApproach.takes H) (ModelParametersApproach.stable H)) <|
      .cons .string (by cases v <;> decide +kernel) (armHas (takes_simple rfl) (stable_text rfl)) <|
      .cons .string (by cases v <;> decide +kernel) (armHas (takes_simple rfl) (stable_text rfl)) <|
      .cons .string (by cases v <;> decide +kernel) (armHas (takes_simple rfl) (stable_text rfl)) <|
      .cons .datasets (by cases v <;> decide +kernel) (armHas (takes_datasets (Dataset.takes H)) (stable_datasets (Dataset.takes H) (Dataset.stable H))) <|
      .cons .mlInputs (by cases v <;> decide +kernel) (armHas (takes_list (t' := .mlParameter) rfl (by cases v <;> rfl) (MLParameter.takes H)) (stable_list (t' := .mlParameter) rfl (by cases v <;> rfl) (MLParameter.takes H) (MLParameter.stable H))) <|
      .cons .mlOutputs (by cases v <;> decide +kernel) (armHas (takes_list (t' := .mlParameter) rfl (by cases v <;> rfl) (MLParameter.takes H)) (stable_list (t' := .mlParameter) rfl (by cases v <;> rfl) (MLParameter.takes H) (MLParameter.stable H))) <|
      .nil)
    rfl (.inr (by cases v <;> decide +kernel))
    (by all_comm)

theorem ConfidenceInterval.stable (H : DecimalsParse) : Stable v d ConfidenceInterval.readXml .confidenceInterval :=
  stable_struct ["lowerBound", "upperBound"] rfl
    (.cons .string (by cases v <;> decide +kernel) (armHas (takes_simple rfl) (stable_text rfl)) <|
      .cons .string (by cases v <;> decide +kernel) (armHas (takes_simple rfl) (stable_text rfl)) <|
      .nil)
    rfl (.inr (by cases v <;> decide +kernel))
    (by all_comm)

theorem PerformanceMetric.stable (H : DecimalsParse) : Stable v d PerformanceMetric.readXml .performanceMetric :=
  stable_struct ["type", "value", "slice", "confidenceInterval"] rfl
    (.cons .string (by cases v <;> decide +kernel) (armHas (takes_simple rfl) (stable_text rfl)) <|
      .cons .string (by cases v <;> decide +kernel) (armHas (takes_simple rfl) (stable_text rfl)) <|
      .cons .string (by cases v <;> decide +kernel) (armHas (takes_simple rfl) (stable_text rfl)) <|
      .cons .confidenceInterval (by cases v <;> decide +kernel) (armHas (ConfidenceInterval.takes H) (ConfidenceInterval.stable H)) <|
      .nil)
    rfl (.inr (by cases v <;> decide +kernel))
    (by all_comm)

theorem QuantitativeAnalysis.stable (H : DecimalsParse) : Stable v d QuantitativeAnalysis.readXml .quantitativeAnalysis :=
  stable_struct ["performanceMetrics", "graphics"] rfl
    (.cons .performanceMetrics (by cases v <;> decide +kernel) (armHas (takes_list (t' := .performanceMetric) rfl (by cases v <;> rfl) (PerformanceMetric.takes H)) (stable_list (t' := .performanceMetric) rfl (by cases v <;> rfl) (PerformanceMetric.takes H) (PerformanceMetric.stable H))) <|
      .cons .graphics (by cases v <;> decide +kernel) (armHas (GraphicsCollection.takes H) (GraphicsCollection.stable H)) <|
      .nil)
    rfl (.inr (by cases v <;> decide +kernel))
    (by all_comm)

theorem VulnerabilityProofOfConcept.stable (H : DecimalsParse) : Stable v d VulnerabilityProofOfConcept.readXml .proofOfConcept :=
  stable_struct ["reproductionSteps", "environment", "supportingMaterial"] rfl
    (.cons .string (by cases v <;> decide +kernel) (armHas (takes_simple rfl) (stable_text rfl)) <|
      .cons .string (by cases v <;> decide +kernel) (armHas (takes_simple rfl) (stable_text rfl)) <|
      .cons .supportingMaterial (by cases v <;> decide +kernel) (armHas (takes_list (t' := .attachment) rfl (by cases v <;> rfl) (Attachment.takes H)) (stable_list (t' := .attachment) rfl (by cases v <;> rfl) (Attachment.takes H) (stable_text rfl))) <|
      .nil)
    rfl (.inr (by cases v <;> decide +kernel))
    (by all_comm)

theorem ModelCard.stable (H : DecimalsParse) : StableAs v d "modelCard" ModelCard.readXml .modelCard := by
  have hs : StableAs v (d + 1) "modelCard" ModelCard.readXml .modelCard := by
    refine stable_of_children (fam := famOf [("modelParameters", stores fun x (s : ModelCard.Vars) =>
        { s with modelParameters := some x }), ("quantitativeAnalysis", stores fun x s =>
        { s with quantitativeAnalysis := some x })]) rfl ?_
        (famOf_comm (by all_comm))
    intro el attrs content hel hok n attrs' ns c hm t' ht' hc hd
    have hn := hok.items _ hm _ rfl
    have e1 : (ElementType.modelCard.items v).map (·.1) =
        ["modelParameters", "quantitativeAnalysis", "considerations", "properties"] := by cases v <;> rfl
    rw [e1] at hn
    have hpass : ∀ t, t ∈ ModelCard.passed → ModelCard.arms.lookup n.localName = none → n.localName ≠ "modelCard" →
        ∀ k, Throughout (OkAt v) v t (.elem n attrs' ns k) →
        Effect .ignore el ModelCard.arms [.elem n attrs' ns k] some := by
      intro t ht hlook hname k h2 st rest
      rw [Throughout] at h2
      have hin := inside_names ModelCard.passed ["modelParameters", "quantitativeAnalysis", "modelCard"]
        (by cases v <;> decide +kernel) k t ht h2.1.items h2.2
      rw [XNode.eventsAll, XNode.eventsAll, List.append_nil, elem_events, ignore_start hlook,
        ignore_all k _ fun m hm => ?_, ignore_stop fun e => hname (by rw [e]; exact hel)]
      have := hin m hm
      simp only [List.mem_cons, List.not_mem_nil, or_false, not_or] at this
      refine ⟨?_, by rw [hel]; exact this.2.2⟩
      have b1 : (m == "modelParameters") = false := by simpa using this.1
      have b2 : (m == "quantitativeAnalysis") = false := by simpa using this.2.1
      simp only [ModelCard.arms, List.lookup, b1, b2]
    simp only [List.mem_cons, List.not_mem_nil, or_false] at hn
    rcases hn with hn | hn | hn | hn
    · have hk : ElementType.modelCard.child v "modelParameters" = some .modelParameters := by cases v <;> decide +kernel
      rw [hn, hk] at ht'; cases ht'
      have ha : ArmHas v d "modelParameters" (arm ModelParameters.readXml fun x (s : ModelCard.Vars) =>
        { s with modelParameters := some x }) .modelParameters _ := armHas (ModelParameters.takes H) (ModelParameters.stable H)
      obtain ⟨e, f, g1, g2⟩ := ha n attrs' ns c hn hc hd
      have hlook : ModelCard.arms.lookup n.localName = some (arm ModelParameters.readXml fun x (s : ModelCard.Vars) =>
        { s with modelParameters := some x }) := by rw [hn]; rfl
      exact ⟨e, by rw [hn]; exact f, effect_arm hlook g1, fun c' hex => effect_arm hlook (g2 c' hex)⟩
    · have hk : ElementType.modelCard.child v "quantitativeAnalysis" = some .quantitativeAnalysis := by cases v <;> decide +kernel
      rw [hn, hk] at ht'; cases ht'
      have ha : ArmHas v d "quantitativeAnalysis" (arm QuantitativeAnalysis.readXml fun x (s : ModelCard.Vars) =>
        { s with quantitativeAnalysis := some x }) .quantitativeAnalysis _ := armHas (QuantitativeAnalysis.takes H) (QuantitativeAnalysis.stable H)
      obtain ⟨e, f, g1, g2⟩ := ha n attrs' ns c hn hc hd
      have hlook : ModelCard.arms.lookup n.localName = some (arm QuantitativeAnalysis.readXml fun x (s : ModelCard.Vars) =>
        { s with quantitativeAnalysis := some x }) := by rw [hn]; rfl
      exact ⟨e, by rw [hn]; exact f, effect_arm hlook g1, fun c' hex => effect_arm hlook (g2 c' hex)⟩
    · have hk : ElementType.modelCard.child v "considerations" = some .considerations := by cases v <;> decide +kernel
      rw [hn, hk] at ht'; cases ht'
      have hp := hpass .considerations (by decide) (by rw [hn]; rfl) (by rw [hn]; decide)
      exact ⟨some, by rw [hn]; rfl, hp c hc, fun c' hex => hp c' (throughout_exchanged hex hc)⟩
    · have hk : ElementType.modelCard.child v "properties" = some .properties := by cases v <;> decide +kernel
      rw [hn, hk] at ht'; cases ht'
      have hp := hpass .properties (by decide) (by rw [hn]; rfl) (by rw [hn]; decide)
      exact ⟨some, by rw [hn]; rfl, hp c hc, fun c' hex => hp c' (throughout_exchanged hex hc)⟩
  exact fun n attrs ns c c' hn hc hd => hs n attrs ns c c' hn hc (by omega)

theorem DataClassification.stable (H : DecimalsParse) : Stable v d DataClassification.readXml .classification := stable_text rfl

theorem ServiceData.stable (H : DecimalsParse) : Stable v d ServiceData.readXml .dataflow :=
  stable_struct ["classification", "governance", "source", "destination"] rfl
    (.cons .classification (by cases v <;> decide +kernel) (armHas (DataClassification.takes H) (stable_text rfl)) <|
      .cons .governance (by cases v <;> decide +kernel) (armHas (DataGovernance.takes H) (DataGovernance.stable H)) <|
      .cons .urls (by cases v <;> decide +kernel) (armHas (takes_list (t' := .string) rfl (by cases v <;> rfl) (takes_simple rfl)) (stable_list (t' := .string) rfl (by cases v <;> rfl) (takes_simple rfl) (stable_text rfl))) <|
      .cons .urls (by cases v <;> decide +kernel) (armHas (takes_list (t' := .string) rfl (by cases v <;> rfl) (takes_simple rfl)) (stable_list (t' := .string) rfl (by cases v <;> rfl) (takes_simple rfl) (stable_text rfl))) <|
      .nil)
    rfl (.inr (by cases v <;> decide +kernel))
    (by all_comm)

theorem ServiceDataChoice.stable (H : DecimalsParse) : Stable v d (ServiceDataChoice.readXml v) .serviceData :=
  stable_struct (["classification"] ++ since15 v ["dataflow"] []) rfl
    (.append (.cons .classification (by cases v <;> decide +kernel) (armHas (DataClassification.takes H) (stable_text rfl)) <|
      .nil) <|
      .since15 <|
      .cons .dataflow (by cases v <;> decide +kernel) (armHas (ServiceData.takes H) (ServiceData.stable H)) <|
      .nil)
    (by cases v <;> rfl) (.inr (by cases v <;> decide +kernel))
    (allComm_sub (by all_comm) ((List.Sublist.refl _).append since15_sublist))

theorem Service.stableWith (H : DecimalsParse) {sub : XElem Service} (hsub : Takes v d sub .service) (hsub' : Stable v d sub .service) : Stable v (d + 1) (Service.readXmlWith sub v) .service :=
  stable_struct_miss rfl
    (.append (.append (.cons .organizationalEntity (by cases v <;> decide +kernel) (armHas (OrganizationalEntity.takes H) (OrganizationalEntity.stable H)) <|
      .cons .string (by cases v <;> decide +kernel) (armHas (takes_simple rfl) (stable_text rfl)) <|
      .cons .string (by cases v <;> decide +kernel) (armHas (takes_simple rfl) (stable_text rfl)) <|
      .cons .string (by cases v <;> decide +kernel) (armHas (takes_simple rfl) (stable_text rfl)) <|
      .cons .string (by cases v <;> decide +kernel) (armHas (takes_simple rfl) (stable_text rfl)) <|
      .cons .endpoints (by cases v <;> decide +kernel) (armHas (takes_list (t' := .string) rfl (by cases v <;> rfl) (takes_simple rfl)) (stable_list (t' := .string) rfl (by cases v <;> rfl) (takes_simple rfl) (stable_text rfl))) <|
      .cons .boolean (by cases v <;> decide +kernel) (armHas (takes_bool rfl) (stable_text rfl)) <|
      .cons .boolean (by cases v <;> decide +kernel) (armHas (takes_bool rfl) (stable_text rfl)) <|
      .cons .serviceData (by cases v <;> decide +kernel) (armHas (ServiceDataChoice.takes H) (ServiceDataChoice.stable H)) <|
      .cons .licenses (by cases v <;> decide +kernel) (armHas (Licenses.takes H) (Licenses.stable H)) <|
      .cons .externalReferences (by cases v <;> decide +kernel) (armHas (takes_list (t' := .externalReference) rfl (by cases v <;> rfl) (ExternalReference.takes H)) (stable_list (t' := .externalReference) rfl (by cases v <;> rfl) (ExternalReference.takes H) (ExternalReference.stable H))) <|
      .cons .properties (by cases v <;> decide +kernel) (armHas (takes_list (t' := .property) rfl (by cases v <;> rfl) (Property.takes H)) (stable_list (t' := .property) rfl (by cases v <;> rfl) (Property.takes H) (stable_text rfl))) <|
      .cons .services (by cases v <;> decide +kernel) (armHas (takes_list (t' := .service) rfl (by cases v <;> rfl) (hsub)) (stable_list (t' := .service) rfl (by cases v <;> rfl) (hsub) (hsub'))) <|
      .nil) <|
      .since14 <|
      .other (by cases v <;> decide +kernel) <|
      .nil) <|
      .since15 <|
      .cons .string (by cases v <;> decide +kernel) (armHas (takes_simple rfl) (stable_text rfl)) <|
      .nil)
    (fun _ _ _ _ _ _ _ => .inl rfl)
    (allComm_sub (by all_comm) (((List.Sublist.refl _).append since14_sublist).append since15_sublist))

theorem Service.stableN (H : DecimalsParse) : ∀ n, Stable v n (Service.readXmlN v n) .service
  | 0 => fun _ _ _ _ _ _ _ _ h => absurd h (Nat.not_lt_zero _)
  | n + 1 => Service.stableWith H (Service.takesN H n) (Service.stableN H n)

theorem Service.stable (H : DecimalsParse) (hd : d ≤ ReadLimit.limit) : Stable v d (Service.readXml v) .service :=
  (Service.stableN H ReadLimit.limit).mono hd

end Cdx.Exchange
