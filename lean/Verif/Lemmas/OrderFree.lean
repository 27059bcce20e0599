import Verif.Lemmas.Reordered
import Verif.Model.Format.Bom

/-!
# Lemmas: no reader depends on the order of the members of objects

Generated, one instance for each reader.
-/

set_option linter.unusedSectionVars false
set_option linter.unusedSimpArgs false

namespace Cdx

open Spec

section
variable [F32Format]

instance : OrderFree OrganizationalContact.ofJson where
  eq h := by
    unfold OrganizationalContact.ofJson
    exact fields_free h fun o p h => by free_fields h

instance : OrderFree OrganizationalEntity.ofJson where
  eq h := by
    unfold OrganizationalEntity.ofJson
    exact fields_free h fun o p h => by free_fields h

instance : OrderFree Property.ofJson where
  eq h := by
    unfold Property.ofJson
    exact fields_free h fun o p h => by free_fields h

instance : OrderFree Hash.ofJson where
  eq h := by
    unfold Hash.ofJson
    exact fields_free h fun o p h => by free_fields h

instance : OrderFree ExternalReference.ofJson where
  eq h := by
    unfold ExternalReference.ofJson
    exact fields_free h fun o p h => by free_fields h

instance : OrderFree IdentifiableAction.ofJson where
  eq h := by
    unfold IdentifiableAction.ofJson
    exact fields_free h fun o p h => by free_fields h

instance : OrderFree Commit.ofJson where
  eq h := by
    unfold Commit.ofJson
    exact fields_free h fun o p h => by free_fields h

instance : OrderFree AttachedText.ofJson where
  eq h := by
    unfold AttachedText.ofJson
    exact fields_free h fun o p h => by free_fields h

instance : OrderFree Diff.ofJson where
  eq h := by
    unfold Diff.ofJson
    exact fields_free h fun o p h => by free_fields h

instance : OrderFree Source.ofJson where
  eq h := by
    unfold Source.ofJson
    exact fields_free h fun o p h => by free_fields h

instance : OrderFree Issue.ofJson where
  eq h := by
    unfold Issue.ofJson
    exact fields_free h fun o p h => by free_fields h

instance : OrderFree Patch.ofJson where
  eq h := by
    unfold Patch.ofJson
    exact fields_free h fun o p h => by free_fields h

instance (sub : Json → Except String Component) (v : SpecVersion) [OrderFree sub] : OrderFree (Pedigree.ofJsonWith sub v) where
  eq h := by
    unfold Pedigree.ofJsonWith
    exact fields_free h fun o p h => by free_fields h

instance : OrderFree DataGovernanceResponsibleParty.ofJson := by
  unfold DataGovernanceResponsibleParty.ofJson
  refine tagged_free ?_
  free_variants

instance : OrderFree DataGovernance.ofJson where
  eq h := by
    unfold DataGovernance.ofJson
    exact fields_free h fun o p h => by free_fields h

instance : OrderFree Attachment.ofJson where
  eq h := by
    unfold Attachment.ofJson
    exact fields_free h fun o p h => by free_fields h

instance : OrderFree Graphic.ofJson where
  eq h := by
    unfold Graphic.ofJson
    exact fields_free h fun o p h => by free_fields h

instance : OrderFree GraphicsCollection.ofJson where
  eq h := by
    unfold GraphicsCollection.ofJson
    exact fields_free h fun o p h => by free_fields h

instance : OrderFree DataContents.ofJson where
  eq h := by
    unfold DataContents.ofJson
    exact fields_free h fun o p h => by free_fields h

instance : OrderFree ComponentData.ofJson where
  eq h := by
    unfold ComponentData.ofJson
    exact fields_free h fun o p h => by free_fields h

instance : OrderFree ModelParametersApproach.ofJson where
  eq h := by
    unfold ModelParametersApproach.ofJson
    exact fields_free h fun o p h => by free_fields h

instance : OrderFree Dataset.ofJson where
  eq h := by
    unfold Dataset.ofJson
    rw [OrderFree.eq (f := ComponentData.ofJson) h, OrderFree.eq (f := Json.string) h]

instance : OrderFree MLParameter.ofJson where
  eq h := by
    unfold MLParameter.ofJson
    exact fields_free h fun o p h => by free_fields h

instance : OrderFree ModelParameters.ofJson where
  eq h := by
    unfold ModelParameters.ofJson
    exact fields_free h fun o p h => by free_fields h

instance : OrderFree ConfidenceInterval.ofJson where
  eq h := by
    unfold ConfidenceInterval.ofJson
    exact fields_free h fun o p h => by free_fields h

instance : OrderFree PerformanceMetric.ofJson where
  eq h := by
    unfold PerformanceMetric.ofJson
    exact fields_free h fun o p h => by free_fields h

instance : OrderFree QuantitativeAnalysis.ofJson where
  eq h := by
    unfold QuantitativeAnalysis.ofJson
    exact fields_free h fun o p h => by free_fields h

instance : OrderFree Considerations.ofJson where
  eq h := by
    cases h <;> rfl

instance : OrderFree ModelCard.ofJson where
  eq h := by
    unfold ModelCard.ofJson
    exact fields_free h fun o p h => by free_fields h

instance : OrderFree Swid.ofJson where
  eq h := by
    unfold Swid.ofJson
    exact fields_free h fun o p h => by free_fields h

instance : OrderFree Copyright.ofJson where
  eq h := by
    unfold Copyright.ofJson
    exact fields_free h fun o p h => by free_fields h

instance : OrderFree Occurrence.ofJson where
  eq h := by
    unfold Occurrence.ofJson
    exact fields_free h fun o p h => by free_fields h

instance : OrderFree Frame.ofJson where
  eq h := by
    unfold Frame.ofJson
    exact fields_free h fun o p h => by free_fields h

instance : OrderFree Callstack.ofJson where
  eq h := by
    unfold Callstack.ofJson
    exact fields_free h fun o p h => by free_fields h

instance : OrderFree Method.ofJson where
  eq h := by
    unfold Method.ofJson
    exact fields_free h fun o p h => by free_fields h

instance : OrderFree Identity.ofJson where
  eq h := by
    unfold Identity.ofJson
    exact fields_free h fun o p h => by free_fields h

instance : OrderFree LicenseContact.ofJson := by
  unfold LicenseContact.ofJson
  refine tagged_free ?_
  free_variants

instance : OrderFree Licensing.ofJson where
  eq h := by
    unfold Licensing.ofJson
    exact fields_free h fun o p h => by free_fields h

instance : OrderFreeFields LicenseIdentifier.ofFields where
  eq h := by
    unfold LicenseIdentifier.ofFields
    refine flatVariant_free ?_ (by decide) h
    free_variants

instance (v : SpecVersion) : OrderFree (License.ofJson v) where
  eq h := by
    unfold License.ofJson
    exact fields_free h fun o p h => by
      rw [ofFields_free (f := LicenseIdentifier.ofFields) h]
      free_fields h

instance : OrderFree SpdxExpression.ofJson where
  eq h := by
    unfold SpdxExpression.ofJson
    exact fields_free h fun o p h => by free_fields h

instance (v : SpecVersion) : OrderFree (LicenseChoice.ofJson v) where
  eq h := by
    unfold LicenseChoice.ofJson
    have ht : OrderFree (Json.tagged [("license", fun j => (License.ofJson v j).map LicenseChoice.license)]) :=
      tagged_free (by free_variants)
    rw [ht.eq h, OrderFree.eq (f := SpdxExpression.ofJson) h]

instance (v : SpecVersion) : OrderFree (Licenses.ofJson v) := inferInstanceAs (OrderFree (Json.array (LicenseChoice.ofJson v)))

instance (v : SpecVersion) : OrderFree (ComponentEvidence.ofJson v) where
  eq h := by
    unfold ComponentEvidence.ofJson
    exact fields_free h fun o p h => by free_fields h

instance : OrderFree Algorithm.ofJson where
  eq h := by
    cases h with
    | @obj o p h1 h2 h3 h4 h5 =>
      have h : Rearranged o p := ⟨h1, h2, h3, h4, h5⟩
      match o, p, h.length with
      | [], [], _ => rfl
      | [(k, x)], [(k', y)], _ =>
        obtain rfl := h.single
        have hxy := h4 k x y (.head _) (.head _)
        cases hxy <;> first | rfl | simp only [Algorithm.ofJson]
      | _ :: _ :: _, _ :: _ :: _, _ => simp only [Algorithm.ofJson]
    | _ => rfl

instance : OrderFree Signer.ofJson where
  eq h := by
    unfold Signer.ofJson
    exact fields_free h fun o p h => by free_fields h

instance : OrderFree Signature.ofJson where
  eq h := by
    unfold Signature.ofJson
    rw [OrderFree.eq (f := Json.array Signer.ofJson) h, OrderFree.eq (f := Signer.ofJson) h]

instance (sub : Json → Except String Component) (v : SpecVersion) [OrderFree sub] : OrderFree (Component.ofJsonWith sub v) where
  eq h := by
    unfold Component.ofJsonWith
    exact fields_free h fun o p h => by free_fields h

instance (v : SpecVersion) (n : Nat) : OrderFree (Component.ofJsonN v n) := by
  induction n with
  | zero => exact ⟨fun _ => rfl⟩
  | succ n ih => exact inferInstanceAs (OrderFree (Component.ofJsonWith (Component.ofJsonN v n) v))

instance [ReadLimit] (v : SpecVersion) : OrderFree (Component.ofJson v) :=
  inferInstanceAs (OrderFree (Component.ofJsonN v ReadLimit.limit))

instance : OrderFree DataClassification.ofJson where
  eq h := by
    unfold DataClassification.ofJson
    exact fields_free h fun o p h => by free_fields h

instance : OrderFree ServiceData.ofJson where
  eq h := by
    unfold ServiceData.ofJson
    exact fields_free h fun o p h => by
      rw [OrderFree.eq (f := DataClassification.ofJson) h.obj]
      free_fields h

instance (v : SpecVersion) : OrderFree (ServiceDataChoice.ofJson v) where
  eq h := by
    unfold ServiceDataChoice.ofJson
    rw [OrderFree.eq (f := Json.array DataClassification.ofJson) h, OrderFree.eq (f := Json.array ServiceData.ofJson) h]

instance (sub : Json → Except String Service) (v : SpecVersion) [OrderFree sub] : OrderFree (Service.ofJsonWith sub v) where
  eq h := by
    unfold Service.ofJsonWith
    exact fields_free h fun o p h => by free_fields h

instance (v : SpecVersion) (n : Nat) : OrderFree (Service.ofJsonN v n) := by
  induction n with
  | zero => exact ⟨fun _ => rfl⟩
  | succ n ih => exact inferInstanceAs (OrderFree (Service.ofJsonWith (Service.ofJsonN v n) v))

instance [ReadLimit] (v : SpecVersion) : OrderFree (Service.ofJson v) :=
  inferInstanceAs (OrderFree (Service.ofJsonN v ReadLimit.limit))

instance [ReadLimit] (v : SpecVersion) : OrderFree (Annotator.ofJson v) := by
  unfold Annotator.ofJson
  refine tagged_free ?_
  free_variants

instance [ReadLimit] (v : SpecVersion) : OrderFree (Annotation.ofJson v) where
  eq h := by
    unfold Annotation.ofJson
    exact fields_free h fun o p h => by free_fields h

instance : OrderFree VulnerabilitySource.ofJson where
  eq h := by
    unfold VulnerabilitySource.ofJson
    exact fields_free h fun o p h => by free_fields h

instance : OrderFree VulnerabilityReference.ofJson where
  eq h := by
    unfold VulnerabilityReference.ofJson
    exact fields_free h fun o p h => by free_fields h

instance : OrderFree Advisory.ofJson where
  eq h := by
    unfold Advisory.ofJson
    exact fields_free h fun o p h => by free_fields h

instance : OrderFree VulnerabilityCredits.ofJson where
  eq h := by
    unfold VulnerabilityCredits.ofJson
    exact fields_free h fun o p h => by free_fields h

instance : OrderFree SpecVersion.ofJson where
  eq h := by
    cases h <;> rfl

instance : OrderFree Bom.formatOfJson where
  eq h := by
    cases h <;> rfl

instance : OrderFreeFields ResourceReference.ofFields where
  eq h := by
    unfold ResourceReference.ofFields
    refine flatUntagged_free ?_ h
    free_variants

instance : OrderFree ResourceReference.ofJson where
  eq h := by
    unfold ResourceReference.ofJson
    exact fields_free h fun o p h => OrderFreeFields.eq h

instance : OrderFree EnvironmentVar.ofJson where
  eq h := by
    cases h with
    | obj h1 h2 h3 h4 h5 =>
      have h : Rearranged _ _ := ⟨h1, h2, h3, h4, h5⟩
      simp only [EnvironmentVar.ofJson, Json.fields, bind, Except.bind, req_free h]
    | _ => rfl

instance : OrderFree Parameter.ofJson where
  eq h := by
    unfold Parameter.ofJson
    exact fields_free h fun o p h => by free_fields h

instance : OrderFreeFields RequiredInputField.ofFields where
  eq h := by
    unfold RequiredInputField.ofFields
    refine flatUntagged_free ?_ h
    free_variants

instance : OrderFree Input.ofJson where
  eq h := by
    unfold Input.ofJson
    exact fields_free h fun o p h => by
      rw [ofFields_free (f := RequiredInputField.ofFields) h]
      free_fields h

instance : OrderFreeFields RequiredOutputField.ofFields where
  eq h := by
    unfold RequiredOutputField.ofFields
    refine flatUntagged_free ?_ h
    free_variants

instance : OrderFree Output.ofJson where
  eq h := by
    unfold Output.ofJson
    exact fields_free h fun o p h => by
      rw [ofFields_free (f := RequiredOutputField.ofFields) h]
      free_fields h

instance : OrderFree Command.ofJson where
  eq h := by
    unfold Command.ofJson
    exact fields_free h fun o p h => by free_fields h

instance : OrderFree Step.ofJson where
  eq h := by
    unfold Step.ofJson
    exact fields_free h fun o p h => by free_fields h

instance : OrderFree TriggerEvent.ofJson where
  eq h := by
    unfold TriggerEvent.ofJson
    exact fields_free h fun o p h => by free_fields h

instance : OrderFree Condition.ofJson where
  eq h := by
    unfold Condition.ofJson
    exact fields_free h fun o p h => by free_fields h

instance : OrderFree Trigger.ofJson where
  eq h := by
    unfold Trigger.ofJson
    exact fields_free h fun o p h => by free_fields h

instance : OrderFree Volume.ofJson where
  eq h := by
    unfold Volume.ofJson
    exact fields_free h fun o p h => by free_fields h

instance : OrderFree Workspace.ofJson where
  eq h := by
    unfold Workspace.ofJson
    exact fields_free h fun o p h => by free_fields h

instance : OrderFree Dependency.ofJson where
  eq h := by
    unfold Dependency.ofJson
    exact fields_free h fun o p h => by free_fields h

instance : OrderFree WorkflowTask.ofJson where
  eq h := by
    unfold WorkflowTask.ofJson
    exact fields_free h fun o p h => by free_fields h

instance : OrderFree Workflow.ofJson where
  eq h := by
    unfold Workflow.ofJson
    exact fields_free h fun o p h => by free_fields h

instance [ReadLimit] (v : SpecVersion) : OrderFree (Formula.ofJson v) where
  eq h := by
    unfold Formula.ofJson
    exact fields_free h fun o p h => by free_fields h

instance : OrderFree LifecycleDescription.ofJson where
  eq h := by
    unfold LifecycleDescription.ofJson
    exact fields_free h fun o p h => by free_fields h

instance : OrderFree Lifecycle.ofJson where
  eq h := by
    unfold Lifecycle.ofJson
    have ht : OrderFree (Json.tagged [("phase", fun j => (Json.enum Phase.new j).map Lifecycle.phase)]) :=
      tagged_free (by free_variants)
    rw [ht.eq h, OrderFree.eq (f := LifecycleDescription.ofJson) h]

instance (v : SpecVersion) : OrderFree (Tool.ofJson v) where
  eq h := by
    unfold Tool.ofJson
    exact fields_free h fun o p h => by free_fields h

instance [ReadLimit] (v : SpecVersion) : OrderFree (Tools.objectOfJson v) where
  eq h := by
    unfold Tools.objectOfJson
    exact fields_free h fun o p h => by free_fields h

instance [ReadLimit] (v : SpecVersion) : OrderFree (Tools.ofJson v) where
  eq h := by
    unfold Tools.ofJson
    rw [OrderFree.eq (f := Json.array (Tool.ofJson v)) h, OrderFree.eq (f := Tools.objectOfJson v) h]

instance [ReadLimit] (v : SpecVersion) : OrderFree (Metadata.ofJson v) where
  eq h := by
    unfold Metadata.ofJson
    exact fields_free h fun o p h => by free_fields h

instance (v : SpecVersion) : OrderFree (Composition.ofJson v) where
  eq h := by
    unfold Composition.ofJson
    exact fields_free h fun o p h => by free_fields h

instance : OrderFree VulnerabilityProofOfConcept.ofJson where
  eq h := by
    unfold VulnerabilityProofOfConcept.ofJson
    exact fields_free h fun o p h => by free_fields h

instance : OrderFree VulnerabilityRating.ofJson where
  eq h := by
    unfold VulnerabilityRating.ofJson
    exact fields_free h fun o p h => by free_fields h

instance (v : SpecVersion) : OrderFree (VulnerabilityAnalysis.ofJson v) where
  eq h := by
    unfold VulnerabilityAnalysis.ofJson
    exact fields_free h fun o p h => by free_fields h

instance : OrderFreeFields VersionRange.ofFields where
  eq h := by
    unfold VersionRange.ofFields
    refine flatVariant_free ?_ (by decide) h
    free_variants

instance : OrderFree TargetVersion.ofJson where
  eq h := by
    unfold TargetVersion.ofJson
    exact fields_free h fun o p h => by
      rw [ofFields_free (f := VersionRange.ofFields) h]
      free_fields h

instance : OrderFree VulnerabilityTarget.ofJson where
  eq h := by
    unfold VulnerabilityTarget.ofJson
    exact fields_free h fun o p h => by free_fields h

instance [ReadLimit] (v : SpecVersion) : OrderFree (Vulnerability.ofJson v) where
  eq h := by
    unfold Vulnerability.ofJson
    exact fields_free h fun o p h => by free_fields h

instance [ReadLimit] (v : SpecVersion) : OrderFree (Bom.ofJson v) where
  eq h := by
    unfold Bom.ofJson
    exact fields_free h fun o p h => by free_fields h

end

end Cdx
