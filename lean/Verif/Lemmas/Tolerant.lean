import Verif.Lemmas.Unknown
import Verif.Model.Format.Bom

/-!
# Lemmas: all readers ignore members with unknown names

Generated, one instance for each reader.
-/

set_option linter.unusedSectionVars false
set_option linter.unusedSimpArgs false

namespace Cdx

open Spec

section
variable [F32Format]

instance : KnownMember "Contact" := ⟨by decide⟩
instance : KnownMember "ES256" := ⟨by decide⟩
instance : KnownMember "ES384" := ⟨by decide⟩
instance : KnownMember "ES512" := ⟨by decide⟩
instance : KnownMember "Ed25519" := ⟨by decide⟩
instance : KnownMember "Ed448" := ⟨by decide⟩
instance : KnownMember "HS256" := ⟨by decide⟩
instance : KnownMember "HS384" := ⟨by decide⟩
instance : KnownMember "HS512" := ⟨by decide⟩
instance : KnownMember "Organization" := ⟨by decide⟩
instance : KnownMember "PS256" := ⟨by decide⟩
instance : KnownMember "PS384" := ⟨by decide⟩
instance : KnownMember "PS512" := ⟨by decide⟩
instance : KnownMember "RS256" := ⟨by decide⟩
instance : KnownMember "RS384" := ⟨by decide⟩
instance : KnownMember "RS512" := ⟨by decide⟩
instance : KnownMember "Unknown" := ⟨by decide⟩
instance : KnownMember "accessMode" := ⟨by decide⟩
instance : KnownMember "advisories" := ⟨by decide⟩
instance : KnownMember "affects" := ⟨by decide⟩
instance : KnownMember "aggregate" := ⟨by decide⟩
instance : KnownMember "alg" := ⟨by decide⟩
instance : KnownMember "algorithm" := ⟨by decide⟩
instance : KnownMember "aliases" := ⟨by decide⟩
instance : KnownMember "altIds" := ⟨by decide⟩
instance : KnownMember "analysis" := ⟨by decide⟩
instance : KnownMember "ancestors" := ⟨by decide⟩
instance : KnownMember "annotations" := ⟨by decide⟩
instance : KnownMember "annotator" := ⟨by decide⟩
instance : KnownMember "approach" := ⟨by decide⟩
instance : KnownMember "architectureFamily" := ⟨by decide⟩
instance : KnownMember "assemblies" := ⟨by decide⟩
instance : KnownMember "attachment" := ⟨by decide⟩
instance : KnownMember "authenticated" := ⟨by decide⟩
instance : KnownMember "author" := ⟨by decide⟩
instance : KnownMember "authors" := ⟨by decide⟩
instance : KnownMember "bom-ref" := ⟨by decide⟩
instance : KnownMember "bomFormat" := ⟨by decide⟩
instance : KnownMember "bomRef" := ⟨by decide⟩
instance : KnownMember "callstack" := ⟨by decide⟩
instance : KnownMember "classification" := ⟨by decide⟩
instance : KnownMember "collection" := ⟨by decide⟩
instance : KnownMember "column" := ⟨by decide⟩
instance : KnownMember "commands" := ⟨by decide⟩
instance : KnownMember "comment" := ⟨by decide⟩
instance : KnownMember "commits" := ⟨by decide⟩
instance : KnownMember "committer" := ⟨by decide⟩
instance : KnownMember "component" := ⟨by decide⟩
instance : KnownMember "components" := ⟨by decide⟩
instance : KnownMember "compositions" := ⟨by decide⟩
instance : KnownMember "conditions" := ⟨by decide⟩
instance : KnownMember "confidence" := ⟨by decide⟩
instance : KnownMember "confidence_interval" := ⟨by decide⟩
instance : KnownMember "considerations" := ⟨by decide⟩
instance : KnownMember "contact" := ⟨by decide⟩
instance : KnownMember "content" := ⟨by decide⟩
instance : KnownMember "contentType" := ⟨by decide⟩
instance : KnownMember "contents" := ⟨by decide⟩
instance : KnownMember "copyright" := ⟨by decide⟩
instance : KnownMember "cpe" := ⟨by decide⟩
instance : KnownMember "created" := ⟨by decide⟩
instance : KnownMember "credits" := ⟨by decide⟩
instance : KnownMember "custodians" := ⟨by decide⟩
instance : KnownMember "cwes" := ⟨by decide⟩
instance : KnownMember "data" := ⟨by decide⟩
instance : KnownMember "dataType" := ⟨by decide⟩
instance : KnownMember "datasets" := ⟨by decide⟩
instance : KnownMember "dependencies" := ⟨by decide⟩
instance : KnownMember "dependsOn" := ⟨by decide⟩
instance : KnownMember "descendants" := ⟨by decide⟩
instance : KnownMember "description" := ⟨by decide⟩
instance : KnownMember "destination" := ⟨by decide⟩
instance : KnownMember "detail" := ⟨by decide⟩
instance : KnownMember "diff" := ⟨by decide⟩
instance : KnownMember "email" := ⟨by decide⟩
instance : KnownMember "encoding" := ⟨by decide⟩
instance : KnownMember "endpoints" := ⟨by decide⟩
instance : KnownMember "environment" := ⟨by decide⟩
instance : KnownMember "environmentVars" := ⟨by decide⟩
instance : KnownMember "event" := ⟨by decide⟩
instance : KnownMember "evidence" := ⟨by decide⟩
instance : KnownMember "executed" := ⟨by decide⟩
instance : KnownMember "expiration" := ⟨by decide⟩
instance : KnownMember "expression" := ⟨by decide⟩
instance : KnownMember "externalReference" := ⟨by decide⟩
instance : KnownMember "externalReferences" := ⟨by decide⟩
instance : KnownMember "field" := ⟨by decide⟩
instance : KnownMember "firstIssued" := ⟨by decide⟩
instance : KnownMember "flow" := ⟨by decide⟩
instance : KnownMember "format" := ⟨by decide⟩
instance : KnownMember "formulation" := ⟨by decide⟩
instance : KnownMember "frames" := ⟨by decide⟩
instance : KnownMember "fullFilename" := ⟨by decide⟩
instance : KnownMember "function" := ⟨by decide⟩
instance : KnownMember "governance" := ⟨by decide⟩
instance : KnownMember "graphics" := ⟨by decide⟩
instance : KnownMember "group" := ⟨by decide⟩
instance : KnownMember "hashes" := ⟨by decide⟩
instance : KnownMember "id" := ⟨by decide⟩
instance : KnownMember "identity" := ⟨by decide⟩
instance : KnownMember "image" := ⟨by decide⟩
instance : KnownMember "individual" := ⟨by decide⟩
instance : KnownMember "individuals" := ⟨by decide⟩
instance : KnownMember "inputs" := ⟨by decide⟩
instance : KnownMember "justification" := ⟨by decide⟩
instance : KnownMember "lastRenewal" := ⟨by decide⟩
instance : KnownMember "lastUpdated" := ⟨by decide⟩
instance : KnownMember "license" := ⟨by decide⟩
instance : KnownMember "licenseTypes" := ⟨by decide⟩
instance : KnownMember "licensee" := ⟨by decide⟩
instance : KnownMember "licenses" := ⟨by decide⟩
instance : KnownMember "licensing" := ⟨by decide⟩
instance : KnownMember "licensor" := ⟨by decide⟩
instance : KnownMember "lifecycles" := ⟨by decide⟩
instance : KnownMember "line" := ⟨by decide⟩
instance : KnownMember "location" := ⟨by decide⟩
instance : KnownMember "lowerBound" := ⟨by decide⟩
instance : KnownMember "managedDataType" := ⟨by decide⟩
instance : KnownMember "manufacture" := ⟨by decide⟩
instance : KnownMember "message" := ⟨by decide⟩
instance : KnownMember "metadata" := ⟨by decide⟩
instance : KnownMember "method" := ⟨by decide⟩
instance : KnownMember "methods" := ⟨by decide⟩
instance : KnownMember "mime-type" := ⟨by decide⟩
instance : KnownMember "mode" := ⟨by decide⟩
instance : KnownMember "modelArchitecture" := ⟨by decide⟩
instance : KnownMember "modelCard" := ⟨by decide⟩
instance : KnownMember "modelParameters" := ⟨by decide⟩
instance : KnownMember "modified" := ⟨by decide⟩
instance : KnownMember "module" := ⟨by decide⟩
instance : KnownMember "mountPath" := ⟨by decide⟩
instance : KnownMember "name" := ⟨by decide⟩
instance : KnownMember "notes" := ⟨by decide⟩
instance : KnownMember "occurrences" := ⟨by decide⟩
instance : KnownMember "organization" := ⟨by decide⟩
instance : KnownMember "organizations" := ⟨by decide⟩
instance : KnownMember "outputs" := ⟨by decide⟩
instance : KnownMember "owners" := ⟨by decide⟩
instance : KnownMember "package" := ⟨by decide⟩
instance : KnownMember "parameters" := ⟨by decide⟩
instance : KnownMember "patch" := ⟨by decide⟩
instance : KnownMember "patches" := ⟨by decide⟩
instance : KnownMember "path" := ⟨by decide⟩
instance : KnownMember "pedigree" := ⟨by decide⟩
instance : KnownMember "performanceMetrics" := ⟨by decide⟩
instance : KnownMember "persistent" := ⟨by decide⟩
instance : KnownMember "phase" := ⟨by decide⟩
instance : KnownMember "phone" := ⟨by decide⟩
instance : KnownMember "proofOfConcept" := ⟨by decide⟩
instance : KnownMember "properties" := ⟨by decide⟩
instance : KnownMember "provider" := ⟨by decide⟩
instance : KnownMember "published" := ⟨by decide⟩
instance : KnownMember "publisher" := ⟨by decide⟩
instance : KnownMember "purchaseOrder" := ⟨by decide⟩
instance : KnownMember "purchaser" := ⟨by decide⟩
instance : KnownMember "purl" := ⟨by decide⟩
instance : KnownMember "quantitativeAnalysis" := ⟨by decide⟩
instance : KnownMember "range" := ⟨by decide⟩
instance : KnownMember "ratings" := ⟨by decide⟩
instance : KnownMember "recommendation" := ⟨by decide⟩
instance : KnownMember "ref" := ⟨by decide⟩
instance : KnownMember "references" := ⟨by decide⟩
instance : KnownMember "rejected" := ⟨by decide⟩
instance : KnownMember "remote" := ⟨by decide⟩
instance : KnownMember "reproductionSteps" := ⟨by decide⟩
instance : KnownMember "resolves" := ⟨by decide⟩
instance : KnownMember "resource" := ⟨by decide⟩
instance : KnownMember "resourceReferences" := ⟨by decide⟩
instance : KnownMember "responses" := ⟨by decide⟩
instance : KnownMember "runtimeTopology" := ⟨by decide⟩
instance : KnownMember "scope" := ⟨by decide⟩
instance : KnownMember "score" := ⟨by decide⟩
instance : KnownMember "sensitiveData" := ⟨by decide⟩
instance : KnownMember "serialNumber" := ⟨by decide⟩
instance : KnownMember "service" := ⟨by decide⟩
instance : KnownMember "services" := ⟨by decide⟩
instance : KnownMember "severity" := ⟨by decide⟩
instance : KnownMember "signature" := ⟨by decide⟩
instance : KnownMember "size_allocated" := ⟨by decide⟩
instance : KnownMember "slice" := ⟨by decide⟩
instance : KnownMember "source" := ⟨by decide⟩
instance : KnownMember "specVersion" := ⟨by decide⟩
instance : KnownMember "state" := ⟨by decide⟩
instance : KnownMember "status" := ⟨by decide⟩
instance : KnownMember "steps" := ⟨by decide⟩
instance : KnownMember "stewards" := ⟨by decide⟩
instance : KnownMember "subjects" := ⟨by decide⟩
instance : KnownMember "supplier" := ⟨by decide⟩
instance : KnownMember "supportingMaterial" := ⟨by decide⟩
instance : KnownMember "swid" := ⟨by decide⟩
instance : KnownMember "tagId" := ⟨by decide⟩
instance : KnownMember "tagVersion" := ⟨by decide⟩
instance : KnownMember "target" := ⟨by decide⟩
instance : KnownMember "task" := ⟨by decide⟩
instance : KnownMember "taskDependencies" := ⟨by decide⟩
instance : KnownMember "taskTypes" := ⟨by decide⟩
instance : KnownMember "tasks" := ⟨by decide⟩
instance : KnownMember "technique" := ⟨by decide⟩
instance : KnownMember "text" := ⟨by decide⟩
instance : KnownMember "timeActivated" := ⟨by decide⟩
instance : KnownMember "timeEnd" := ⟨by decide⟩
instance : KnownMember "timeReceived" := ⟨by decide⟩
instance : KnownMember "timeStart" := ⟨by decide⟩
instance : KnownMember "timestamp" := ⟨by decide⟩
instance : KnownMember "title" := ⟨by decide⟩
instance : KnownMember "tools" := ⟨by decide⟩
instance : KnownMember "trigger" := ⟨by decide⟩
instance : KnownMember "trustZone" := ⟨by decide⟩
instance : KnownMember "type" := ⟨by decide⟩
instance : KnownMember "uid" := ⟨by decide⟩
instance : KnownMember "undefinedVersionRange" := ⟨by decide⟩
instance : KnownMember "updated" := ⟨by decide⟩
instance : KnownMember "upperBound" := ⟨by decide⟩
instance : KnownMember "url" := ⟨by decide⟩
instance : KnownMember "value" := ⟨by decide⟩
instance : KnownMember "variants" := ⟨by decide⟩
instance : KnownMember "vector" := ⟨by decide⟩
instance : KnownMember "vendor" := ⟨by decide⟩
instance : KnownMember "version" := ⟨by decide⟩
instance : KnownMember "versions" := ⟨by decide⟩
instance : KnownMember "volume" := ⟨by decide⟩
instance : KnownMember "volumeRequest" := ⟨by decide⟩
instance : KnownMember "vulnerabilities" := ⟨by decide⟩
instance : KnownMember "workaround" := ⟨by decide⟩
instance : KnownMember "workflows" := ⟨by decide⟩
instance : KnownMember "workspaces" := ⟨by decide⟩
instance : KnownMember "x-trust-boundary" := ⟨by decide⟩

instance : Tolerant OrganizationalContact.ofJson where
  eq h := by
    unfold OrganizationalContact.ofJson
    exact fields_tolerant h fun o p h => by tolerant_fields h

instance : Tolerant OrganizationalEntity.ofJson where
  eq h := by
    unfold OrganizationalEntity.ofJson
    exact fields_tolerant h fun o p h => by tolerant_fields h

instance : Tolerant Property.ofJson where
  eq h := by
    unfold Property.ofJson
    exact fields_tolerant h fun o p h => by tolerant_fields h

instance : Tolerant Hash.ofJson where
  eq h := by
    unfold Hash.ofJson
    exact fields_tolerant h fun o p h => by tolerant_fields h

instance : Tolerant ExternalReference.ofJson where
  eq h := by
    unfold ExternalReference.ofJson
    exact fields_tolerant h fun o p h => by tolerant_fields h

instance : Tolerant IdentifiableAction.ofJson where
  eq h := by
    unfold IdentifiableAction.ofJson
    exact fields_tolerant h fun o p h => by tolerant_fields h

instance : Tolerant Commit.ofJson where
  eq h := by
    unfold Commit.ofJson
    exact fields_tolerant h fun o p h => by tolerant_fields h

instance : Tolerant AttachedText.ofJson where
  eq h := by
    unfold AttachedText.ofJson
    exact fields_tolerant h fun o p h => by tolerant_fields h

instance : Tolerant Diff.ofJson where
  eq h := by
    unfold Diff.ofJson
    exact fields_tolerant h fun o p h => by tolerant_fields h

instance : Tolerant Source.ofJson where
  eq h := by
    unfold Source.ofJson
    exact fields_tolerant h fun o p h => by tolerant_fields h

instance : Tolerant Issue.ofJson where
  eq h := by
    unfold Issue.ofJson
    exact fields_tolerant h fun o p h => by tolerant_fields h

instance : Tolerant Patch.ofJson where
  eq h := by
    unfold Patch.ofJson
    exact fields_tolerant h fun o p h => by tolerant_fields h

instance (sub : Json → Except String Component) (v : SpecVersion) [Tolerant sub] : Tolerant (Pedigree.ofJsonWith sub v) where
  eq h := by
    unfold Pedigree.ofJsonWith
    exact fields_tolerant h fun o p h => by tolerant_fields h

instance : Tolerant DataGovernanceResponsibleParty.ofJson := by
  unfold DataGovernanceResponsibleParty.ofJson
  refine tagged_tolerant ?_ (by simp only [List.map_cons, List.map_nil]; decide)
  tolerant_variants

instance : Tolerant DataGovernance.ofJson where
  eq h := by
    unfold DataGovernance.ofJson
    exact fields_tolerant h fun o p h => by tolerant_fields h

instance : Tolerant Attachment.ofJson where
  eq h := by
    unfold Attachment.ofJson
    exact fields_tolerant h fun o p h => by tolerant_fields h

instance : Tolerant Graphic.ofJson where
  eq h := by
    unfold Graphic.ofJson
    exact fields_tolerant h fun o p h => by tolerant_fields h

instance : Tolerant GraphicsCollection.ofJson where
  eq h := by
    unfold GraphicsCollection.ofJson
    exact fields_tolerant h fun o p h => by tolerant_fields h

instance : Tolerant DataContents.ofJson where
  eq h := by
    unfold DataContents.ofJson
    exact fields_tolerant h fun o p h => by tolerant_fields h

instance : Tolerant ComponentData.ofJson where
  eq h := by
    unfold ComponentData.ofJson
    exact fields_tolerant h fun o p h => by tolerant_fields h

instance : Tolerant ModelParametersApproach.ofJson where
  eq h := by
    unfold ModelParametersApproach.ofJson
    exact fields_tolerant h fun o p h => by tolerant_fields h

instance : Tolerant Dataset.ofJson where
  eq h := by
    unfold Dataset.ofJson
    rw [Tolerant.eq (f := ComponentData.ofJson) h, Tolerant.eq (f := Json.string) h]

instance : Tolerant MLParameter.ofJson where
  eq h := by
    unfold MLParameter.ofJson
    exact fields_tolerant h fun o p h => by tolerant_fields h

instance : Tolerant ModelParameters.ofJson where
  eq h := by
    unfold ModelParameters.ofJson
    exact fields_tolerant h fun o p h => by tolerant_fields h

instance : Tolerant ConfidenceInterval.ofJson where
  eq h := by
    unfold ConfidenceInterval.ofJson
    exact fields_tolerant h fun o p h => by tolerant_fields h

instance : Tolerant PerformanceMetric.ofJson where
  eq h := by
    unfold PerformanceMetric.ofJson
    exact fields_tolerant h fun o p h => by tolerant_fields h

instance : Tolerant QuantitativeAnalysis.ofJson where
  eq h := by
    unfold QuantitativeAnalysis.ofJson
    exact fields_tolerant h fun o p h => by tolerant_fields h

instance : Tolerant Considerations.ofJson where
  eq h := by
    cases h <;> rfl

instance : Tolerant ModelCard.ofJson where
  eq h := by
    unfold ModelCard.ofJson
    exact fields_tolerant h fun o p h => by tolerant_fields h

instance : Tolerant Swid.ofJson where
  eq h := by
    unfold Swid.ofJson
    exact fields_tolerant h fun o p h => by tolerant_fields h

instance : Tolerant Copyright.ofJson where
  eq h := by
    unfold Copyright.ofJson
    exact fields_tolerant h fun o p h => by tolerant_fields h

instance : Tolerant Occurrence.ofJson where
  eq h := by
    unfold Occurrence.ofJson
    exact fields_tolerant h fun o p h => by tolerant_fields h

instance : Tolerant Frame.ofJson where
  eq h := by
    unfold Frame.ofJson
    exact fields_tolerant h fun o p h => by tolerant_fields h

instance : Tolerant Callstack.ofJson where
  eq h := by
    unfold Callstack.ofJson
    exact fields_tolerant h fun o p h => by tolerant_fields h

instance : Tolerant Method.ofJson where
  eq h := by
    unfold Method.ofJson
    exact fields_tolerant h fun o p h => by tolerant_fields h

instance : Tolerant Identity.ofJson where
  eq h := by
    unfold Identity.ofJson
    exact fields_tolerant h fun o p h => by tolerant_fields h

instance : Tolerant LicenseContact.ofJson := by
  unfold LicenseContact.ofJson
  refine tagged_tolerant ?_ (by simp only [List.map_cons, List.map_nil]; decide)
  tolerant_variants

instance : Tolerant Licensing.ofJson where
  eq h := by
    unfold Licensing.ofJson
    exact fields_tolerant h fun o p h => by tolerant_fields h

instance : TolerantFields LicenseIdentifier.ofFields where
  eq h := by
    unfold LicenseIdentifier.ofFields
    refine flatVariant_tolerant ?_ h
    tolerant_variants

instance (v : SpecVersion) : Tolerant (License.ofJson v) where
  eq h := by
    unfold License.ofJson
    exact fields_tolerant h fun o p h => by
      rw [ofFields_tolerant (f := LicenseIdentifier.ofFields) h]
      tolerant_fields h

instance : Tolerant SpdxExpression.ofJson where
  eq h := by
    unfold SpdxExpression.ofJson
    exact fields_tolerant h fun o p h => by tolerant_fields h

instance (v : SpecVersion) : Tolerant (LicenseChoice.ofJson v) where
  eq h := by
    unfold LicenseChoice.ofJson
    have ht : Tolerant (Json.tagged [("license", fun j => (License.ofJson v j).map LicenseChoice.license)]) :=
      tagged_tolerant (by tolerant_variants) (by simp only [List.map_cons, List.map_nil]; decide)
    rw [ht.eq h, Tolerant.eq (f := SpdxExpression.ofJson) h]

instance (v : SpecVersion) : Tolerant (Licenses.ofJson v) := inferInstanceAs (Tolerant (Json.array (LicenseChoice.ofJson v)))

instance (v : SpecVersion) : Tolerant (ComponentEvidence.ofJson v) where
  eq h := by
    unfold ComponentEvidence.ofJson
    exact fields_tolerant h fun o p h => by tolerant_fields h

instance : Tolerant Algorithm.ofJson := by
  refine single_tolerant (e := "invalid algorithm") rfl (fun m n l => ?_) (fun k x hk => ?_) (fun k x y h => ?_)
    fun _ _ => rfl
  · simp only [Algorithm.ofJson]
  · have hn : Algorithm.new k = .unknown k := by
      unfold Algorithm.new
      split <;> first | rfl | exact absurd (by decide) hk
    have hu : k ≠ "Unknown" := fun e => hk (e ▸ (by decide))
    unfold Algorithm.ofJson
    split
    all_goals simp_all
  · cases h <;> simp [Algorithm.ofJson]

instance : Tolerant Signer.ofJson where
  eq h := by
    unfold Signer.ofJson
    exact fields_tolerant h fun o p h => by tolerant_fields h

instance : Tolerant Signature.ofJson where
  eq h := by
    unfold Signature.ofJson
    rw [Tolerant.eq (f := Json.array Signer.ofJson) h, Tolerant.eq (f := Signer.ofJson) h]

instance (sub : Json → Except String Component) (v : SpecVersion) [Tolerant sub] : Tolerant (Component.ofJsonWith sub v) where
  eq h := by
    unfold Component.ofJsonWith
    exact fields_tolerant h fun o p h => by tolerant_fields h

instance (v : SpecVersion) (n : Nat) : Tolerant (Component.ofJsonN v n) := by
  induction n with
  | zero => exact ⟨fun _ => rfl⟩
  | succ n ih => exact inferInstanceAs (Tolerant (Component.ofJsonWith (Component.ofJsonN v n) v))

instance [ReadLimit] (v : SpecVersion) : Tolerant (Component.ofJson v) :=
  inferInstanceAs (Tolerant (Component.ofJsonN v ReadLimit.limit))

instance : Tolerant DataClassification.ofJson where
  eq h := by
    unfold DataClassification.ofJson
    exact fields_tolerant h fun o p h => by tolerant_fields h

instance : Tolerant ServiceData.ofJson where
  eq h := by
    unfold ServiceData.ofJson
    exact fields_tolerant h fun o p h => by
      rw [Tolerant.eq (f := DataClassification.ofJson) h]
      tolerant_fields h

instance (v : SpecVersion) : Tolerant (ServiceDataChoice.ofJson v) where
  eq h := by
    unfold ServiceDataChoice.ofJson
    rw [Tolerant.eq (f := Json.array DataClassification.ofJson) h, Tolerant.eq (f := Json.array ServiceData.ofJson) h]

instance (sub : Json → Except String Service) (v : SpecVersion) [Tolerant sub] : Tolerant (Service.ofJsonWith sub v) where
  eq h := by
    unfold Service.ofJsonWith
    exact fields_tolerant h fun o p h => by tolerant_fields h

instance (v : SpecVersion) (n : Nat) : Tolerant (Service.ofJsonN v n) := by
  induction n with
  | zero => exact ⟨fun _ => rfl⟩
  | succ n ih => exact inferInstanceAs (Tolerant (Service.ofJsonWith (Service.ofJsonN v n) v))

instance [ReadLimit] (v : SpecVersion) : Tolerant (Service.ofJson v) :=
  inferInstanceAs (Tolerant (Service.ofJsonN v ReadLimit.limit))

instance [ReadLimit] (v : SpecVersion) : Tolerant (Annotator.ofJson v) := by
  unfold Annotator.ofJson
  refine tagged_tolerant ?_ (by simp only [List.map_cons, List.map_nil]; decide)
  tolerant_variants

instance [ReadLimit] (v : SpecVersion) : Tolerant (Annotation.ofJson v) where
  eq h := by
    unfold Annotation.ofJson
    exact fields_tolerant h fun o p h => by tolerant_fields h

instance : Tolerant VulnerabilitySource.ofJson where
  eq h := by
    unfold VulnerabilitySource.ofJson
    exact fields_tolerant h fun o p h => by tolerant_fields h

instance : Tolerant VulnerabilityReference.ofJson where
  eq h := by
    unfold VulnerabilityReference.ofJson
    exact fields_tolerant h fun o p h => by tolerant_fields h

instance : Tolerant Advisory.ofJson where
  eq h := by
    unfold Advisory.ofJson
    exact fields_tolerant h fun o p h => by tolerant_fields h

instance : Tolerant VulnerabilityCredits.ofJson where
  eq h := by
    unfold VulnerabilityCredits.ofJson
    exact fields_tolerant h fun o p h => by tolerant_fields h

instance : Tolerant SpecVersion.ofJson where
  eq h := by
    cases h <;> rfl

instance : Tolerant Bom.formatOfJson where
  eq h := by
    cases h <;> rfl

instance : TolerantFields ResourceReference.ofFields where
  eq h := by
    unfold ResourceReference.ofFields
    refine flatUntagged_tolerant ?_ h
    tolerant_variants

instance : Tolerant ResourceReference.ofJson where
  eq h := by
    unfold ResourceReference.ofJson
    exact fields_tolerant h fun o p h => TolerantFields.eq h

instance : Tolerant EnvironmentVar.ofJson where
  eq h := by
    have hf : ∀ o p, Extended (.obj o) (.obj p) → EnvironmentVar.ofJson (.obj o) = EnvironmentVar.ofJson (.obj p) := by
      intro o p h
      simp only [EnvironmentVar.ofJson, Json.fields, bind, Except.bind, req_tolerant h]
    cases h with
    | added h1 h2 => exact hf _ _ (.added h1 h2)
    | changed h1 => exact hf _ _ (.changed h1)
    | member h1 => exact hf _ _ (.member h1)
    | item => rfl

instance : Tolerant Parameter.ofJson where
  eq h := by
    unfold Parameter.ofJson
    exact fields_tolerant h fun o p h => by tolerant_fields h

instance : TolerantFields RequiredInputField.ofFields where
  eq h := by
    unfold RequiredInputField.ofFields
    refine flatUntagged_tolerant ?_ h
    tolerant_variants

instance : Tolerant Input.ofJson where
  eq h := by
    unfold Input.ofJson
    exact fields_tolerant h fun o p h => by
      rw [ofFields_tolerant (f := RequiredInputField.ofFields) h]
      tolerant_fields h

instance : TolerantFields RequiredOutputField.ofFields where
  eq h := by
    unfold RequiredOutputField.ofFields
    refine flatUntagged_tolerant ?_ h
    tolerant_variants

instance : Tolerant Output.ofJson where
  eq h := by
    unfold Output.ofJson
    exact fields_tolerant h fun o p h => by
      rw [ofFields_tolerant (f := RequiredOutputField.ofFields) h]
      tolerant_fields h

instance : Tolerant Command.ofJson where
  eq h := by
    unfold Command.ofJson
    exact fields_tolerant h fun o p h => by tolerant_fields h

instance : Tolerant Step.ofJson where
  eq h := by
    unfold Step.ofJson
    exact fields_tolerant h fun o p h => by tolerant_fields h

instance : Tolerant TriggerEvent.ofJson where
  eq h := by
    unfold TriggerEvent.ofJson
    exact fields_tolerant h fun o p h => by tolerant_fields h

instance : Tolerant Condition.ofJson where
  eq h := by
    unfold Condition.ofJson
    exact fields_tolerant h fun o p h => by tolerant_fields h

instance : Tolerant Trigger.ofJson where
  eq h := by
    unfold Trigger.ofJson
    exact fields_tolerant h fun o p h => by tolerant_fields h

instance : Tolerant Volume.ofJson where
  eq h := by
    unfold Volume.ofJson
    exact fields_tolerant h fun o p h => by tolerant_fields h

instance : Tolerant Workspace.ofJson where
  eq h := by
    unfold Workspace.ofJson
    exact fields_tolerant h fun o p h => by tolerant_fields h

instance : Tolerant Dependency.ofJson where
  eq h := by
    unfold Dependency.ofJson
    exact fields_tolerant h fun o p h => by tolerant_fields h

instance : Tolerant WorkflowTask.ofJson where
  eq h := by
    unfold WorkflowTask.ofJson
    exact fields_tolerant h fun o p h => by tolerant_fields h

instance : Tolerant Workflow.ofJson where
  eq h := by
    unfold Workflow.ofJson
    exact fields_tolerant h fun o p h => by tolerant_fields h

instance [ReadLimit] (v : SpecVersion) : Tolerant (Formula.ofJson v) where
  eq h := by
    unfold Formula.ofJson
    exact fields_tolerant h fun o p h => by tolerant_fields h

instance : Tolerant LifecycleDescription.ofJson where
  eq h := by
    unfold LifecycleDescription.ofJson
    exact fields_tolerant h fun o p h => by tolerant_fields h

instance : Tolerant Lifecycle.ofJson where
  eq h := by
    unfold Lifecycle.ofJson
    have ht : Tolerant (Json.tagged [("phase", fun j => (Json.enum Phase.new j).map Lifecycle.phase)]) :=
      tagged_tolerant (by tolerant_variants) (by simp only [List.map_cons, List.map_nil]; decide)
    rw [ht.eq h, Tolerant.eq (f := LifecycleDescription.ofJson) h]

instance (v : SpecVersion) : Tolerant (Tool.ofJson v) where
  eq h := by
    unfold Tool.ofJson
    exact fields_tolerant h fun o p h => by tolerant_fields h

instance [ReadLimit] (v : SpecVersion) : Tolerant (Tools.objectOfJson v) where
  eq h := by
    unfold Tools.objectOfJson
    exact fields_tolerant h fun o p h => by tolerant_fields h

instance [ReadLimit] (v : SpecVersion) : Tolerant (Tools.ofJson v) where
  eq h := by
    unfold Tools.ofJson
    rw [Tolerant.eq (f := Json.array (Tool.ofJson v)) h, Tolerant.eq (f := Tools.objectOfJson v) h]

instance [ReadLimit] (v : SpecVersion) : Tolerant (Metadata.ofJson v) where
  eq h := by
    unfold Metadata.ofJson
    exact fields_tolerant h fun o p h => by tolerant_fields h

instance (v : SpecVersion) : Tolerant (Composition.ofJson v) where
  eq h := by
    unfold Composition.ofJson
    exact fields_tolerant h fun o p h => by tolerant_fields h

instance : Tolerant VulnerabilityProofOfConcept.ofJson where
  eq h := by
    unfold VulnerabilityProofOfConcept.ofJson
    exact fields_tolerant h fun o p h => by tolerant_fields h

instance : Tolerant VulnerabilityRating.ofJson where
  eq h := by
    unfold VulnerabilityRating.ofJson
    exact fields_tolerant h fun o p h => by tolerant_fields h

instance (v : SpecVersion) : Tolerant (VulnerabilityAnalysis.ofJson v) where
  eq h := by
    unfold VulnerabilityAnalysis.ofJson
    exact fields_tolerant h fun o p h => by tolerant_fields h

instance : TolerantFields VersionRange.ofFields where
  eq h := by
    unfold VersionRange.ofFields
    refine flatVariant_tolerant ?_ h
    tolerant_variants

instance : Tolerant TargetVersion.ofJson where
  eq h := by
    unfold TargetVersion.ofJson
    exact fields_tolerant h fun o p h => by
      rw [ofFields_tolerant (f := VersionRange.ofFields) h]
      tolerant_fields h

instance : Tolerant VulnerabilityTarget.ofJson where
  eq h := by
    unfold VulnerabilityTarget.ofJson
    exact fields_tolerant h fun o p h => by tolerant_fields h

instance [ReadLimit] (v : SpecVersion) : Tolerant (Vulnerability.ofJson v) where
  eq h := by
    unfold Vulnerability.ofJson
    exact fields_tolerant h fun o p h => by tolerant_fields h

instance [ReadLimit] (v : SpecVersion) : Tolerant (Bom.ofJson v) where
  eq h := by
    unfold Bom.ofJson
    exact fields_tolerant h fun o p h => by tolerant_fields h

end

end Cdx
