import Verif.Spec.Elements

/-!
# Unfolding the elements
-/

namespace Cdx

open Spec

set_option linter.unusedVariables false

theorem passes_normalizedString (E : VEnv) (v : SpecVersion) (x : NormalizedString) :
    (Elem.normalizedString x).Passes E v ↔ validateNormalizedString x = .ok () := by
  show (Except.ok (VResult.ofCheck (validateNormalizedString x)) : Res VResult) = .ok [] ↔ _
  match validateNormalizedString x with
  | .ok () => simp [VResult.ofCheck]
  | .error e => simp [VResult.ofCheck]

theorem passes_uri (E : VEnv) (v : SpecVersion) (x : Uri) :
    (Elem.uri x).Passes E v ↔ validateUri E x = .ok () := by
  show (Except.ok (VResult.ofCheck (validateUri E x)) : Res VResult) = .ok [] ↔ _
  match validateUri E x with
  | .ok () => simp [VResult.ofCheck]
  | .error e => simp [VResult.ofCheck]

theorem passes_dateTime (E : VEnv) (v : SpecVersion) (x : DateTime) :
    (Elem.dateTime x).Passes E v ↔ validateDateTime E x = .ok () := by
  show (Except.ok (VResult.ofCheck (validateDateTime E x)) : Res VResult) = .ok [] ↔ _
  match validateDateTime E x with
  | .ok () => simp [VResult.ofCheck]
  | .error e => simp [VResult.ofCheck]

theorem passes_purl (E : VEnv) (v : SpecVersion) (x : Purl) :
    (Elem.purl x).Passes E v ↔ validatePurl E x = .ok () := by
  show (Except.ok (VResult.ofCheck (validatePurl E x)) : Res VResult) = .ok [] ↔ _
  match validatePurl E x with
  | .ok () => simp [VResult.ofCheck]
  | .error e => simp [VResult.ofCheck]

theorem passes_cpe (E : VEnv) (v : SpecVersion) (x : String) :
    (Elem.cpe x).Passes E v ↔ validateCpe x = .ok () := by
  show (Except.ok (VResult.ofCheck (validateCpe x)) : Res VResult) = .ok [] ↔ _
  match validateCpe x with
  | .ok () => simp [VResult.ofCheck]
  | .error e => simp [VResult.ofCheck]

theorem passes_mimeType (E : VEnv) (v : SpecVersion) (x : String) :
    (Elem.mimeType x).Passes E v ↔ validateMimeType x = .ok () := by
  show (Except.ok (VResult.ofCheck (validateMimeType x)) : Res VResult) = .ok [] ↔ _
  match validateMimeType x with
  | .ok () => simp [VResult.ofCheck]
  | .error e => simp [VResult.ofCheck]

theorem passes_bomRefAttribute (E : VEnv) (v : SpecVersion) (x : BomReference) :
    (Elem.bomRefAttribute x).Passes E v ↔ validateBomRef v x = .ok () := by
  show (Except.ok (VResult.ofCheck (validateBomRef v x)) : Res VResult) = .ok [] ↔ _
  match validateBomRef v x with
  | .ok () => simp [VResult.ofCheck]
  | .error e => simp [VResult.ofCheck]

theorem passes_serialNumber (E : VEnv) (v : SpecVersion) (x : String) :
    (Elem.serialNumber x).Passes E v ↔ validateUrnUuid x = .ok () := by
  show (Except.ok (VResult.ofCheck (validateUrnUuid x)) : Res VResult) = .ok [] ↔ _
  match validateUrnUuid x with
  | .ok () => simp [VResult.ofCheck]
  | .error e => simp [VResult.ofCheck]

theorem passes_hashValue (E : VEnv) (v : SpecVersion) (x : String) :
    (Elem.hashValue x).Passes E v ↔ validateHashValue x = .ok () := by
  show (Except.ok (VResult.ofCheck (validateHashValue x)) : Res VResult) = .ok [] ↔ _
  match validateHashValue x with
  | .ok () => simp [VResult.ofCheck]
  | .error e => simp [VResult.ofCheck]

theorem passes_attachmentEncoding (E : VEnv) (v : SpecVersion) (x : String) :
    (Elem.attachmentEncoding x).Passes E v ↔ validateAttachmentEncoding x = .ok () := by
  show (Except.ok (VResult.ofCheck (validateAttachmentEncoding x)) : Res VResult) = .ok [] ↔ _
  match validateAttachmentEncoding x with
  | .ok () => simp [VResult.ofCheck]
  | .error e => simp [VResult.ofCheck]

theorem passes_confidence (E : VEnv) (v : SpecVersion) (x : F32) :
    (Elem.confidence x).Passes E v ↔ validateConfidence x = .ok () := by
  show (Except.ok (VResult.ofCheck (validateConfidence x)) : Res VResult) = .ok [] ↔ _
  match validateConfidence x with
  | .ok () => simp [VResult.ofCheck]
  | .error e => simp [VResult.ofCheck]

theorem passes_spdxId (E : VEnv) (v : SpecVersion) (x : String) :
    (Elem.spdxId x).Passes E v ↔ validateSpdxIdentifier E x = .ok () := by
  show (Except.ok (VResult.ofCheck (validateSpdxIdentifier E x)) : Res VResult) = .ok [] ↔ _
  match validateSpdxIdentifier E x with
  | .ok () => simp [VResult.ofCheck]
  | .error e => simp [VResult.ofCheck]

theorem passes_spdxExpression (E : VEnv) (v : SpecVersion) (x : SpdxExpression) :
    (Elem.spdxExpression x).Passes E v ↔ validateSpdxExpression E x = .ok () := by
  show (Except.ok (VResult.ofCheck (validateSpdxExpression E x)) : Res VResult) = .ok [] ↔ _
  match validateSpdxExpression E x with
  | .ok () => simp [VResult.ofCheck]
  | .error e => simp [VResult.ofCheck]

theorem passes_refUri (E : VEnv) (v : SpecVersion) (x : RefUri) :
    (Elem.refUri x).Passes E v ↔ validateReferenceUri E v x = .ok () := by
  show (Except.ok (VResult.ofCheck (validateReferenceUri E v x)) : Res VResult) = .ok [] ↔ _
  match validateReferenceUri E v x with
  | .ok () => simp [VResult.ofCheck]
  | .error e => simp [VResult.ofCheck]

theorem passes_classification (E : VEnv) (v : SpecVersion) (x : Classification) :
    (Elem.classification x).Passes E v ↔ validateClassification v x = .ok () := by
  show (Except.ok (VResult.ofCheck (validateClassification v x)) : Res VResult) = .ok [] ↔ _
  match validateClassification v x with
  | .ok () => simp [VResult.ofCheck]
  | .error e => simp [VResult.ofCheck]

theorem passes_aggregateType (E : VEnv) (v : SpecVersion) (x : AggregateType) :
    (Elem.aggregateType x).Passes E v ↔ validateAggregateType v x = .ok () := by
  show (Except.ok (VResult.ofCheck (validateAggregateType v x)) : Res VResult) = .ok [] ↔ _
  match validateAggregateType v x with
  | .ok () => simp [VResult.ofCheck]
  | .error e => simp [VResult.ofCheck]

theorem passes_scoreMethod (E : VEnv) (v : SpecVersion) (x : ScoreMethod) :
    (Elem.scoreMethod x).Passes E v ↔ validateScoreMethod v x = .ok () := by
  show (Except.ok (VResult.ofCheck (validateScoreMethod v x)) : Res VResult) = .ok [] ↔ _
  match validateScoreMethod v x with
  | .ok () => simp [VResult.ofCheck]
  | .error e => simp [VResult.ofCheck]

theorem passes_scope (E : VEnv) (v : SpecVersion) (x : Scope) :
    (Elem.scope x).Passes E v ↔ validateScope x = .ok () := by
  show (Except.ok (VResult.ofCheck (validateScope x)) : Res VResult) = .ok [] ↔ _
  match validateScope x with
  | .ok () => simp [VResult.ofCheck]
  | .error e => simp [VResult.ofCheck]

theorem passes_hashAlgorithm (E : VEnv) (v : SpecVersion) (x : HashAlgorithm) :
    (Elem.hashAlgorithm x).Passes E v ↔ validateHashAlgorithm x = .ok () := by
  show (Except.ok (VResult.ofCheck (validateHashAlgorithm x)) : Res VResult) = .ok [] ↔ _
  match validateHashAlgorithm x with
  | .ok () => simp [VResult.ofCheck]
  | .error e => simp [VResult.ofCheck]

theorem passes_externalReferenceType (E : VEnv) (v : SpecVersion) (x : ExternalReferenceType) :
    (Elem.externalReferenceType x).Passes E v ↔ validateExternalReferenceType x = .ok () := by
  show (Except.ok (VResult.ofCheck (validateExternalReferenceType x)) : Res VResult) = .ok [] ↔ _
  match validateExternalReferenceType x with
  | .ok () => simp [VResult.ofCheck]
  | .error e => simp [VResult.ofCheck]

theorem passes_identityField (E : VEnv) (v : SpecVersion) (x : IdentityField) :
    (Elem.identityField x).Passes E v ↔ validateIdentityField x = .ok () := by
  show (Except.ok (VResult.ofCheck (validateIdentityField x)) : Res VResult) = .ok [] ↔ _
  match validateIdentityField x with
  | .ok () => simp [VResult.ofCheck]
  | .error e => simp [VResult.ofCheck]

theorem passes_algorithm (E : VEnv) (v : SpecVersion) (x : Algorithm) :
    (Elem.algorithm x).Passes E v ↔ validateAlgorithm x = .ok () := by
  show (Except.ok (VResult.ofCheck (validateAlgorithm x)) : Res VResult) = .ok [] ↔ _
  match validateAlgorithm x with
  | .ok () => simp [VResult.ofCheck]
  | .error e => simp [VResult.ofCheck]

theorem passes_licenseType (E : VEnv) (v : SpecVersion) (x : LicenseType) :
    (Elem.licenseType x).Passes E v ↔ validateLicenseType x = .ok () := by
  show (Except.ok (VResult.ofCheck (validateLicenseType x)) : Res VResult) = .ok [] ↔ _
  match validateLicenseType x with
  | .ok () => simp [VResult.ofCheck]
  | .error e => simp [VResult.ofCheck]

theorem passes_approachType (E : VEnv) (v : SpecVersion) (x : ApproachType) :
    (Elem.approachType x).Passes E v ↔ validateApproachType x = .ok () := by
  show (Except.ok (VResult.ofCheck (validateApproachType x)) : Res VResult) = .ok [] ↔ _
  match validateApproachType x with
  | .ok () => simp [VResult.ofCheck]
  | .error e => simp [VResult.ofCheck]

theorem passes_componentDataType (E : VEnv) (v : SpecVersion) (x : ComponentDataType) :
    (Elem.componentDataType x).Passes E v ↔ validateDatatype x = .ok () := by
  show (Except.ok (VResult.ofCheck (validateDatatype x)) : Res VResult) = .ok [] ↔ _
  match validateDatatype x with
  | .ok () => simp [VResult.ofCheck]
  | .error e => simp [VResult.ofCheck]

theorem passes_issueClassification (E : VEnv) (v : SpecVersion) (x : IssueClassification) :
    (Elem.issueClassification x).Passes E v ↔ validateIssueClassification x = .ok () := by
  show (Except.ok (VResult.ofCheck (validateIssueClassification x)) : Res VResult) = .ok [] ↔ _
  match validateIssueClassification x with
  | .ok () => simp [VResult.ofCheck]
  | .error e => simp [VResult.ofCheck]

theorem passes_patchClassification (E : VEnv) (v : SpecVersion) (x : PatchClassification) :
    (Elem.patchClassification x).Passes E v ↔ validatePatchClassification x = .ok () := by
  show (Except.ok (VResult.ofCheck (validatePatchClassification x)) : Res VResult) = .ok [] ↔ _
  match validatePatchClassification x with
  | .ok () => simp [VResult.ofCheck]
  | .error e => simp [VResult.ofCheck]

theorem passes_dataFlowType (E : VEnv) (v : SpecVersion) (x : DataFlowType) :
    (Elem.dataFlowType x).Passes E v ↔ validateDataFlowType x = .ok () := by
  show (Except.ok (VResult.ofCheck (validateDataFlowType x)) : Res VResult) = .ok [] ↔ _
  match validateDataFlowType x with
  | .ok () => simp [VResult.ofCheck]
  | .error e => simp [VResult.ofCheck]

theorem passes_impactAnalysisState (E : VEnv) (v : SpecVersion) (x : ImpactAnalysisState) :
    (Elem.impactAnalysisState x).Passes E v ↔ validateImpactAnalysisState x = .ok () := by
  show (Except.ok (VResult.ofCheck (validateImpactAnalysisState x)) : Res VResult) = .ok [] ↔ _
  match validateImpactAnalysisState x with
  | .ok () => simp [VResult.ofCheck]
  | .error e => simp [VResult.ofCheck]

theorem passes_impactAnalysisJustification (E : VEnv) (v : SpecVersion) (x : ImpactAnalysisJustification) :
    (Elem.impactAnalysisJustification x).Passes E v ↔ validateImpactAnalysisJustification x = .ok () := by
  show (Except.ok (VResult.ofCheck (validateImpactAnalysisJustification x)) : Res VResult) = .ok [] ↔ _
  match validateImpactAnalysisJustification x with
  | .ok () => simp [VResult.ofCheck]
  | .error e => simp [VResult.ofCheck]

theorem passes_impactAnalysisResponse (E : VEnv) (v : SpecVersion) (x : ImpactAnalysisResponse) :
    (Elem.impactAnalysisResponse x).Passes E v ↔ validateImpactAnalysisResponse x = .ok () := by
  show (Except.ok (VResult.ofCheck (validateImpactAnalysisResponse x)) : Res VResult) = .ok [] ↔ _
  match validateImpactAnalysisResponse x with
  | .ok () => simp [VResult.ofCheck]
  | .error e => simp [VResult.ofCheck]

theorem passes_severity (E : VEnv) (v : SpecVersion) (x : Severity) :
    (Elem.severity x).Passes E v ↔ validateSeverity x = .ok () := by
  show (Except.ok (VResult.ofCheck (validateSeverity x)) : Res VResult) = .ok [] ↔ _
  match validateSeverity x with
  | .ok () => simp [VResult.ofCheck]
  | .error e => simp [VResult.ofCheck]

theorem passes_status (E : VEnv) (v : SpecVersion) (x : Status) :
    (Elem.status x).Passes E v ↔ validateStatus x = .ok () := by
  show (Except.ok (VResult.ofCheck (validateStatus x)) : Res VResult) = .ok [] ↔ _
  match validateStatus x with
  | .ok () => simp [VResult.ofCheck]
  | .error e => simp [VResult.ofCheck]

theorem passes_taskType (E : VEnv) (v : SpecVersion) (x : TaskType) :
    (Elem.taskType x).Passes E v ↔ validateTaskType x = .ok () := by
  show (Except.ok (VResult.ofCheck (validateTaskType x)) : Res VResult) = .ok [] ↔ _
  match validateTaskType x with
  | .ok () => simp [VResult.ofCheck]
  | .error e => simp [VResult.ofCheck]

theorem passes_outputType (E : VEnv) (v : SpecVersion) (x : OutputType) :
    (Elem.outputType x).Passes E v ↔ validateOutputType x = .ok () := by
  show (Except.ok (VResult.ofCheck (validateOutputType x)) : Res VResult) = .ok [] ↔ _
  match validateOutputType x with
  | .ok () => simp [VResult.ofCheck]
  | .error e => simp [VResult.ofCheck]

theorem passes_triggerType (E : VEnv) (v : SpecVersion) (x : TriggerType) :
    (Elem.triggerType x).Passes E v ↔ validateTriggerType x = .ok () := by
  show (Except.ok (VResult.ofCheck (validateTriggerType x)) : Res VResult) = .ok [] ↔ _
  match validateTriggerType x with
  | .ok () => simp [VResult.ofCheck]
  | .error e => simp [VResult.ofCheck]

theorem passes_accessMode (E : VEnv) (v : SpecVersion) (x : AccessMode) :
    (Elem.accessMode x).Passes E v ↔ validateAccessMode x = .ok () := by
  show (Except.ok (VResult.ofCheck (validateAccessMode x)) : Res VResult) = .ok [] ↔ _
  match validateAccessMode x with
  | .ok () => simp [VResult.ofCheck]
  | .error e => simp [VResult.ofCheck]

theorem passes_volumeMode (E : VEnv) (v : SpecVersion) (x : VolumeMode) :
    (Elem.volumeMode x).Passes E v ↔ validateVolumeMode x = .ok () := by
  show (Except.ok (VResult.ofCheck (validateVolumeMode x)) : Res VResult) = .ok [] ↔ _
  match validateVolumeMode x with
  | .ok () => simp [VResult.ofCheck]
  | .error e => simp [VResult.ofCheck]

theorem passes_versionRange (E : VEnv) (v : SpecVersion) (x : VersionRange) :
    (Elem.versionRange x).Passes E v ↔ validateVersionRange x = .ok () := by
  show (Except.ok (VResult.ofCheck (validateVersionRange x)) : Res VResult) = .ok [] ↔ _
  match validateVersionRange x with
  | .ok () => simp [VResult.ofCheck]
  | .error e => simp [VResult.ofCheck]

theorem passes_attachedText (E : VEnv) (v : SpecVersion) (x : AttachedText) :
    (Elem.attachedText x).Passes E v ↔ AttachedText.validate E v x = .ok [] := Iff.rfl

theorem rule_attachedText (E : VEnv) (v : SpecVersion) (x : AttachedText) :
    (Elem.attachedText x).rule E v ↔ (∀ e, x.encoding = some e → e = .base64 ∧ ∃ bytes, IsBase64 bytes x.content.toList) := Iff.rfl

theorem checked_attachedText (x : AttachedText) : (Elem.attachedText x).checked =
      opt .normalizedString x.contentType := rfl

theorem passes_attachment (E : VEnv) (v : SpecVersion) (x : Attachment) :
    (Elem.attachment x).Passes E v ↔ Attachment.validate E v x = .ok [] := Iff.rfl

theorem checked_attachment (x : Attachment) : (Elem.attachment x).checked =
      opt .attachmentEncoding x.encoding := rfl

theorem passes_organizationalContact (E : VEnv) (v : SpecVersion) (x : OrganizationalContact) :
    (Elem.organizationalContact x).Passes E v ↔ OrganizationalContact.validate E v x = .ok [] := Iff.rfl

theorem checked_organizationalContact (x : OrganizationalContact) : (Elem.organizationalContact x).checked =
      opt .bomRefAttribute x.bomRef ++ opt .normalizedString x.name ++
      opt .normalizedString x.email ++ opt .normalizedString x.phone := rfl

theorem passes_organizationalEntity (E : VEnv) (v : SpecVersion) (x : OrganizationalEntity) :
    (Elem.organizationalEntity x).Passes E v ↔ OrganizationalEntity.validate E v x = .ok [] := Iff.rfl

theorem checked_organizationalEntity (x : OrganizationalEntity) : (Elem.organizationalEntity x).checked =
      opt .normalizedString x.name ++ many .uri x.url ++ many .organizationalContact x.contact := rfl

theorem passes_property (E : VEnv) (v : SpecVersion) (x : Property) :
    (Elem.property x).Passes E v ↔ Property.validate E v x = .ok [] := Iff.rfl

theorem checked_property (x : Property) : (Elem.property x).checked =
      [.normalizedString x.value] := rfl

theorem passes_hash (E : VEnv) (v : SpecVersion) (x : Hash) :
    (Elem.hash x).Passes E v ↔ Hash.validate E v x = .ok [] := Iff.rfl

theorem checked_hash (x : Hash) : (Elem.hash x).checked =
      [.hashAlgorithm x.alg] ++ [.hashValue x.content] := rfl

theorem passes_externalReference (E : VEnv) (v : SpecVersion) (x : ExternalReference) :
    (Elem.externalReference x).Passes E v ↔ ExternalReference.validate E v x = .ok [] := Iff.rfl

theorem checked_externalReference (x : ExternalReference) : (Elem.externalReference x).checked =
      [.externalReferenceType x.externalReferenceType] ++ [.refUri x.url] ++ many .hash x.hashes := rfl

theorem passes_licensing (E : VEnv) (v : SpecVersion) (x : Licensing) :
    (Elem.licensing x).Passes E v ↔ Licensing.validate E v x = .ok [] := Iff.rfl

theorem checked_licensing (x : Licensing) : (Elem.licensing x).checked =
      many .normalizedString x.altIds ++ opt .licenseContact x.licensor ++
      opt .licenseContact x.licensee ++ opt .licenseContact x.purchaser ++
      many .licenseType x.licenseTypes ++ opt .dateTime x.lastRenewal ++
      opt .dateTime x.expiration := rfl

theorem passes_license (E : VEnv) (v : SpecVersion) (x : License) :
    (Elem.license x).Passes E v ↔ License.validate E v x = .ok [] := Iff.rfl

theorem checked_license (x : License) : (Elem.license x).checked =
      [.licenseIdentifier x.licenseIdentifier] ++ opt .attachedText x.text ++ opt .uri x.url ++
      opt .licensing x.licensing ++ many .property x.properties := rfl

theorem passes_identifiableAction (E : VEnv) (v : SpecVersion) (x : IdentifiableAction) :
    (Elem.identifiableAction x).Passes E v ↔ IdentifiableAction.validate E v x = .ok [] := Iff.rfl

theorem checked_identifiableAction (x : IdentifiableAction) : (Elem.identifiableAction x).checked =
      opt .dateTime x.timestamp ++ opt .normalizedString x.name ++ opt .normalizedString x.email := rfl

theorem passes_commit (E : VEnv) (v : SpecVersion) (x : Commit) :
    (Elem.commit x).Passes E v ↔ Commit.validate E v x = .ok [] := Iff.rfl

theorem checked_commit (x : Commit) : (Elem.commit x).checked =
      opt .normalizedString x.uid ++ opt .uri x.url ++ opt .identifiableAction x.author ++
      opt .identifiableAction x.committer ++ opt .normalizedString x.message := rfl

theorem passes_diff (E : VEnv) (v : SpecVersion) (x : Diff) :
    (Elem.diff x).Passes E v ↔ Diff.validate E v x = .ok [] := Iff.rfl

theorem checked_diff (x : Diff) : (Elem.diff x).checked =
      opt .attachedText x.text ++ opt .uri x.url := rfl

theorem passes_source (E : VEnv) (v : SpecVersion) (x : Source) :
    (Elem.source x).Passes E v ↔ Source.validate E v x = .ok [] := Iff.rfl

theorem checked_source (x : Source) : (Elem.source x).checked =
      opt .normalizedString x.name ++ opt .uri x.url := rfl

theorem passes_issue (E : VEnv) (v : SpecVersion) (x : Issue) :
    (Elem.issue x).Passes E v ↔ Issue.validate E v x = .ok [] := Iff.rfl

theorem checked_issue (x : Issue) : (Elem.issue x).checked =
      [.issueClassification x.issueType] ++ opt .normalizedString x.id ++
      opt .normalizedString x.name ++ opt .normalizedString x.description ++
      opt .source x.source ++ many .uri x.references := rfl

theorem passes_patch (E : VEnv) (v : SpecVersion) (x : Patch) :
    (Elem.patch x).Passes E v ↔ Patch.validate E v x = .ok [] := Iff.rfl

theorem checked_patch (x : Patch) : (Elem.patch x).checked =
      [.patchClassification x.patchType] ++ opt .diff x.diff ++ many .issue x.resolves := rfl

theorem passes_signer (E : VEnv) (v : SpecVersion) (x : Signer) :
    (Elem.signer x).Passes E v ↔ Signer.validate E v x = .ok [] := Iff.rfl

theorem checked_signer (x : Signer) : (Elem.signer x).checked =
      [.algorithm x.algorithm] := rfl

theorem passes_dataGovernance (E : VEnv) (v : SpecVersion) (x : DataGovernance) :
    (Elem.dataGovernance x).Passes E v ↔ DataGovernance.validate E v x = .ok [] := Iff.rfl

theorem checked_dataGovernance (x : DataGovernance) : (Elem.dataGovernance x).checked =
      many .dataGovernanceResponsibleParty x.custodians ++
      many .dataGovernanceResponsibleParty x.stewards ++
      many .dataGovernanceResponsibleParty x.owners := rfl

theorem passes_graphic (E : VEnv) (v : SpecVersion) (x : Graphic) :
    (Elem.graphic x).Passes E v ↔ Graphic.validate E v x = .ok [] := Iff.rfl

theorem checked_graphic (x : Graphic) : (Elem.graphic x).checked =
      opt .attachment x.image := rfl

theorem passes_graphicsCollection (E : VEnv) (v : SpecVersion) (x : GraphicsCollection) :
    (Elem.graphicsCollection x).Passes E v ↔ GraphicsCollection.validate E v x = .ok [] := Iff.rfl

theorem checked_graphicsCollection (x : GraphicsCollection) : (Elem.graphicsCollection x).checked =
      many .graphic x.collection := rfl

theorem passes_dataContents (E : VEnv) (v : SpecVersion) (x : DataContents) :
    (Elem.dataContents x).Passes E v ↔ DataContents.validate E v x = .ok [] := Iff.rfl

theorem checked_dataContents (x : DataContents) : (Elem.dataContents x).checked =
      opt .attachment x.attachment ++ opt .uri x.url ++ many .property x.properties := rfl

theorem passes_componentData (E : VEnv) (v : SpecVersion) (x : ComponentData) :
    (Elem.componentData x).Passes E v ↔ ComponentData.validate E v x = .ok [] := Iff.rfl

theorem checked_componentData (x : ComponentData) : (Elem.componentData x).checked =
      [.componentDataType x.dataType] ++ opt .dataContents x.contents ++
      opt .graphicsCollection x.graphics ++ opt .dataGovernance x.governance := rfl

theorem passes_modelParametersApproach (E : VEnv) (v : SpecVersion) (x : ModelParametersApproach) :
    (Elem.modelParametersApproach x).Passes E v ↔ ModelParametersApproach.validate E v x = .ok [] := Iff.rfl

theorem checked_modelParametersApproach (x : ModelParametersApproach) : (Elem.modelParametersApproach x).checked =
      opt .approachType x.approachType := rfl

theorem passes_modelParameters (E : VEnv) (v : SpecVersion) (x : ModelParameters) :
    (Elem.modelParameters x).Passes E v ↔ ModelParameters.validate E v x = .ok [] := Iff.rfl

theorem checked_modelParameters (x : ModelParameters) : (Elem.modelParameters x).checked =
      opt .modelParametersApproach x.approach ++ many .dataset x.datasets := rfl

theorem passes_quantitativeAnalysis (E : VEnv) (v : SpecVersion) (x : QuantitativeAnalysis) :
    (Elem.quantitativeAnalysis x).Passes E v ↔ QuantitativeAnalysis.validate E v x = .ok [] := Iff.rfl

theorem checked_quantitativeAnalysis (x : QuantitativeAnalysis) : (Elem.quantitativeAnalysis x).checked =
      opt .graphicsCollection x.graphics := rfl

theorem passes_modelCard (E : VEnv) (v : SpecVersion) (x : ModelCard) :
    (Elem.modelCard x).Passes E v ↔ ModelCard.validate E v x = .ok [] := Iff.rfl

theorem checked_modelCard (x : ModelCard) : (Elem.modelCard x).checked =
      opt .modelParameters x.modelParameters ++
      opt .quantitativeAnalysis x.quantitativeAnalysis ++ many .property x.properties := rfl

theorem passes_swid (E : VEnv) (v : SpecVersion) (x : Swid) :
    (Elem.swid x).Passes E v ↔ Swid.validate E v x = .ok [] := Iff.rfl

theorem checked_swid (x : Swid) : (Elem.swid x).checked =
      opt .attachedText x.text ++ opt .uri x.url := rfl

theorem passes_occurrence (E : VEnv) (v : SpecVersion) (x : Occurrence) :
    (Elem.occurrence x).Passes E v ↔ Occurrence.validate E v x = .ok [] := Iff.rfl

theorem checked_occurrence (x : Occurrence) : (Elem.occurrence x).checked =
      opt .bomRefAttribute x.bomRef := rfl

theorem passes_frame (E : VEnv) (v : SpecVersion) (x : Frame) :
    (Elem.frame x).Passes E v ↔ Frame.validate E v x = .ok [] := Iff.rfl

theorem checked_frame (x : Frame) : (Elem.frame x).checked =
      opt .normalizedString x.package ++ [.normalizedString x.module] ++
      opt .normalizedString x.function ++ many .normalizedString x.parameters ++
      opt .normalizedString x.fullFilename := rfl

theorem passes_callstack (E : VEnv) (v : SpecVersion) (x : Callstack) :
    (Elem.callstack x).Passes E v ↔ Callstack.validate E v x = .ok [] := Iff.rfl

theorem checked_callstack (x : Callstack) : (Elem.callstack x).checked =
      x.frames.map .frame := rfl

theorem passes_identity (E : VEnv) (v : SpecVersion) (x : Identity) :
    (Elem.identity x).Passes E v ↔ Identity.validate E v x = .ok [] := Iff.rfl

theorem checked_identity (x : Identity) : (Elem.identity x).checked =
      [.identityField x.field] ++ opt .confidence x.confidence := rfl

theorem passes_componentEvidence (E : VEnv) (v : SpecVersion) (x : ComponentEvidence) :
    (Elem.componentEvidence x).Passes E v ↔ ComponentEvidence.validate E v x = .ok [] := Iff.rfl

theorem checked_componentEvidence (x : ComponentEvidence) : (Elem.componentEvidence x).checked =
      opt .licenses x.licenses ++ many .occurrence x.occurrences ++ opt .callstack x.callstack ++
      opt .identity x.identity := rfl

theorem passes_component (E : VEnv) (v : SpecVersion) (x : Component) :
    (Elem.component x).Passes E v ↔ Component.validate E v x = .ok [] := Iff.rfl

theorem checked_component (x : Component) : (Elem.component x).checked =
      [.classification x.componentType] ++ opt .mimeType x.mimeType ++
      opt .organizationalEntity x.supplier ++ opt .normalizedString x.author ++
      opt .normalizedString x.publisher ++ opt .normalizedString x.group ++
      [.normalizedString x.name] ++ opt .normalizedString x.version ++
      opt .normalizedString x.description ++ opt .scope x.scope ++ many .hash x.hashes ++
      opt .licenses x.licenses ++ opt .normalizedString x.copyright ++ opt .cpe x.cpe ++
      opt .purl x.purl ++ opt .swid x.swid ++ opt .pedigree x.pedigree ++
      many .externalReference x.externalReferences ++ many .property x.properties ++
      many .component x.components ++ opt .componentEvidence x.evidence := rfl

theorem passes_pedigree (E : VEnv) (v : SpecVersion) (x : Pedigree) :
    (Elem.pedigree x).Passes E v ↔ Pedigree.validate E v x = .ok [] := Iff.rfl

theorem checked_pedigree (x : Pedigree) : (Elem.pedigree x).checked =
      many .component x.ancestors ++ many .component x.descendants ++
      many .component x.variants ++ many .commit x.commits ++ many .patch x.patches := rfl

theorem passes_dataClassification (E : VEnv) (v : SpecVersion) (x : DataClassification) :
    (Elem.dataClassification x).Passes E v ↔ DataClassification.validate E v x = .ok [] := Iff.rfl

theorem checked_dataClassification (x : DataClassification) : (Elem.dataClassification x).checked =
      [.dataFlowType x.flow] ++ [.normalizedString x.classification] := rfl

theorem passes_serviceData (E : VEnv) (v : SpecVersion) (x : ServiceData) :
    (Elem.serviceData x).Passes E v ↔ ServiceData.validate E v x = .ok [] := Iff.rfl

theorem checked_serviceData (x : ServiceData) : (Elem.serviceData x).checked =
      opt .normalizedString x.name ++ opt .normalizedString x.description ++
      [.dataClassification x.classification] ++ opt .dataGovernance x.governance ++
      many .uri x.source ++ many .uri x.destination := rfl

theorem passes_service (E : VEnv) (v : SpecVersion) (x : Service) :
    (Elem.service x).Passes E v ↔ Service.validate E v x = .ok [] := Iff.rfl

theorem checked_service (x : Service) : (Elem.service x).checked =
      opt .organizationalEntity x.provider ++ opt .normalizedString x.group ++
      [.normalizedString x.name] ++ opt .normalizedString x.version ++
      opt .normalizedString x.description ++ many .uri x.endpoints ++
      opt .serviceDataChoice x.data ++ opt .licenses x.licenses ++
      many .externalReference x.externalReferences ++ many .property x.properties ++
      many .service x.services ++ opt .normalizedString x.trustZone := rfl

theorem passes_tool (E : VEnv) (v : SpecVersion) (x : Tool) :
    (Elem.tool x).Passes E v ↔ Tool.validate E v x = .ok [] := Iff.rfl

theorem checked_tool (x : Tool) : (Elem.tool x).checked =
      opt .normalizedString x.vendor ++ opt .normalizedString x.name ++
      opt .normalizedString x.version ++ many .hash x.hashes ++
      many .externalReference x.externalReferences := rfl

theorem passes_metadata (E : VEnv) (v : SpecVersion) (x : Metadata) :
    (Elem.metadata x).Passes E v ↔ Metadata.validate E v x = .ok [] := Iff.rfl

theorem checked_metadata (x : Metadata) : (Elem.metadata x).checked =
      opt .dateTime x.timestamp ++ opt .tools x.tools ++ many .organizationalContact x.authors ++
      opt .component x.component ++ opt .organizationalEntity x.manufacture ++
      opt .organizationalEntity x.supplier ++ opt .licenses x.licenses ++
      many .property x.properties := rfl

theorem passes_composition (E : VEnv) (v : SpecVersion) (x : Composition) :
    (Elem.composition x).Passes E v ↔ Composition.validate E v x = .ok [] := Iff.rfl

theorem checked_composition (x : Composition) : (Elem.composition x).checked =
      [.aggregateType x.aggregate] ++ opt .signature x.signature := rfl

theorem passes_advisory (E : VEnv) (v : SpecVersion) (x : Advisory) :
    (Elem.advisory x).Passes E v ↔ Advisory.validate E v x = .ok [] := Iff.rfl

theorem checked_advisory (x : Advisory) : (Elem.advisory x).checked =
      opt .normalizedString x.title ++ [.uri x.url] := rfl

theorem passes_vulnerabilitySource (E : VEnv) (v : SpecVersion) (x : VulnerabilitySource) :
    (Elem.vulnerabilitySource x).Passes E v ↔ VulnerabilitySource.validate E v x = .ok [] := Iff.rfl

theorem checked_vulnerabilitySource (x : VulnerabilitySource) : (Elem.vulnerabilitySource x).checked =
      opt .normalizedString x.name ++ opt .uri x.url := rfl

theorem passes_vulnerabilityReference (E : VEnv) (v : SpecVersion) (x : VulnerabilityReference) :
    (Elem.vulnerabilityReference x).Passes E v ↔ VulnerabilityReference.validate E v x = .ok [] := Iff.rfl

theorem checked_vulnerabilityReference (x : VulnerabilityReference) : (Elem.vulnerabilityReference x).checked =
      [.normalizedString x.id] ++ [.vulnerabilitySource x.vulnerabilitySource] := rfl

theorem passes_vulnerabilityRating (E : VEnv) (v : SpecVersion) (x : VulnerabilityRating) :
    (Elem.vulnerabilityRating x).Passes E v ↔ VulnerabilityRating.validate E v x = .ok [] := Iff.rfl

theorem checked_vulnerabilityRating (x : VulnerabilityRating) : (Elem.vulnerabilityRating x).checked =
      opt .vulnerabilitySource x.vulnerabilitySource ++ opt .severity x.severity ++
      opt .scoreMethod x.scoreMethod ++ opt .normalizedString x.vector := rfl

theorem passes_vulnerabilityCredits (E : VEnv) (v : SpecVersion) (x : VulnerabilityCredits) :
    (Elem.vulnerabilityCredits x).Passes E v ↔ VulnerabilityCredits.validate E v x = .ok [] := Iff.rfl

theorem checked_vulnerabilityCredits (x : VulnerabilityCredits) : (Elem.vulnerabilityCredits x).checked =
      many .organizationalEntity x.organizations ++ many .organizationalContact x.individuals := rfl

theorem passes_vulnerabilityAnalysis (E : VEnv) (v : SpecVersion) (x : VulnerabilityAnalysis) :
    (Elem.vulnerabilityAnalysis x).Passes E v ↔ VulnerabilityAnalysis.validate E v x = .ok [] := Iff.rfl

theorem checked_vulnerabilityAnalysis (x : VulnerabilityAnalysis) : (Elem.vulnerabilityAnalysis x).checked =
      opt .impactAnalysisState x.state ++ opt .impactAnalysisJustification x.justification ++
      many .impactAnalysisResponse x.responses ++ opt .dateTime x.firstIssued := rfl

theorem passes_targetVersion (E : VEnv) (v : SpecVersion) (x : TargetVersion) :
    (Elem.targetVersion x).Passes E v ↔ TargetVersion.validate E v x = .ok [] := Iff.rfl

theorem checked_targetVersion (x : TargetVersion) : (Elem.targetVersion x).checked =
      [.versionRange x.versionRange] ++ [.status x.status] := rfl

theorem passes_vulnerabilityTarget (E : VEnv) (v : SpecVersion) (x : VulnerabilityTarget) :
    (Elem.vulnerabilityTarget x).Passes E v ↔ VulnerabilityTarget.validate E v x = .ok [] := Iff.rfl

theorem checked_vulnerabilityTarget (x : VulnerabilityTarget) : (Elem.vulnerabilityTarget x).checked =
      many .targetVersion x.versions := rfl

theorem passes_vulnerability (E : VEnv) (v : SpecVersion) (x : Vulnerability) :
    (Elem.vulnerability x).Passes E v ↔ Vulnerability.validate E v x = .ok [] := Iff.rfl

theorem checked_vulnerability (x : Vulnerability) : (Elem.vulnerability x).checked =
      opt .normalizedString x.id ++ opt .vulnerabilitySource x.vulnerabilitySource ++
      many .vulnerabilityReference x.vulnerabilityReferences ++
      many .vulnerabilityRating x.vulnerabilityRatings ++ many .advisory x.advisories ++
      opt .dateTime x.created ++ opt .dateTime x.published ++ opt .dateTime x.updated ++
      opt .vulnerabilityCredits x.vulnerabilityCredits ++ opt .tools x.tools ++
      opt .vulnerabilityAnalysis x.vulnerabilityAnalysis ++
      many .vulnerabilityTarget x.vulnerabilityTargets ++ many .property x.properties := rfl

theorem passes_annotation (E : VEnv) (v : SpecVersion) (x : Annotation) :
    (Elem.annotation x).Passes E v ↔ Annotation.validate E v x = .ok [] := Iff.rfl

theorem checked_annotation (x : Annotation) : (Elem.annotation x).checked =
      [.annotator x.annotator] ++ [.dateTime x.timestamp] := rfl

theorem passes_input (E : VEnv) (v : SpecVersion) (x : Input) :
    (Elem.input x).Passes E v ↔ Input.validate E v x = .ok [] := Iff.rfl

theorem checked_input (x : Input) : (Elem.input x).checked =
      inputParts x.required ++ opt .resourceReference x.source ++
      opt .resourceReference x.target ++ many .property x.properties := rfl

theorem passes_output (E : VEnv) (v : SpecVersion) (x : Output) :
    (Elem.output x).Passes E v ↔ Output.validate E v x = .ok [] := Iff.rfl

theorem checked_output (x : Output) : (Elem.output x).checked =
      outputParts x.required ++ opt .outputType x.type ++ opt .resourceReference x.source ++
      opt .resourceReference x.target ++ many .property x.properties := rfl

theorem passes_command (E : VEnv) (v : SpecVersion) (x : Command) :
    (Elem.command x).Passes E v ↔ Command.validate E v x = .ok [] := Iff.rfl

theorem checked_command (x : Command) : (Elem.command x).checked =
      many .property x.properties := rfl

theorem passes_step (E : VEnv) (v : SpecVersion) (x : Step) :
    (Elem.step x).Passes E v ↔ Step.validate E v x = .ok [] := Iff.rfl

theorem checked_step (x : Step) : (Elem.step x).checked =
      many .command x.commands ++ many .property x.properties := rfl

theorem passes_triggerEvent (E : VEnv) (v : SpecVersion) (x : TriggerEvent) :
    (Elem.triggerEvent x).Passes E v ↔ TriggerEvent.validate E v x = .ok [] := Iff.rfl

theorem checked_triggerEvent (x : TriggerEvent) : (Elem.triggerEvent x).checked =
      opt .dateTime x.timeReceived ++ opt .attachment x.data ++
      opt .resourceReference x.source ++ opt .resourceReference x.target ++
      many .property x.properties := rfl

theorem passes_condition (E : VEnv) (v : SpecVersion) (x : Condition) :
    (Elem.condition x).Passes E v ↔ Condition.validate E v x = .ok [] := Iff.rfl

theorem checked_condition (x : Condition) : (Elem.condition x).checked =
      many .property x.properties := rfl

theorem passes_trigger (E : VEnv) (v : SpecVersion) (x : Trigger) :
    (Elem.trigger x).Passes E v ↔ Trigger.validate E v x = .ok [] := Iff.rfl

theorem rule_trigger (E : VEnv) (v : SpecVersion) (x : Trigger) :
    (Elem.trigger x).rule E v ↔ (Distinct x.conditions ∧ Distinct x.inputs ∧ Distinct x.outputs) := Iff.rfl

theorem checked_trigger (x : Trigger) : (Elem.trigger x).checked =
      [.bomRefAttribute x.bomRef] ++ many .resourceReference x.resourceReferences ++
      [.triggerType x.type] ++ opt .triggerEvent x.event ++ many .condition x.conditions ++
      opt .dateTime x.timeActivated ++ many .input x.inputs ++ many .output x.outputs ++
      many .property x.properties := rfl

theorem passes_volume (E : VEnv) (v : SpecVersion) (x : Volume) :
    (Elem.volume x).Passes E v ↔ Volume.validate E v x = .ok [] := Iff.rfl

theorem checked_volume (x : Volume) : (Elem.volume x).checked =
      [.volumeMode x.mode] := rfl

theorem passes_workspace (E : VEnv) (v : SpecVersion) (x : Workspace) :
    (Elem.workspace x).Passes E v ↔ Workspace.validate E v x = .ok [] := Iff.rfl

theorem rule_workspace (E : VEnv) (v : SpecVersion) (x : Workspace) :
    (Elem.workspace x).rule E v ↔ (Distinct x.resourceReferences) := Iff.rfl

theorem checked_workspace (x : Workspace) : (Elem.workspace x).checked =
      many .resourceReference x.resourceReferences ++ opt .accessMode x.accessMode := rfl

theorem passes_workflowTask (E : VEnv) (v : SpecVersion) (x : WorkflowTask) :
    (Elem.workflowTask x).Passes E v ↔ WorkflowTask.validate E v x = .ok [] := Iff.rfl

theorem rule_workflowTask (E : VEnv) (v : SpecVersion) (x : WorkflowTask) :
    (Elem.workflowTask x).rule E v ↔ (Distinct x.steps ∧ Distinct x.inputs ∧ Distinct x.outputs ∧ Distinct x.workspaces ∧
      Distinct x.runtimeTopology) := Iff.rfl

theorem checked_workflowTask (x : WorkflowTask) : (Elem.workflowTask x).checked =
      many .resourceReference x.resourceReferences ++ x.taskTypes.map .taskType ++
      opt .trigger x.trigger ++ many .step x.steps ++ many .input x.inputs ++
      many .output x.outputs ++ opt .dateTime x.timeStart ++ opt .dateTime x.timeEnd ++
      many .workspace x.workspaces := rfl

theorem passes_workflow (E : VEnv) (v : SpecVersion) (x : Workflow) :
    (Elem.workflow x).Passes E v ↔ Workflow.validate E v x = .ok [] := Iff.rfl

theorem rule_workflow (E : VEnv) (v : SpecVersion) (x : Workflow) :
    (Elem.workflow x).rule E v ↔ (Distinct x.tasks ∧ Distinct x.taskDependencies ∧ Distinct x.steps ∧ Distinct x.inputs ∧
      Distinct x.outputs ∧ Distinct x.workspaces ∧ Distinct x.runtimeTopology) := Iff.rfl

theorem checked_workflow (x : Workflow) : (Elem.workflow x).checked =
      many .resourceReference x.resourceReferences ++ many .workflowTask x.tasks ++
      x.taskTypes.map .taskType ++ opt .trigger x.trigger ++ many .step x.steps ++
      many .input x.inputs ++ many .output x.outputs ++ opt .dateTime x.timeStart ++
      opt .dateTime x.timeEnd ++ many .workspace x.workspaces := rfl

theorem passes_formula (E : VEnv) (v : SpecVersion) (x : Formula) :
    (Elem.formula x).Passes E v ↔ Formula.validate E v x = .ok [] := Iff.rfl

theorem rule_formula (E : VEnv) (v : SpecVersion) (x : Formula) :
    (Elem.formula x).rule E v ↔ (v = .v1_5 ∧ Distinct x.components ∧ Distinct x.services ∧ Distinct x.workflows) := Iff.rfl

theorem checked_formula (x : Formula) : (Elem.formula x).checked =
      many .component x.components ++ many .service x.services ++ many .workflow x.workflows ++
      many .property x.properties := rfl

theorem passes_bom (E : VEnv) (v : SpecVersion) (x : Bom) :
    (Elem.bom x).Passes E v ↔ Bom.validateVersion E v x = .ok [] := Iff.rfl

theorem rule_bom (E : VEnv) (v : SpecVersion) (x : Bom) :
    (Elem.bom x).rule E v ↔ (x.refs.Nodup ∧ (∀ d ∈ x.dependencies.getD [], DependencyKnown x d) ∧
      ∀ c ∈ x.compositions.getD [], CompositionKnown x c) := Iff.rfl

theorem checked_bom (x : Bom) : (Elem.bom x).checked =
      opt .serialNumber x.serialNumber ++ opt .metadata x.metadata ++
      many .component x.components ++ many .service x.services ++
      many .externalReference x.externalReferences ++ many .composition x.compositions ++
      many .property x.properties ++ many .vulnerability x.vulnerabilities := rfl

theorem passes_licenseIdentifier (E : VEnv) (v : SpecVersion) (x : LicenseIdentifier) :
    (Elem.licenseIdentifier x).Passes E v ↔ LicenseIdentifier.validate E v x = .ok [] := Iff.rfl

theorem passes_licenseContact (E : VEnv) (v : SpecVersion) (x : LicenseContact) :
    (Elem.licenseContact x).Passes E v ↔ LicenseContact.validate E v x = .ok [] := Iff.rfl

theorem passes_licenseChoice (E : VEnv) (v : SpecVersion) (x : LicenseChoice) :
    (Elem.licenseChoice x).Passes E v ↔ LicenseChoice.validate E v x = .ok [] := Iff.rfl

theorem passes_licenses (E : VEnv) (v : SpecVersion) (x : Licenses) :
    (Elem.licenses x).Passes E v ↔ Licenses.validate E v x = .ok [] := Iff.rfl

theorem rule_licenses (E : VEnv) (v : SpecVersion) (x : Licenses) :
    (Elem.licenses x).rule E v ↔ (v = .v1_5 → (∀ c ∈ x, ∃ l, c = .license l) ∨ x.length ≤ 1) := Iff.rfl

theorem passes_signature (E : VEnv) (v : SpecVersion) (x : Signature) :
    (Elem.signature x).Passes E v ↔ Signature.validate E v x = .ok [] := Iff.rfl

theorem passes_dataGovernanceResponsibleParty (E : VEnv) (v : SpecVersion) (x : DataGovernanceResponsibleParty) :
    (Elem.dataGovernanceResponsibleParty x).Passes E v ↔ DataGovernanceResponsibleParty.validate E v x = .ok [] := Iff.rfl

theorem passes_dataset (E : VEnv) (v : SpecVersion) (x : Dataset) :
    (Elem.dataset x).Passes E v ↔ Dataset.validate E v x = .ok [] := Iff.rfl

theorem passes_serviceDataChoice (E : VEnv) (v : SpecVersion) (x : ServiceDataChoice) :
    (Elem.serviceDataChoice x).Passes E v ↔ ServiceDataChoice.validate E v x = .ok [] := Iff.rfl

theorem passes_tools (E : VEnv) (v : SpecVersion) (x : Tools) :
    (Elem.tools x).Passes E v ↔ Tools.validate E v x = .ok [] := Iff.rfl

theorem rule_tools (E : VEnv) (v : SpecVersion) (x : Tools) :
    (Elem.tools x).rule E v ↔ (v = .v1_5 ∨ ∃ l, x = .list l) := Iff.rfl

theorem passes_annotator (E : VEnv) (v : SpecVersion) (x : Annotator) :
    (Elem.annotator x).Passes E v ↔ Annotator.validate E v x = .ok [] := Iff.rfl

theorem passes_resourceReference (E : VEnv) (v : SpecVersion) (x : ResourceReference) :
    (Elem.resourceReference x).Passes E v ↔ ResourceReference.validate E v x = .ok [] := Iff.rfl

macro "elem_simp" : tactic => `(tactic| simp only [
  passes_normalizedString, passes_uri, passes_dateTime, passes_purl, passes_cpe, passes_mimeType,
  passes_bomRefAttribute, passes_serialNumber, passes_hashValue, passes_attachmentEncoding,
  passes_confidence, passes_spdxId, passes_spdxExpression, passes_refUri, passes_classification,
  passes_aggregateType, passes_scoreMethod, passes_scope, passes_hashAlgorithm,
  passes_externalReferenceType, passes_identityField, passes_algorithm, passes_licenseType,
  passes_approachType, passes_componentDataType, passes_issueClassification,
  passes_patchClassification, passes_dataFlowType, passes_impactAnalysisState,
  passes_impactAnalysisJustification, passes_impactAnalysisResponse, passes_severity,
  passes_status, passes_taskType, passes_outputType, passes_triggerType, passes_accessMode,
  passes_volumeMode, passes_versionRange, passes_attachedText, passes_attachment,
  passes_organizationalContact, passes_organizationalEntity, passes_property, passes_hash,
  passes_externalReference, passes_licensing, passes_license, passes_identifiableAction,
  passes_commit, passes_diff, passes_source, passes_issue, passes_patch, passes_signer,
  passes_dataGovernance, passes_graphic, passes_graphicsCollection, passes_dataContents,
  passes_componentData, passes_modelParametersApproach, passes_modelParameters,
  passes_quantitativeAnalysis, passes_modelCard, passes_swid, passes_occurrence, passes_frame,
  passes_callstack, passes_identity, passes_componentEvidence, passes_component, passes_pedigree,
  passes_dataClassification, passes_serviceData, passes_service, passes_tool, passes_metadata,
  passes_composition, passes_advisory, passes_vulnerabilitySource, passes_vulnerabilityReference,
  passes_vulnerabilityRating, passes_vulnerabilityCredits, passes_vulnerabilityAnalysis,
  passes_targetVersion, passes_vulnerabilityTarget, passes_vulnerability, passes_annotation,
  passes_input, passes_output, passes_command, passes_step, passes_triggerEvent,
  passes_condition, passes_trigger, passes_volume, passes_workspace, passes_workflowTask,
  passes_workflow, passes_formula, passes_bom, passes_licenseIdentifier, passes_licenseContact,
  passes_licenseChoice, passes_licenses, passes_signature, passes_dataGovernanceResponsibleParty,
  passes_dataset, passes_serviceDataChoice, passes_tools, passes_annotator,
  passes_resourceReference, rule_attachedText, rule_trigger, rule_workspace, rule_workflowTask,
  rule_workflow, rule_formula, rule_bom, rule_licenses, rule_tools, checked_attachedText,
  checked_attachment, checked_organizationalContact, checked_organizationalEntity,
  checked_property, checked_hash, checked_externalReference, checked_licensing, checked_license,
  checked_identifiableAction, checked_commit, checked_diff, checked_source, checked_issue,
  checked_patch, checked_signer, checked_dataGovernance, checked_graphic,
  checked_graphicsCollection, checked_dataContents, checked_componentData,
  checked_modelParametersApproach, checked_modelParameters, checked_quantitativeAnalysis,
  checked_modelCard, checked_swid, checked_occurrence, checked_frame, checked_callstack,
  checked_identity, checked_componentEvidence, checked_component, checked_pedigree,
  checked_dataClassification, checked_serviceData, checked_service, checked_tool,
  checked_metadata, checked_composition, checked_advisory, checked_vulnerabilitySource,
  checked_vulnerabilityReference, checked_vulnerabilityRating, checked_vulnerabilityCredits,
  checked_vulnerabilityAnalysis, checked_targetVersion, checked_vulnerabilityTarget,
  checked_vulnerability, checked_annotation, checked_input, checked_output, checked_command,
  checked_step, checked_triggerEvent, checked_condition, checked_trigger, checked_volume,
  checked_workspace, checked_workflowTask, checked_workflow, checked_formula, checked_bom])

end Cdx
