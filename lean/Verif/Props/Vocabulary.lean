import Verif.Model.Enums
import Verif.Model.Checks
import Verif.Spec.Vocabulary
import Verif.Lemmas.BomPasses

/-!
# C31, C53: enumerations against the vocabularies of the schemas
-/

namespace Cdx.Props

open Cdx.Spec

/-- C31 for `Classification`: its values are the names of the schema, survive printing and parsing, and
every other text is kept verbatim. -/
theorem C31_classification :
    Implements classificationNames Classification.display Classification.new Classification.fallback? := by
  exact ⟨by intro x h; cases x <;> first | exact ⟨by decide, rfl⟩ | (cases h),
    by decide, by intro s; unfold Classification.new; split <;> rfl,
    by intro s hs; unfold Classification.new; split <;> first | rfl | exact absurd (by decide) hs,
    by intro x s h; cases x <;> first | exact Option.some.inj h | (cases h)⟩

/-- C31 for `Scope`: its values are the names of the schema, survive printing and parsing, and
every other text is kept verbatim and is reported as invalid. -/
theorem C31_scope :
    Implements scopeNames Scope.display Scope.new Scope.fallback? ∧
      ∀ s, (validateScope (Scope.new s) = .ok () ↔ s ∈ scopeNames) := by
  have h : Implements scopeNames Scope.display Scope.new Scope.fallback? :=
    ⟨by intro x h; cases x <;> first | exact ⟨by decide, rfl⟩ | (cases h),
    by decide, by intro s; unfold Scope.new; split <;> rfl,
    by intro s hs; unfold Scope.new; split <;> first | rfl | exact absurd (by decide) hs,
    by intro x s h; cases x <;> first | exact Option.some.inj h | (cases h)⟩
  refine ⟨h, fun s => ?_⟩
  by_cases hs : s ∈ scopeNames
  · simp [validateScope, h.known s hs, hs, Check.require]
  · simp [validateScope, h.unknown s hs, hs, Check.require]

/-- C31 for `Encoding`: its values are the names of the schema, survive printing and parsing, and
every other text is kept verbatim and is reported as invalid. -/
theorem C31_encoding :
    Implements encodingNames Encoding.display Encoding.new Encoding.fallback? ∧
      ∀ s, (validateEncoding (Encoding.new s) = .ok () ↔ s ∈ encodingNames) := by
  have h : Implements encodingNames Encoding.display Encoding.new Encoding.fallback? :=
    ⟨by intro x h; cases x <;> first | exact ⟨by decide, rfl⟩ | (cases h),
    by decide, by intro s; unfold Encoding.new; split <;> rfl,
    by intro s hs; unfold Encoding.new; split <;> first | rfl | exact absurd (by decide) hs,
    by intro x s h; cases x <;> first | exact Option.some.inj h | (cases h)⟩
  refine ⟨h, fun s => ?_⟩
  by_cases hs : s ∈ encodingNames
  · simp [validateEncoding, h.known s hs, hs, Check.require]
  · simp [validateEncoding, h.unknown s hs, hs, Check.require]

/-- C31 for `IssueClassification`: its values are the names of the schema, survive printing and parsing, and
every other text is kept verbatim and is reported as invalid. -/
theorem C31_issueClassification :
    Implements issueClassificationNames IssueClassification.display IssueClassification.new IssueClassification.fallback? ∧
      ∀ s, (validateIssueClassification (IssueClassification.new s) = .ok () ↔ s ∈ issueClassificationNames) := by
  have h : Implements issueClassificationNames IssueClassification.display IssueClassification.new IssueClassification.fallback? :=
    ⟨by intro x h; cases x <;> first | exact ⟨by decide, rfl⟩ | (cases h),
    by decide, by intro s; unfold IssueClassification.new; split <;> rfl,
    by intro s hs; unfold IssueClassification.new; split <;> first | rfl | exact absurd (by decide) hs,
    by intro x s h; cases x <;> first | exact Option.some.inj h | (cases h)⟩
  refine ⟨h, fun s => ?_⟩
  by_cases hs : s ∈ issueClassificationNames
  · simp [validateIssueClassification, h.known s hs, hs, Check.require]
  · simp [validateIssueClassification, h.unknown s hs, hs, Check.require]

/-- C31 for `PatchClassification`: its values are the names of the schema, survive printing and parsing, and
every other text is kept verbatim and is reported as invalid. -/
theorem C31_patchClassification :
    Implements patchClassificationNames PatchClassification.display PatchClassification.new PatchClassification.fallback? ∧
      ∀ s, (validatePatchClassification (PatchClassification.new s) = .ok () ↔ s ∈ patchClassificationNames) := by
  have h : Implements patchClassificationNames PatchClassification.display PatchClassification.new PatchClassification.fallback? :=
    ⟨by intro x h; cases x <;> first | exact ⟨by decide, rfl⟩ | (cases h),
    by decide, by intro s; unfold PatchClassification.new; split <;> rfl,
    by intro s hs; unfold PatchClassification.new; split <;> first | rfl | exact absurd (by decide) hs,
    by intro x s h; cases x <;> first | exact Option.some.inj h | (cases h)⟩
  refine ⟨h, fun s => ?_⟩
  by_cases hs : s ∈ patchClassificationNames
  · simp [validatePatchClassification, h.known s hs, hs, Check.require]
  · simp [validatePatchClassification, h.unknown s hs, hs, Check.require]

/-- C31 for `ComponentDataType`: its values are the names of the schema, survive printing and parsing, and
every other text is kept verbatim and is reported as invalid. -/
theorem C31_componentDataType :
    Implements componentDataTypeNames ComponentDataType.display ComponentDataType.new ComponentDataType.fallback? ∧
      ∀ s, (validateDatatype (ComponentDataType.new s) = .ok () ↔ s ∈ componentDataTypeNames) := by
  have h : Implements componentDataTypeNames ComponentDataType.display ComponentDataType.new ComponentDataType.fallback? :=
    ⟨by intro x h; cases x <;> first | exact ⟨by decide, rfl⟩ | (cases h),
    by decide, by intro s; unfold ComponentDataType.new; split <;> rfl,
    by intro s hs; unfold ComponentDataType.new; split <;> first | rfl | exact absurd (by decide) hs,
    by intro x s h; cases x <;> first | exact Option.some.inj h | (cases h)⟩
  refine ⟨h, fun s => ?_⟩
  by_cases hs : s ∈ componentDataTypeNames
  · simp [validateDatatype, h.known s hs, hs, Check.require]
  · simp [validateDatatype, h.unknown s hs, hs, Check.require]

/-- C31 for `HashAlgorithm`: its values are the names of the schema, survive printing and parsing, and
every other text is kept verbatim and is reported as invalid. -/
theorem C31_hashAlgorithm :
    Implements hashAlgorithmNames HashAlgorithm.display HashAlgorithm.new HashAlgorithm.fallback? ∧
      ∀ s, (validateHashAlgorithm (HashAlgorithm.new s) = .ok () ↔ s ∈ hashAlgorithmNames) := by
  have h : Implements hashAlgorithmNames HashAlgorithm.display HashAlgorithm.new HashAlgorithm.fallback? :=
    ⟨by intro x h; cases x <;> first | exact ⟨by decide, rfl⟩ | (cases h),
    by decide, by intro s; unfold HashAlgorithm.new; split <;> rfl,
    by intro s hs; unfold HashAlgorithm.new; split <;> first | rfl | exact absurd (by decide) hs,
    by intro x s h; cases x <;> first | exact Option.some.inj h | (cases h)⟩
  refine ⟨h, fun s => ?_⟩
  by_cases hs : s ∈ hashAlgorithmNames
  · simp [validateHashAlgorithm, h.known s hs, hs, Check.require]
  · simp [validateHashAlgorithm, h.unknown s hs, hs, Check.require]

/-- C31 for `LicenseType`: its values are the names of the schema, survive printing and parsing, and
every other text is kept verbatim and is reported as invalid. -/
theorem C31_licenseType :
    Implements licenseTypeNames LicenseType.display LicenseType.new LicenseType.fallback? ∧
      ∀ s, (validateLicenseType (LicenseType.new s) = .ok () ↔ s ∈ licenseTypeNames) := by
  have h : Implements licenseTypeNames LicenseType.display LicenseType.new LicenseType.fallback? :=
    ⟨by intro x h; cases x <;> first | exact ⟨by decide, rfl⟩ | (cases h),
    by decide, by intro s; unfold LicenseType.new; split <;> rfl,
    by intro s hs; unfold LicenseType.new; split <;> first | rfl | exact absurd (by decide) hs,
    by intro x s h; cases x <;> first | exact Option.some.inj h | (cases h)⟩
  refine ⟨h, fun s => ?_⟩
  by_cases hs : s ∈ licenseTypeNames
  · simp [validateLicenseType, h.known s hs, hs, Check.require]
  · simp [validateLicenseType, h.unknown s hs, hs, Check.require]

/-- C31 for `Phase`: its values are the names of the schema, survive printing and parsing, and
every other text is kept verbatim. -/
theorem C31_phase :
    Implements phaseNames Phase.display Phase.new Phase.fallback? := by
  exact ⟨by intro x h; cases x <;> first | exact ⟨by decide, rfl⟩ | (cases h),
    by decide, by intro s; unfold Phase.new; split <;> rfl,
    by intro s hs; unfold Phase.new; split <;> first | rfl | exact absurd (by decide) hs,
    by intro x s h; cases x <;> first | exact Option.some.inj h | (cases h)⟩

/-- C31 for `ApproachType`: its values are the names of the schema, survive printing and parsing, and
every other text is kept verbatim and is reported as invalid. -/
theorem C31_approachType :
    Implements approachTypeNames ApproachType.display ApproachType.new ApproachType.fallback? ∧
      ∀ s, (validateApproachType (ApproachType.new s) = .ok () ↔ s ∈ approachTypeNames) := by
  have h : Implements approachTypeNames ApproachType.display ApproachType.new ApproachType.fallback? :=
    ⟨by intro x h; cases x <;> first | exact ⟨by decide, rfl⟩ | (cases h),
    by decide, by intro s; unfold ApproachType.new; split <;> rfl,
    by intro s hs; unfold ApproachType.new; split <;> first | rfl | exact absurd (by decide) hs,
    by intro x s h; cases x <;> first | exact Option.some.inj h | (cases h)⟩
  refine ⟨h, fun s => ?_⟩
  by_cases hs : s ∈ approachTypeNames
  · simp [validateApproachType, h.known s hs, hs, Check.require]
  · simp [validateApproachType, h.unknown s hs, hs, Check.require]

/-- C31 for `DataFlowType`: its values are the names of the schema, survive printing and parsing, and
every other text is kept verbatim and is reported as invalid. -/
theorem C31_dataFlowType :
    Implements dataFlowTypeNames DataFlowType.display DataFlowType.new DataFlowType.fallback? ∧
      ∀ s, (validateDataFlowType (DataFlowType.new s) = .ok () ↔ s ∈ dataFlowTypeNames) := by
  have h : Implements dataFlowTypeNames DataFlowType.display DataFlowType.new DataFlowType.fallback? :=
    ⟨by intro x h; cases x <;> first | exact ⟨by decide, rfl⟩ | (cases h),
    by decide, by intro s; unfold DataFlowType.new; split <;> rfl,
    by intro s hs; unfold DataFlowType.new; split <;> first | rfl | exact absurd (by decide) hs,
    by intro x s h; cases x <;> first | exact Option.some.inj h | (cases h)⟩
  refine ⟨h, fun s => ?_⟩
  by_cases hs : s ∈ dataFlowTypeNames
  · simp [validateDataFlowType, h.known s hs, hs, Check.require]
  · simp [validateDataFlowType, h.unknown s hs, hs, Check.require]

/-- C31 for `ImpactAnalysisState`: its values are the names of the schema, survive printing and parsing, and
every other text is kept verbatim and is reported as invalid. -/
theorem C31_impactAnalysisState :
    Implements impactAnalysisStateNames ImpactAnalysisState.display ImpactAnalysisState.new ImpactAnalysisState.fallback? ∧
      ∀ s, (validateImpactAnalysisState (ImpactAnalysisState.new s) = .ok () ↔ s ∈ impactAnalysisStateNames) := by
  have h : Implements impactAnalysisStateNames ImpactAnalysisState.display ImpactAnalysisState.new ImpactAnalysisState.fallback? :=
    ⟨by intro x h; cases x <;> first | exact ⟨by decide, rfl⟩ | (cases h),
    by decide, by intro s; unfold ImpactAnalysisState.new; split <;> rfl,
    by intro s hs; unfold ImpactAnalysisState.new; split <;> first | rfl | exact absurd (by decide) hs,
    by intro x s h; cases x <;> first | exact Option.some.inj h | (cases h)⟩
  refine ⟨h, fun s => ?_⟩
  by_cases hs : s ∈ impactAnalysisStateNames
  · simp [validateImpactAnalysisState, h.known s hs, hs, Check.require]
  · simp [validateImpactAnalysisState, h.unknown s hs, hs, Check.require]

/-- C31 for `ImpactAnalysisJustification`: its values are the names of the schema, survive printing and parsing, and
every other text is kept verbatim and is reported as invalid. -/
theorem C31_impactAnalysisJustification :
    Implements impactAnalysisJustificationNames ImpactAnalysisJustification.display ImpactAnalysisJustification.new ImpactAnalysisJustification.fallback? ∧
      ∀ s, (validateImpactAnalysisJustification (ImpactAnalysisJustification.new s) = .ok () ↔ s ∈ impactAnalysisJustificationNames) := by
  have h : Implements impactAnalysisJustificationNames ImpactAnalysisJustification.display ImpactAnalysisJustification.new ImpactAnalysisJustification.fallback? :=
    ⟨by intro x h; cases x <;> first | exact ⟨by decide, rfl⟩ | (cases h),
    by decide, by intro s; unfold ImpactAnalysisJustification.new; split <;> rfl,
    by intro s hs; unfold ImpactAnalysisJustification.new; split <;> first | rfl | exact absurd (by decide) hs,
    by intro x s h; cases x <;> first | exact Option.some.inj h | (cases h)⟩
  refine ⟨h, fun s => ?_⟩
  by_cases hs : s ∈ impactAnalysisJustificationNames
  · simp [validateImpactAnalysisJustification, h.known s hs, hs, Check.require]
  · simp [validateImpactAnalysisJustification, h.unknown s hs, hs, Check.require]

/-- C31 for `ImpactAnalysisResponse`: its values are the names of the schema, survive printing and parsing, and
every other text is kept verbatim and is reported as invalid. -/
theorem C31_impactAnalysisResponse :
    Implements impactAnalysisResponseNames ImpactAnalysisResponse.display ImpactAnalysisResponse.new ImpactAnalysisResponse.fallback? ∧
      ∀ s, (validateImpactAnalysisResponse (ImpactAnalysisResponse.new s) = .ok () ↔ s ∈ impactAnalysisResponseNames) := by
  have h : Implements impactAnalysisResponseNames ImpactAnalysisResponse.display ImpactAnalysisResponse.new ImpactAnalysisResponse.fallback? :=
    ⟨by intro x h; cases x <;> first | exact ⟨by decide, rfl⟩ | (cases h),
    by decide, by intro s; unfold ImpactAnalysisResponse.new; split <;> rfl,
    by intro s hs; unfold ImpactAnalysisResponse.new; split <;> first | rfl | exact absurd (by decide) hs,
    by intro x s h; cases x <;> first | exact Option.some.inj h | (cases h)⟩
  refine ⟨h, fun s => ?_⟩
  by_cases hs : s ∈ impactAnalysisResponseNames
  · simp [validateImpactAnalysisResponse, h.known s hs, hs, Check.require]
  · simp [validateImpactAnalysisResponse, h.unknown s hs, hs, Check.require]

/-- C31 for `Severity`: its values are the names of the schema, survive printing and parsing, and
every other text is kept verbatim and is reported as invalid. -/
theorem C31_severity :
    Implements severityNames Severity.display Severity.new Severity.fallback? ∧
      ∀ s, (validateSeverity (Severity.new s) = .ok () ↔ s ∈ severityNames) := by
  have h : Implements severityNames Severity.display Severity.new Severity.fallback? :=
    ⟨by intro x h; cases x <;> first | exact ⟨by decide, rfl⟩ | (cases h),
    by decide, by intro s; unfold Severity.new; split <;> rfl,
    by intro s hs; unfold Severity.new; split <;> first | rfl | exact absurd (by decide) hs,
    by intro x s h; cases x <;> first | exact Option.some.inj h | (cases h)⟩
  refine ⟨h, fun s => ?_⟩
  by_cases hs : s ∈ severityNames
  · simp [validateSeverity, h.known s hs, hs, Check.require]
  · simp [validateSeverity, h.unknown s hs, hs, Check.require]

/-- C31 for `Status`: its values are the names of the schema, survive printing and parsing, and
every other text is kept verbatim and is reported as invalid. -/
theorem C31_status :
    Implements statusNames Status.display Status.new Status.fallback? ∧
      ∀ s, (validateStatus (Status.new s) = .ok () ↔ s ∈ statusNames) := by
  have h : Implements statusNames Status.display Status.new Status.fallback? :=
    ⟨by intro x h; cases x <;> first | exact ⟨by decide, rfl⟩ | (cases h),
    by decide, by intro s; unfold Status.new; split <;> rfl,
    by intro s hs; unfold Status.new; split <;> first | rfl | exact absurd (by decide) hs,
    by intro x s h; cases x <;> first | exact Option.some.inj h | (cases h)⟩
  refine ⟨h, fun s => ?_⟩
  by_cases hs : s ∈ statusNames
  · simp [validateStatus, h.known s hs, hs, Check.require]
  · simp [validateStatus, h.unknown s hs, hs, Check.require]

/-- C31 for `TaskType`: its values are the names of the schema, survive printing and parsing, and
every other text is kept verbatim and is reported as invalid. -/
theorem C31_taskType :
    Implements taskTypeNames TaskType.display TaskType.new TaskType.fallback? ∧
      ∀ s, (validateTaskType (TaskType.new s) = .ok () ↔ s ∈ taskTypeNames) := by
  have h : Implements taskTypeNames TaskType.display TaskType.new TaskType.fallback? :=
    ⟨by intro x h; cases x <;> first | exact ⟨by decide, rfl⟩ | (cases h),
    by decide, by intro s; unfold TaskType.new; split <;> rfl,
    by intro s hs; unfold TaskType.new; split <;> first | rfl | exact absurd (by decide) hs,
    by intro x s h; cases x <;> first | exact Option.some.inj h | (cases h)⟩
  refine ⟨h, fun s => ?_⟩
  by_cases hs : s ∈ taskTypeNames
  · simp [validateTaskType, h.known s hs, hs, Check.require]
  · simp [validateTaskType, h.unknown s hs, hs, Check.require]

/-- C31 for `OutputType`: its values are the names of the schema, survive printing and parsing, and
every other text is kept verbatim and is reported as invalid. -/
theorem C31_outputType :
    Implements outputTypeNames OutputType.display OutputType.new OutputType.fallback? ∧
      ∀ s, (validateOutputType (OutputType.new s) = .ok () ↔ s ∈ outputTypeNames) := by
  have h : Implements outputTypeNames OutputType.display OutputType.new OutputType.fallback? :=
    ⟨by intro x h; cases x <;> first | exact ⟨by decide, rfl⟩ | (cases h),
    by decide, by intro s; unfold OutputType.new; split <;> rfl,
    by intro s hs; unfold OutputType.new; split <;> first | rfl | exact absurd (by decide) hs,
    by intro x s h; cases x <;> first | exact Option.some.inj h | (cases h)⟩
  refine ⟨h, fun s => ?_⟩
  by_cases hs : s ∈ outputTypeNames
  · simp [validateOutputType, h.known s hs, hs, Check.require]
  · simp [validateOutputType, h.unknown s hs, hs, Check.require]

/-- C31 for `TriggerType`: its values are the names of the schema, survive printing and parsing, and
every other text is kept verbatim and is reported as invalid. -/
theorem C31_triggerType :
    Implements triggerTypeNames TriggerType.display TriggerType.new TriggerType.fallback? ∧
      ∀ s, (validateTriggerType (TriggerType.new s) = .ok () ↔ s ∈ triggerTypeNames) := by
  have h : Implements triggerTypeNames TriggerType.display TriggerType.new TriggerType.fallback? :=
    ⟨by intro x h; cases x <;> first | exact ⟨by decide, rfl⟩ | (cases h),
    by decide, by intro s; unfold TriggerType.new; split <;> rfl,
    by intro s hs; unfold TriggerType.new; split <;> first | rfl | exact absurd (by decide) hs,
    by intro x s h; cases x <;> first | exact Option.some.inj h | (cases h)⟩
  refine ⟨h, fun s => ?_⟩
  by_cases hs : s ∈ triggerTypeNames
  · simp [validateTriggerType, h.known s hs, hs, Check.require]
  · simp [validateTriggerType, h.unknown s hs, hs, Check.require]

/-- C31 for `AccessMode`: its values are the names of the schema, survive printing and parsing, and
every other text is kept verbatim and is reported as invalid. -/
theorem C31_accessMode :
    Implements accessModeNames AccessMode.display AccessMode.new AccessMode.fallback? ∧
      ∀ s, (validateAccessMode (AccessMode.new s) = .ok () ↔ s ∈ accessModeNames) := by
  have h : Implements accessModeNames AccessMode.display AccessMode.new AccessMode.fallback? :=
    ⟨by intro x h; cases x <;> first | exact ⟨by decide, rfl⟩ | (cases h),
    by decide, by intro s; unfold AccessMode.new; split <;> rfl,
    by intro s hs; unfold AccessMode.new; split <;> first | rfl | exact absurd (by decide) hs,
    by intro x s h; cases x <;> first | exact Option.some.inj h | (cases h)⟩
  refine ⟨h, fun s => ?_⟩
  by_cases hs : s ∈ accessModeNames
  · simp [validateAccessMode, h.known s hs, hs, Check.require]
  · simp [validateAccessMode, h.unknown s hs, hs, Check.require]

/-- C31 for `VolumeMode`: its values are the names of the schema, survive printing and parsing, and
every other text is kept verbatim and is reported as invalid. -/
theorem C31_volumeMode :
    Implements volumeModeNames VolumeMode.display VolumeMode.new VolumeMode.fallback? ∧
      ∀ s, (validateVolumeMode (VolumeMode.new s) = .ok () ↔ s ∈ volumeModeNames) := by
  have h : Implements volumeModeNames VolumeMode.display VolumeMode.new VolumeMode.fallback? :=
    ⟨by intro x h; cases x <;> first | exact ⟨by decide, rfl⟩ | (cases h),
    by decide, by intro s; unfold VolumeMode.new; split <;> rfl,
    by intro s hs; unfold VolumeMode.new; split <;> first | rfl | exact absurd (by decide) hs,
    by intro x s h; cases x <;> first | exact Option.some.inj h | (cases h)⟩
  refine ⟨h, fun s => ?_⟩
  by_cases hs : s ∈ volumeModeNames
  · simp [validateVolumeMode, h.known s hs, hs, Check.require]
  · simp [validateVolumeMode, h.unknown s hs, hs, Check.require]

/-- Non-vacuity: a known scope and an unknown one. -/
example : Scope.new "excluded" = .excluded ∧ Scope.new "Excluded" = .unknownScope "Excluded" ∧
    validateScope (Scope.new "Excluded") ≠ .ok () := by decide

/-- C31 refuted for `Algorithm`: an algorithm that is no name of the schema is printed as
`Unknown`, its text is lost. -/
theorem C31_algorithm_refuted : (Algorithm.new "RS1024").display = "Unknown" ∧
    ¬ Implements algorithmNames Algorithm.display Algorithm.new Algorithm.fallback? :=
  ⟨by decide, fun h => absurd (h.verbatim "RS1024") (by decide)⟩

/-- C31 for `Algorithm` (partial): the names of the schema survive, every other text is kept in
the value and reported as invalid. Missing: an unknown algorithm is not printed as its text. -/
theorem C31_algorithm_partial :
    (∀ x : Algorithm, x.fallback? = none → x.display ∈ algorithmNames ∧ Algorithm.new x.display = x) ∧
    (∀ s ∈ algorithmNames, (Algorithm.new s).fallback? = none ∧ (Algorithm.new s).display = s) ∧
    (∀ s, s ∉ algorithmNames → Algorithm.new s = .unknown s) ∧
    ∀ s, (validateAlgorithm (Algorithm.new s) = .ok () ↔ s ∈ algorithmNames) := by
  have hk : ∀ s ∈ algorithmNames, (Algorithm.new s).fallback? = none := by decide
  have hu : ∀ s, s ∉ algorithmNames → Algorithm.new s = .unknown s := by
    intro s hs; unfold Algorithm.new; split <;> first | rfl | exact absurd (by decide) hs
  refine ⟨by intro x h; cases x <;> first | exact ⟨by decide, rfl⟩ | (cases h), by decide, hu,
    fun s => ?_⟩
  by_cases hs : s ∈ algorithmNames
  · simp [validateAlgorithm, hk s hs, hs]
  · simp [validateAlgorithm, hu s hs, hs, Algorithm.fallback?]

/-- C31 refuted for `IdentityField`: a field that is no name of the schema is printed as
`unknown`, its text is lost. -/
theorem C31_identityField_refuted : (IdentityField.new "gropu").display = "unknown" ∧
    ¬ Implements identityFieldNames IdentityField.display IdentityField.new
      IdentityField.fallback? :=
  ⟨by decide, fun h => absurd (h.verbatim "gropu") (by decide)⟩

/-- C31 for `IdentityField` (partial): the names of the schema survive, every other text is kept
in the value and reported as invalid. Missing: an unknown field is not printed as its text. -/
theorem C31_identityField_partial :
    (∀ x : IdentityField, x.fallback? = none → x.display ∈ identityFieldNames ∧
      IdentityField.new x.display = x) ∧
    (∀ s ∈ identityFieldNames, (IdentityField.new s).fallback? = none ∧
      (IdentityField.new s).display = s) ∧
    (∀ s, s ∉ identityFieldNames → IdentityField.new s = .unknown s) ∧
    ∀ s, (validateIdentityField (IdentityField.new s) = .ok () ↔ s ∈ identityFieldNames) := by
  have hk : ∀ s ∈ identityFieldNames, (IdentityField.new s).fallback? = none := by decide
  have hu : ∀ s, s ∉ identityFieldNames → IdentityField.new s = .unknown s := by
    intro s hs; unfold IdentityField.new; split <;> first | rfl | exact absurd (by decide) hs
  refine ⟨by intro x h; cases x <;> first | exact ⟨by decide, rfl⟩ | (cases h), by decide, hu,
    fun s => ?_⟩
  by_cases hs : s ∈ identityFieldNames
  · simp [validateIdentityField, hk s hs, hs]
  · simp [validateIdentityField, hu s hs, hs, IdentityField.fallback?]

/-- C31 refuted for `AggregateType`: `incomplete_first_party_proprietary_only` of the schema is
printed for its value but not understood when parsed, because the parser expects
`incomplete_first_party_propprietary_only`. -/
theorem C31_aggregateType_refuted :
    "incomplete_first_party_proprietary_only" ∈ aggregateTypeNames ∧
    AggregateType.display .incompleteFirstPartyProprietaryOnly =
      "incomplete_first_party_proprietary_only" ∧
    AggregateType.new "incomplete_first_party_proprietary_only" =
      .unknownAggregateType "incomplete_first_party_proprietary_only" ∧
    ¬ Implements aggregateTypeNames AggregateType.display AggregateType.new
      AggregateType.fallback? :=
  ⟨by decide, by decide, by decide, fun h =>
    absurd (h.known "incomplete_first_party_proprietary_only" (by decide)) (by decide)⟩

/-- C31 for `AggregateType` (partial): all other names of the schema survive, a text that is
neither a name nor the misspelled one is kept verbatim. Missing: the first-party proprietary
value. -/
theorem C31_aggregateType_partial :
    (∀ x : AggregateType, x.fallback? = none → x ≠ .incompleteFirstPartyProprietaryOnly →
      x.display ∈ aggregateTypeNames ∧ AggregateType.new x.display = x) ∧
    (∀ s, s ∈ aggregateTypeNames → s ≠ "incomplete_first_party_proprietary_only" →
      (AggregateType.new s).fallback? = none) ∧
    (∀ s, s ≠ "incomplete_first_party_propprietary_only" → (AggregateType.new s).display = s) ∧
    (∀ s, s ∉ aggregateTypeNames → s ≠ "incomplete_first_party_propprietary_only" →
      AggregateType.new s = .unknownAggregateType s) ∧
    ∀ (x : AggregateType) (s : String), x.fallback? = some s → x.display = s := by
  refine ⟨?_, by decide, ?_, ?_, ?_⟩
  · intro x h h'
    cases x <;> first | exact absurd rfl h' | exact ⟨by decide, rfl⟩ | (cases h)
  · intro s hs
    unfold AggregateType.new
    split <;> first | rfl | exact absurd rfl hs
  · intro s hs hs'
    unfold AggregateType.new
    split <;> first | rfl | exact absurd rfl hs' | exact absurd (by decide) hs
  · intro x s h
    cases x <;> first | exact Option.some.inj h | (cases h)

/-- C31 refuted for `ExternalReferenceType`: `codified-infrastructure` is parsed but printed as
`condified-infrastructure`. -/
theorem C31_externalReferenceType_refuted :
    "codified-infrastructure" ∈ externalReferenceTypeNames ∧
    (ExternalReferenceType.new "codified-infrastructure").display = "condified-infrastructure" ∧
    "condified-infrastructure" ∉ externalReferenceTypeNames ∧
    ExternalReferenceType.new
      (ExternalReferenceType.new "codified-infrastructure").display ≠
        ExternalReferenceType.new "codified-infrastructure" ∧
    ¬ Implements externalReferenceTypeNames ExternalReferenceType.display
      ExternalReferenceType.new ExternalReferenceType.fallback? :=
  ⟨by decide, by decide, by decide, by decide, fun h =>
    absurd (h.verbatim "codified-infrastructure") (by decide)⟩

/-- C31 for `ExternalReferenceType` (partial): all other names of the schema survive, every
other text is kept verbatim and reported as invalid. Missing: `codified-infrastructure`. -/
theorem C31_externalReferenceType_partial :
    (∀ x : ExternalReferenceType, x.fallback? = none → x ≠ .condifiedInfrastructure →
      x.display ∈ externalReferenceTypeNames ∧ ExternalReferenceType.new x.display = x) ∧
    (∀ s ∈ externalReferenceTypeNames, (ExternalReferenceType.new s).fallback? = none) ∧
    (∀ s, s ≠ "codified-infrastructure" → (ExternalReferenceType.new s).display = s) ∧
    (∀ s, s ∉ externalReferenceTypeNames →
      ExternalReferenceType.new s = .unknownExternalReferenceType s) ∧
    (∀ (x : ExternalReferenceType) (s : String), x.fallback? = some s → x.display = s) ∧
    ∀ s, (validateExternalReferenceType (ExternalReferenceType.new s) = .ok () ↔
      s ∈ externalReferenceTypeNames) := by
  have hk : ∀ s ∈ externalReferenceTypeNames, (ExternalReferenceType.new s).fallback? = none := by
    decide
  have hu : ∀ s, s ∉ externalReferenceTypeNames →
      ExternalReferenceType.new s = .unknownExternalReferenceType s := by
    intro s hs
    unfold ExternalReferenceType.new
    split <;> first | rfl | exact absurd (by decide) hs
  refine ⟨?_, hk, ?_, hu, ?_, ?_⟩
  · intro x h h'
    cases x <;> first | exact absurd rfl h' | exact ⟨by decide, rfl⟩ | (cases h)
  · intro s hs
    unfold ExternalReferenceType.new
    split <;> first | rfl | exact absurd rfl hs
  · intro x s h
    cases x <;> first | exact Option.some.inj h | (cases h)
  · intro s
    by_cases hs : s ∈ externalReferenceTypeNames
    · simp [validateExternalReferenceType, hk s hs, hs, Check.require]
    · simp [validateExternalReferenceType, hu s hs, hs, Check.require,
        ExternalReferenceType.fallback?]

/-- C31 refuted for `ScoreMethod`: the name `other` of the schema is no value of its own, it is
taken as an unknown method. -/
theorem C31_scoreMethod_refuted :
    "other" ∈ scoreMethodNames ∧ ScoreMethod.new "other" = .unknown "other" ∧
    (∀ v, validateScoreMethod v (ScoreMethod.new "other") ≠ .ok ()) ∧
    ¬ Implements scoreMethodNames ScoreMethod.display ScoreMethod.new ScoreMethod.fallback? :=
  ⟨by decide, by decide, by intro v; cases v <;> decide, fun h =>
    absurd (h.known "other" (by decide)) (by decide)⟩

/-- C31 for `ScoreMethod` (partial): it implements the vocabulary without `other`. Missing:
`other`. -/
theorem C31_scoreMethod_partial :
    Implements (scoreMethodNames.erase "other") ScoreMethod.display ScoreMethod.new
      ScoreMethod.fallback? :=
  ⟨by intro x h; cases x <;> first | exact ⟨by decide, rfl⟩ | (cases h),
    by decide, by intro s; unfold ScoreMethod.new; split <;> rfl,
    by intro s hs; unfold ScoreMethod.new; split <;> first | rfl | exact absurd (by decide) hs,
    by intro x s h; cases x <;> first | exact Option.some.inj h | (cases h)⟩

/-! ## C53 -/

/-- C53 for component types: a version accepts exactly the types its schema lists. -/
theorem C53_component_types (v : SpecVersion) (s : String) :
    validateClassification v (Classification.new s) = .ok () ↔ s ∈ classificationNamesOf v := by
  by_cases hs : s ∈ classificationNames
  · revert hs
    have : ∀ s ∈ classificationNames, ∀ v ∈ [SpecVersion.v1_3, .v1_4, .v1_5],
        (validateClassification v (Classification.new s) = .ok () ↔
          s ∈ classificationNamesOf v) := by decide
    exact fun h => this s h v (by cases v <;> decide)
  · have h1 := C31_classification.unknown s hs
    have h2 : Classification.new s = .unknownClassification s := by
      cases h : Classification.new s <;> rw [h] at h1 <;>
        simp_all [Classification.fallback?]
    have h3 : s ∉ classificationNamesOf v := by
      intro h
      have : ∀ v ∈ [SpecVersion.v1_3, .v1_4, .v1_5], ∀ s ∈ classificationNamesOf v,
          s ∈ classificationNames := by decide
      exact hs (this v (by cases v <;> decide) s h)
    have h4 : validateClassification v (.unknownClassification s) ≠ .ok () := by
      cases v <;> simp [validateClassification, SpecVersion.le, SpecVersion.ord,
        Classification.rank, Classification.fallback?, Check.require]
    simp [h2, h3, h4]

/-- Non-vacuity: `data` is a component type from 1.5 on. -/
example : validateClassification .v1_4 (Classification.new "data") ≠ .ok () ∧
    validateClassification .v1_5 (Classification.new "data") = .ok () := by decide

/-- C53 refuted for external reference types: version 1.3 accepts types that only the schema of
1.5 has. -/
theorem C53_reference_types_refuted :
    validateExternalReferenceType (ExternalReferenceType.new "threat-model") = .ok () ∧
    "threat-model" ∉ externalReferenceTypeNamesOf .v1_3 ∧
    "threat-model" ∉ externalReferenceTypeNamesOf .v1_4 := by decide

/-- C53 for external reference types (partial): what the schema of a version lists is accepted,
and what is accepted is listed by the schema of 1.5. Missing: versions 1.3 and 1.4 accept the
types of 1.5 (`C53_reference_types_refuted`). -/
theorem C53_reference_types_partial (v : SpecVersion) (s : String) :
    (s ∈ externalReferenceTypeNamesOf v →
      validateExternalReferenceType (ExternalReferenceType.new s) = .ok ()) ∧
    (validateExternalReferenceType (ExternalReferenceType.new s) = .ok () →
      s ∈ externalReferenceTypeNamesOf .v1_5) := by
  refine ⟨fun h => ?_, (C31_externalReferenceType_partial.2.2.2.2.2 s).mp⟩
  rw [C31_externalReferenceType_partial.2.2.2.2.2 s]
  have : ∀ v ∈ [SpecVersion.v1_3, .v1_4, .v1_5], ∀ s ∈ externalReferenceTypeNamesOf v,
      s ∈ externalReferenceTypeNames := by decide
  exact this v (by cases v <;> decide) s h

/-- C53 refuted for aggregate types: version 1.5 rejects a type its schema lists, and version 1.3
accepts a text no schema lists. -/
theorem C53_aggregate_types_refuted :
    "incomplete_first_party_proprietary_only" ∈ aggregateTypeNamesOf .v1_5 ∧
    validateAggregateType .v1_5 (AggregateType.new "incomplete_first_party_proprietary_only") ≠
      .ok () ∧
    (∀ v ∈ [SpecVersion.v1_3, .v1_4, .v1_5],
      "incomplete_first_party_propprietary_only" ∉ aggregateTypeNamesOf v ∧
      validateAggregateType v (AggregateType.new "incomplete_first_party_propprietary_only") =
        .ok ()) := by decide

/-- C53 for aggregate types (partial): with the exception of the two spellings of the first-party
proprietary type, a version accepts exactly the types its schema lists. -/
theorem C53_aggregate_types_partial (v : SpecVersion) (s : String)
    (h1 : s ≠ "incomplete_first_party_proprietary_only")
    (h2 : s ≠ "incomplete_first_party_propprietary_only") :
    validateAggregateType v (AggregateType.new s) = .ok () ↔ s ∈ aggregateTypeNamesOf v := by
  by_cases hs : s ∈ aggregateTypeNames
  · revert h1 hs
    have : ∀ s ∈ aggregateTypeNames, s ≠ "incomplete_first_party_proprietary_only" →
        ∀ v ∈ [SpecVersion.v1_3, .v1_4, .v1_5],
        (validateAggregateType v (AggregateType.new s) = .ok () ↔
          s ∈ aggregateTypeNamesOf v) := by decide
    exact fun h h' => this s h' h v (by cases v <;> decide)
  · have h3 := C31_aggregateType_partial.2.2.2.1 s hs h2
    have h4 : s ∉ aggregateTypeNamesOf v := by
      intro h
      have : ∀ v ∈ [SpecVersion.v1_3, .v1_4, .v1_5], ∀ s ∈ aggregateTypeNamesOf v,
          s ∈ aggregateTypeNames := by decide
      exact hs (this v (by cases v <;> decide) s h)
    have h5 : validateAggregateType v (.unknownAggregateType s) ≠ .ok () := by
      cases v <;> simp [validateAggregateType, SpecVersion.le, SpecVersion.ord,
        AggregateType.rank, AggregateType.fallback?, Check.require]
    simp [h3, h4, h5]

/-- Non-vacuity: an aggregate type of 1.5. -/
example : validateAggregateType .v1_4 (AggregateType.new "incomplete_third_party_opensource_only")
      ≠ .ok () ∧
    validateAggregateType .v1_5 (AggregateType.new "incomplete_third_party_opensource_only") =
      .ok () := by decide

/-- C53 refuted for lifecycle phases: no check rejects a phase that the schema does not list
(validation does not look at the phases of lifecycles at all, see `C38_ignores_lifecycles`), it
is kept as text. -/
theorem C53_phase_kept (s : String) (h : s ∉ phaseNames) : (Phase.new s).fallback? = some s ∧
    (Phase.new s).display = s := ⟨C31_phase.unknown s h, C31_phase.verbatim s⟩

end Cdx.Props
