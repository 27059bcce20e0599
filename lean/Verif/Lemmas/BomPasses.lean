import Verif.Lemmas.Refs

/-!
# What validation of a BOM and of each element asks for
-/

namespace Cdx

open Spec

set_option linter.unusedSimpArgs false
set_option linter.unusedVariables false

theorem chain_snoc (steps : List VStep) (s : VStep) :
    chain (steps ++ [s]) = (chain steps >>= s) := by
  simp [chain, List.foldlM_append]

/-- The checks of a BOM before those of its references. -/
def Bom.partSteps (E : VEnv) (v : SpecVersion) (x : Bom) : List VStep := [
  addFieldOption "serial_number" x.serialNumber validateUrnUuid,
  addStructOption "metadata" x.metadata (Metadata.validate E v),
  addStructOption "components" x.components (Components.validate E v),
  addStructOption "services" x.services (Services.validate E v),
  addStructOption "external_references" x.externalReferences (ExternalReferences.validate E v),
  addStructOption "compositions" x.compositions (Compositions.validate E v),
  addStructOption "properties" x.properties (Properties.validate E v),
  addStructOption "vulnerabilities" x.vulnerabilities (Vulnerabilities.validate E v)]

/-- The names of these checks. -/
def Bom.partNames : List String := ["serial_number", "metadata", "components", "services",
  "external_references", "compositions", "properties", "vulnerabilities"]

theorem Bom.validateVersion_eq (E : VEnv) (v : SpecVersion) (x : Bom) :
    x.validateVersion E v = (chain (x.partSteps E v) >>= x.checkRefs) :=
  chain_snoc (x.partSteps E v) x.checkRefs

theorem Bom.parts_good (E : VEnv) (v : SpecVersion) (x : Bom) :
    GoodV (chain (x.partSteps E v)) (∀ p ∈ (Elem.bom x).checked, p.Passes E v) := by
  unfold Bom.partSteps
  apply GoodV.congr
  apply goodV_chain
  case h => good_steps
  case nd => simp only [List.map]; decide
  good_simp
  try simp only [Metadata.passes, Components.passes, Services.passes, ExternalReferences.passes,
    Compositions.passes, Properties.passes, Vulnerabilities.passes]
  try simp only [Components.passes, Services.passes, ExternalReferences.passes,
    Compositions.passes, Properties.passes, Vulnerabilities.passes]

/-- A step that only touches its own entry. -/
def Own (s : VStep) (n : String) : Prop := ∃ k, Reports s n k

theorem Good.own {s : VStep} {n : String} {P : Prop} (h : Good s n P) : Own s n :=
  ⟨h.choose, h.choose_spec.1⟩

theorem ownCons {s : VStep} {n : String} {P : Prop} {steps : List VStep} {names : List String}
    (h : Good s n P) (hs : All₂ Own steps names) : All₂ Own (s :: steps) (n :: names) :=
  .cons h.own hs

theorem lookup_entries_none {specs : List (String × Option ErrorsKind)} {k : String}
    (h : k ∉ specs.map (·.1)) : (entries specs).lookup k = none := by
  induction specs with
  | nil => rfl
  | cons p specs ih =>
    simp only [List.map_cons, List.mem_cons, not_or] at h
    show List.lookup k ((p.2.map (p.1, ·)).toList ++ entries specs) = none
    rw [List.lookup_append, ih h.2]
    cases p.2 with
    | none => rfl
    | some e => simp [List.lookup, beq_eq_false_iff_ne.mpr h.1]

theorem chain_own {steps : List VStep} {names : List String} (h : All₂ Own steps names)
    (nd : names.Nodup) : ∃ r, chain steps = .ok r ∧ ∀ k, k ∉ names → r.lookup k = none := by
  have : ∃ specs : List (String × Option ErrorsKind), specs.map (·.1) = names ∧
      All₂ (fun s p => Reports s p.1 p.2) steps specs := by
    clear nd
    induction h with
    | nil => exact ⟨[], rfl, .nil⟩
    | cons hs _ ih =>
      obtain ⟨k, hk⟩ := hs
      obtain ⟨specs, h1, h2⟩ := ih
      exact ⟨(_, k) :: specs, by simp [h1], .cons hk h2⟩
  obtain ⟨specs, rfl, hs⟩ := this
  exact ⟨_, chain_reports hs nd, fun k hk => lookup_entries_none hk⟩

theorem Bom.parts_own (E : VEnv) (v : SpecVersion) (x : Bom) :
    ∃ r, chain (x.partSteps E v) = .ok r ∧ ∀ k, k ∉ Bom.partNames → r.lookup k = none := by
  apply chain_own (names := Bom.partNames)
  · unfold Bom.partSteps Bom.partNames
    exact ownCons (good_fieldOption _ _ _) (ownCons good_structOption' (ownCons good_structOption'
      (ownCons good_structOption' (ownCons good_structOption' (ownCons good_structOption'
      (ownCons good_structOption' (ownCons good_structOption' .nil)))))))
  · decide

/-- The result of validating a BOM: the reports of its parts, and the messages about references
under their own names. -/
theorem Bom.validateVersion_spec (E : VEnv) (v : SpecVersion) (x : Bom) :
    ∃ base st, chain (x.partSteps E v) = .ok base ∧ x.validateVersion E v = .ok st ∧
      (∀ k ∈ refKeys, base.lookup k = none) ∧ View base x.refMessages st := by
  obtain ⟨base, h1, h2⟩ := x.parts_own E v
  have hb : ∀ k ∈ refKeys, base.lookup k = none := by
    intro k hk
    refine h2 k fun hn => ?_
    revert hk hn
    simp only [refKeys, Bom.partNames, List.mem_cons, List.not_mem_nil, or_false]
    rintro (rfl | rfl | rfl | rfl) <;> decide
  obtain ⟨st, h3, h4⟩ := x.checkRefs_spec base hb
  refine ⟨base, st, h1, ?_, hb, h4⟩
  rw [Bom.validateVersion_eq, h1]
  exact h3

theorem missing_eq_nil (known l : List String) : missing known l = [] ↔ ∀ r ∈ l, r ∈ known := by
  simp [missing, List.filter_eq_nil_iff]

theorem Bom.refMessages_nil (x : Bom) : (∀ k, x.refMessages k = []) ↔
    x.refs.Nodup ∧ (∀ d ∈ x.dependencies.getD [], DependencyKnown x d) ∧
      ∀ c ∈ x.compositions.getD [], CompositionKnown x c := by
  constructor
  · intro h
    have h1 := h "bom_ref"
    have h2 := h "dependency_ref"
    have h3 := h "sub dependency_ref"
    have h4 := h "composition ref"
    simp [Bom.refMessages, List.map_eq_nil_iff, repeatsFrom_eq_nil, missing_eq_nil] at h1 h2 h3 h4
    refine ⟨h1, ?_, ?_⟩
    · intro d hd
      exact ⟨h2 d hd, fun r hr => h3 r d hd hr⟩
    · intro c hc
      exact ⟨fun r hr => h4 r c hc (Or.inl hr), fun r hr => h4 r c hc (Or.inr hr)⟩
  · rintro ⟨h1, h2, h3⟩ k
    unfold Bom.refMessages
    split
    · simpa [repeatsFrom_eq_nil] using h1
    split
    · simp only [List.map_eq_nil_iff, missing_eq_nil, List.forall_mem_map]
      exact fun d hd => (h2 d hd).1
    split
    · simp only [List.map_eq_nil_iff, missing_eq_nil, List.mem_flatMap]
      rintro r ⟨d, hd, hr⟩
      exact (h2 d hd).2 r hr
    split
    · simp only [List.map_eq_nil_iff, missing_eq_nil, List.mem_flatMap, List.mem_append]
      rintro r ⟨c, hc, hr | hr⟩
      · exact (h3 c hc).1 r hr
      · exact (h3 c hc).2 r hr
    · rfl

theorem Bom.good (E : VEnv) (v : SpecVersion) (x : Bom) :
    GoodV (x.validateVersion E v)
      ((Elem.bom x).rule E v ∧ ∀ p ∈ (Elem.bom x).checked, p.Passes E v) := by
  obtain ⟨base, st, h1, h2, h3, h4⟩ := x.validateVersion_spec E v
  refine ⟨⟨st, h2⟩, ?_⟩
  have hp := (x.parts_good E v).2
  rw [h1] at hp
  rw [h2, ← hp]
  simp only [Except.ok.injEq]
  rw [view_nil h4, Bom.refMessages_nil, rule_bom]
  exact and_comm

/-! ## Single checks -/

theorem purl_iff (E : VEnv) (x : Purl) : validatePurl E x = .ok () ↔ E.purlErr x = none := by
  unfold validatePurl
  cases E.purlErr x <;> simp

theorem bomRefAttribute_iff (v : SpecVersion) (x : BomReference) :
    validateBomRef v x = .ok () ↔ v = .v1_5 := by
  cases v <;> simp [validateBomRef, Check.require, SpecVersion.le, SpecVersion.ord]

theorem refUri_iff (E : VEnv) (v : SpecVersion) (x : RefUri) :
    validateReferenceUri E v x = .ok () ↔
      match x with
      | .url u => E.uriOk u = true
      | .bomLink l => v = .v1_5 ∧ IsBomLink l := by
  cases x with
  | url u => exact require_ok _ _
  | bomLink l =>
    show _ ↔ v = .v1_5 ∧ IsBomLink l
    rw [← patBomLink_iff]
    cases v <;> simp [validateReferenceUri, validateBomLink, Check.require, SpecVersion.le,
      SpecVersion.ord]

theorem classification_iff (v : SpecVersion) (x : Classification) :
    validateClassification v x = .ok () ↔ ClassificationIn v x := by
  cases v <;> cases x <;>
    simp [validateClassification, Check.require, SpecVersion.le, SpecVersion.ord,
      ClassificationIn, Classification.rank, Classification.fallback?]

theorem aggregateType_iff (v : SpecVersion) (x : AggregateType) :
    validateAggregateType v x = .ok () ↔ AggregateIn v x := by
  cases v <;> cases x <;>
    simp [validateAggregateType, Check.require, SpecVersion.le, SpecVersion.ord, AggregateIn,
      AggregateType.rank, AggregateType.fallback?]

theorem scoreMethod_iff (v : SpecVersion) (x : ScoreMethod) :
    validateScoreMethod v x = .ok () ↔ ScoreMethodIn v x := by
  cases v <;> cases x <;>
    simp [validateScoreMethod, Check.require, SpecVersion.le, SpecVersion.ord, ScoreMethodIn,
      ScoreMethod.rank, ScoreMethod.fallback?]

theorem leafGood {c : Check} {P : Prop} {Q : Elem → Prop} (h : c = .ok () ↔ P) :
    GoodV (.ok (.ofCheck c)) (P ∧ ∀ p ∈ ([] : List Elem), Q p) :=
  (goodV_ofCheck c).congr (h.trans (by simp))

theorem ruleless {r : Res VResult} {P : Prop} (h : GoodV r P) : GoodV r (True ∧ P) :=
  h.congr (by simp)

theorem scope_iff (x : Scope) : validateScope x = .ok () ↔ ∀ s, x ≠ .unknownScope s := by
  cases x <;> simp [validateScope, Check.require, Scope.fallback?]

theorem hashAlgorithm_iff (x : HashAlgorithm) : validateHashAlgorithm x = .ok () ↔ ∀ s, x ≠ .unknownHashAlgorithm s := by
  cases x <;> simp [validateHashAlgorithm, Check.require, HashAlgorithm.fallback?]

theorem externalReferenceType_iff (x : ExternalReferenceType) : validateExternalReferenceType x = .ok () ↔ ∀ s, x ≠ .unknownExternalReferenceType s := by
  cases x <;> simp [validateExternalReferenceType, Check.require, ExternalReferenceType.fallback?]

theorem identityField_iff (x : IdentityField) : validateIdentityField x = .ok () ↔ ∀ s, x ≠ .unknown s := by
  cases x <;> simp [validateIdentityField, Check.require, IdentityField.fallback?]

theorem algorithm_iff (x : Algorithm) : validateAlgorithm x = .ok () ↔ ∀ s, x ≠ .unknown s := by
  cases x <;> simp [validateAlgorithm, Check.require, Algorithm.fallback?]

theorem licenseType_iff (x : LicenseType) : validateLicenseType x = .ok () ↔ ∀ s, x ≠ .unknown s := by
  cases x <;> simp [validateLicenseType, Check.require, LicenseType.fallback?]

theorem approachType_iff (x : ApproachType) : validateApproachType x = .ok () ↔ ∀ s, x ≠ .unknown s := by
  cases x <;> simp [validateApproachType, Check.require, ApproachType.fallback?]

theorem componentDataType_iff (x : ComponentDataType) : validateDatatype x = .ok () ↔ ∀ s, x ≠ .unknown s := by
  cases x <;> simp [validateDatatype, Check.require, ComponentDataType.fallback?]

theorem issueClassification_iff (x : IssueClassification) : validateIssueClassification x = .ok () ↔ ∀ s, x ≠ .unknownIssueClassification s := by
  cases x <;> simp [validateIssueClassification, Check.require, IssueClassification.fallback?]

theorem patchClassification_iff (x : PatchClassification) : validatePatchClassification x = .ok () ↔ ∀ s, x ≠ .unknownPatchClassification s := by
  cases x <;> simp [validatePatchClassification, Check.require, PatchClassification.fallback?]

theorem dataFlowType_iff (x : DataFlowType) : validateDataFlowType x = .ok () ↔ ∀ s, x ≠ .unknownDataFlow s := by
  cases x <;> simp [validateDataFlowType, Check.require, DataFlowType.fallback?]

theorem impactAnalysisState_iff (x : ImpactAnalysisState) : validateImpactAnalysisState x = .ok () ↔ ∀ s, x ≠ .undefinedImpactAnalysisState s := by
  cases x <;> simp [validateImpactAnalysisState, Check.require, ImpactAnalysisState.fallback?]

theorem impactAnalysisJustification_iff (x : ImpactAnalysisJustification) : validateImpactAnalysisJustification x = .ok () ↔ ∀ s, x ≠ .undefinedImpactAnalysisJustification s := by
  cases x <;> simp [validateImpactAnalysisJustification, Check.require, ImpactAnalysisJustification.fallback?]

theorem impactAnalysisResponse_iff (x : ImpactAnalysisResponse) : validateImpactAnalysisResponse x = .ok () ↔ ∀ s, x ≠ .undefinedResponse s := by
  cases x <;> simp [validateImpactAnalysisResponse, Check.require, ImpactAnalysisResponse.fallback?]

theorem severity_iff (x : Severity) : validateSeverity x = .ok () ↔ ∀ s, x ≠ .undefinedSeverity s := by
  cases x <;> simp [validateSeverity, Check.require, Severity.fallback?]

theorem status_iff (x : Status) : validateStatus x = .ok () ↔ ∀ s, x ≠ .undefinedStatus s := by
  cases x <;> simp [validateStatus, Check.require, Status.fallback?]

theorem taskType_iff (x : TaskType) : validateTaskType x = .ok () ↔ ∀ s, x ≠ .unknown s := by
  cases x <;> simp [validateTaskType, Check.require, TaskType.fallback?]

theorem outputType_iff (x : OutputType) : validateOutputType x = .ok () ↔ ∀ s, x ≠ .unknown s := by
  cases x <;> simp [validateOutputType, Check.require, OutputType.fallback?]

theorem triggerType_iff (x : TriggerType) : validateTriggerType x = .ok () ↔ ∀ s, x ≠ .unknownType s := by
  cases x <;> simp [validateTriggerType, Check.require, TriggerType.fallback?]

theorem accessMode_iff (x : AccessMode) : validateAccessMode x = .ok () ↔ ∀ s, x ≠ .unknownAccessMode s := by
  cases x <;> simp [validateAccessMode, Check.require, AccessMode.fallback?]

theorem volumeMode_iff (x : VolumeMode) : validateVolumeMode x = .ok () ↔ ∀ s, x ≠ .unknownMode s := by
  cases x <;> simp [validateVolumeMode, Check.require, VolumeMode.fallback?]

theorem versionRange_iff (x : VersionRange) : validateVersionRange x = .ok () ↔ ∀ s, x ≠ .undefinedVersionRange s := by
  cases x <;> simp [validateVersionRange]

/-- Validation of an element never panics, and passes iff the rule of the element holds and the
parts it looks at pass. -/
theorem Elem.good (E : VEnv) (v : SpecVersion) (e : Elem) :
    GoodV (e.outcome E v) (e.rule E v ∧ ∀ p ∈ e.checked, p.Passes E v) := by
  cases e with
  | normalizedString x => exact leafGood (validateNormalizedString_iff x)
  | uri x => exact leafGood (require_ok _ _)
  | dateTime x => exact leafGood (require_ok _ _)
  | purl x => exact leafGood (purl_iff E x)
  | cpe x => exact leafGood (require_ok _ _)
  | mimeType x => exact leafGood ((require_ok _ _).trans (patMime_iff x))
  | bomRefAttribute x => exact leafGood (bomRefAttribute_iff v x)
  | serialNumber x => exact leafGood ((require_ok _ _).trans (patUrnUuid_iff x))
  | hashValue x => exact leafGood ((require_ok _ _).trans (patHash_iff x))
  | attachmentEncoding x => exact leafGood ((require_ok _ _).trans beq_iff_eq)
  | confidence x => exact leafGood (confidence_iff x)
  | spdxId x => exact leafGood (require_ok _ _)
  | spdxExpression x => exact leafGood (require_ok _ _)
  | refUri x => exact leafGood (refUri_iff E v x)
  | classification x => exact leafGood (classification_iff v x)
  | aggregateType x => exact leafGood (aggregateType_iff v x)
  | scoreMethod x => exact leafGood (scoreMethod_iff v x)
  | scope x => exact leafGood (scope_iff x)
  | hashAlgorithm x => exact leafGood (hashAlgorithm_iff x)
  | externalReferenceType x => exact leafGood (externalReferenceType_iff x)
  | identityField x => exact leafGood (identityField_iff x)
  | algorithm x => exact leafGood (algorithm_iff x)
  | licenseType x => exact leafGood (licenseType_iff x)
  | approachType x => exact leafGood (approachType_iff x)
  | componentDataType x => exact leafGood (componentDataType_iff x)
  | issueClassification x => exact leafGood (issueClassification_iff x)
  | patchClassification x => exact leafGood (patchClassification_iff x)
  | dataFlowType x => exact leafGood (dataFlowType_iff x)
  | impactAnalysisState x => exact leafGood (impactAnalysisState_iff x)
  | impactAnalysisJustification x => exact leafGood (impactAnalysisJustification_iff x)
  | impactAnalysisResponse x => exact leafGood (impactAnalysisResponse_iff x)
  | severity x => exact leafGood (severity_iff x)
  | status x => exact leafGood (status_iff x)
  | taskType x => exact leafGood (taskType_iff x)
  | outputType x => exact leafGood (outputType_iff x)
  | triggerType x => exact leafGood (triggerType_iff x)
  | accessMode x => exact leafGood (accessMode_iff x)
  | volumeMode x => exact leafGood (volumeMode_iff x)
  | versionRange x => exact leafGood (versionRange_iff x)
  | attachedText x => exact AttachedText.good E v x
  | attachment x => exact ruleless (Attachment.good E v x)
  | organizationalContact x => exact ruleless (OrganizationalContact.good E v x)
  | organizationalEntity x => exact ruleless (OrganizationalEntity.good E v x)
  | property x => exact ruleless (Property.good E v x)
  | hash x => exact ruleless (Hash.good E v x)
  | externalReference x => exact ruleless (ExternalReference.good E v x)
  | licensing x => exact ruleless (Licensing.good E v x)
  | license x => exact ruleless (License.good E v x)
  | identifiableAction x => exact ruleless (IdentifiableAction.good E v x)
  | commit x => exact ruleless (Commit.good E v x)
  | diff x => exact ruleless (Diff.good E v x)
  | source x => exact ruleless (Source.good E v x)
  | issue x => exact ruleless (Issue.good E v x)
  | patch x => exact ruleless (Patch.good E v x)
  | signer x => exact ruleless (Signer.good E v x)
  | dataGovernance x => exact ruleless (DataGovernance.good E v x)
  | graphic x => exact ruleless (Graphic.good E v x)
  | graphicsCollection x => exact ruleless (GraphicsCollection.good E v x)
  | dataContents x => exact ruleless (DataContents.good E v x)
  | componentData x => exact ruleless (ComponentData.good E v x)
  | modelParametersApproach x => exact ruleless (ModelParametersApproach.good E v x)
  | modelParameters x => exact ruleless (ModelParameters.good E v x)
  | quantitativeAnalysis x => exact ruleless (QuantitativeAnalysis.good E v x)
  | modelCard x => exact ruleless (ModelCard.good E v x)
  | swid x => exact ruleless (Swid.good E v x)
  | occurrence x => exact ruleless (Occurrence.good E v x)
  | frame x => exact ruleless (Frame.good E v x)
  | callstack x => exact ruleless (Callstack.good E v x)
  | identity x => exact ruleless (Identity.good E v x)
  | componentEvidence x => exact ruleless (ComponentEvidence.good E v x)
  | component x => exact ruleless (Component.good E v x)
  | pedigree x => exact ruleless (Pedigree.good E v x)
  | dataClassification x => exact ruleless (DataClassification.good E v x)
  | serviceData x => exact ruleless (ServiceData.good E v x)
  | service x => exact ruleless (Service.good E v x)
  | tool x => exact ruleless (Tool.good E v x)
  | metadata x => exact ruleless (Metadata.good E v x)
  | composition x => exact ruleless (Composition.good E v x)
  | advisory x => exact ruleless (Advisory.good E v x)
  | vulnerabilitySource x => exact ruleless (VulnerabilitySource.good E v x)
  | vulnerabilityReference x => exact ruleless (VulnerabilityReference.good E v x)
  | vulnerabilityRating x => exact ruleless (VulnerabilityRating.good E v x)
  | vulnerabilityCredits x => exact ruleless (VulnerabilityCredits.good E v x)
  | vulnerabilityAnalysis x => exact ruleless (VulnerabilityAnalysis.good E v x)
  | targetVersion x => exact ruleless (TargetVersion.good E v x)
  | vulnerabilityTarget x => exact ruleless (VulnerabilityTarget.good E v x)
  | vulnerability x => exact ruleless (Vulnerability.good E v x)
  | annotation x => exact ruleless (Annotation.good E v x)
  | input x => exact ruleless (Input.good E v x)
  | output x => exact ruleless (Output.good E v x)
  | command x => exact ruleless (Command.good E v x)
  | step x => exact ruleless (Step.good E v x)
  | triggerEvent x => exact ruleless (TriggerEvent.good E v x)
  | condition x => exact ruleless (Condition.good E v x)
  | trigger x => exact Trigger.good E v x
  | volume x => exact ruleless (Volume.good E v x)
  | workspace x => exact Workspace.good E v x
  | workflowTask x => exact WorkflowTask.good E v x
  | workflow x => exact Workflow.good E v x
  | formula x => exact Formula.good E v x
  | bom x => exact Bom.good E v x
  | licenseIdentifier x => exact ruleless (LicenseIdentifier.good E v x)
  | licenseContact x => exact ruleless (LicenseContact.good E v x)
  | licenseChoice x => exact ruleless (LicenseChoice.good E v x)
  | licenses x => exact Licenses.good E v x
  | signature x => exact ruleless (Signature.good E v x)
  | dataGovernanceResponsibleParty x => exact ruleless (DataGovernanceResponsibleParty.good E v x)
  | dataset x => exact ruleless (Dataset.good E v x)
  | serviceDataChoice x => exact ruleless (ServiceDataChoice.good E v x)
  | tools x => exact Tools.good E v x
  | annotator x => exact ruleless (Annotator.good E v x)
  | resourceReference x => exact ruleless (ResourceReference.good E v x)

/-! ## Parts are smaller than the whole -/

theorem small_append {n : Nat} {a b : List Elem} (h1 : ∀ p ∈ a, sizeOf p < n)
    (h2 : ∀ p ∈ b, sizeOf p < n) : ∀ p ∈ a ++ b, sizeOf p < n := by
  intro p hp
  rcases List.mem_append.mp hp with h | h
  · exact h1 p h
  · exact h2 p h

theorem small_opt {α : Type} [SizeOf α] {f : α → Elem} {x : Option α} {n : Nat}
    (hf : ∀ y, sizeOf (f y) = 1 + sizeOf y) (hn : sizeOf x < n) :
    ∀ p ∈ opt f x, sizeOf p < n := by
  intro p hp
  cases x with
  | none => simp [opt] at hp
  | some y =>
    simp [opt] at hp; subst hp; rw [hf]
    simpa using hn

theorem small_map {α : Type} [SizeOf α] {f : α → Elem} {l : List α} {n : Nat}
    (hf : ∀ y, sizeOf (f y) = 1 + sizeOf y) (hn : sizeOf l < n) :
    ∀ p ∈ l.map f, sizeOf p < n := by
  intro p hp
  obtain ⟨y, hy, rfl⟩ := List.mem_map.mp hp
  have := List.sizeOf_lt_of_mem hy
  rw [hf]; omega

theorem small_many {α : Type} [SizeOf α] {f : α → Elem} {x : Option (List α)} {n : Nat}
    (hf : ∀ y, sizeOf (f y) = 1 + sizeOf y) (hn : sizeOf x < n) :
    ∀ p ∈ many f x, sizeOf p < n := by
  cases x with
  | none => intro p hp; simp [many] at hp
  | some l =>
    simp at hn
    simpa [many] using small_map (l := l) hf (n := n) (by omega)

theorem small_one {α : Type} [SizeOf α] {f : α → Elem} {y : α} {n : Nat}
    (hf : ∀ y, sizeOf (f y) = 1 + sizeOf y) (hn : 1 + sizeOf y < n) :
    ∀ p ∈ [f y], sizeOf p < n := by
  intro p hp
  rw [List.mem_singleton.mp hp, hf]; exact hn

theorem small_inputParts {r : RequiredInputField} {n : Nat} (hn : sizeOf r < n) :
    ∀ p ∈ inputParts r, sizeOf p < n := by
  cases r with
  | resource r => exact small_one (f := Elem.resourceReference) (fun _ => rfl) hn
  | parameters r => intro p hp; simp [inputParts] at hp
  | environmentVars r => intro p hp; simp [inputParts] at hp
  | data r => exact small_one (f := Elem.attachment) (fun _ => rfl) hn

theorem small_outputParts {r : RequiredOutputField} {n : Nat} (hn : sizeOf r < n) :
    ∀ p ∈ outputParts r, sizeOf p < n := by
  cases r with
  | resource r => exact small_one (f := Elem.resourceReference) (fun _ => rfl) hn
  | environmentVars r => intro p hp; simp [outputParts] at hp
  | data r => exact small_one (f := Elem.attachment) (fun _ => rfl) hn

theorem small_attachedText (x : AttachedText) : ∀ p ∈ (Elem.attachedText x).checked, sizeOf p < sizeOf (Elem.attachedText x) := by
  rw [checked_attachedText, show sizeOf (Elem.attachedText x) = 1 + sizeOf x from rfl]
  cases x
  rw [AttachedText.mk.sizeOf_spec]
  simp only []
  repeat' first
    | apply small_append
    | exact small_opt (fun _ => rfl) (by omega)
    | exact small_many (fun _ => rfl) (by omega)

theorem small_attachment (x : Attachment) : ∀ p ∈ (Elem.attachment x).checked, sizeOf p < sizeOf (Elem.attachment x) := by
  rw [checked_attachment, show sizeOf (Elem.attachment x) = 1 + sizeOf x from rfl]
  cases x
  rw [Attachment.mk.sizeOf_spec]
  simp only []
  repeat' first
    | apply small_append
    | exact small_opt (fun _ => rfl) (by omega)
    | exact small_many (fun _ => rfl) (by omega)

theorem small_organizationalContact (x : OrganizationalContact) : ∀ p ∈ (Elem.organizationalContact x).checked, sizeOf p < sizeOf (Elem.organizationalContact x) := by
  rw [checked_organizationalContact, show sizeOf (Elem.organizationalContact x) = 1 + sizeOf x from rfl]
  cases x
  rw [OrganizationalContact.mk.sizeOf_spec]
  simp only []
  repeat' first
    | apply small_append
    | exact small_opt (fun _ => rfl) (by omega)
    | exact small_many (fun _ => rfl) (by omega)

theorem small_organizationalEntity (x : OrganizationalEntity) : ∀ p ∈ (Elem.organizationalEntity x).checked, sizeOf p < sizeOf (Elem.organizationalEntity x) := by
  rw [checked_organizationalEntity, show sizeOf (Elem.organizationalEntity x) = 1 + sizeOf x from rfl]
  cases x
  rw [OrganizationalEntity.mk.sizeOf_spec]
  simp only []
  repeat' first
    | apply small_append
    | exact small_opt (fun _ => rfl) (by omega)
    | exact small_many (fun _ => rfl) (by omega)

theorem small_property (x : Property) : ∀ p ∈ (Elem.property x).checked, sizeOf p < sizeOf (Elem.property x) := by
  rw [checked_property, show sizeOf (Elem.property x) = 1 + sizeOf x from rfl]
  cases x
  rw [Property.mk.sizeOf_spec]
  simp only []
  repeat' first
    | apply small_append
    | exact small_opt (fun _ => rfl) (by omega)
    | exact small_many (fun _ => rfl) (by omega)
    | exact small_one (f := Elem.normalizedString) (fun _ => rfl) (by omega)

theorem small_hash (x : Hash) : ∀ p ∈ (Elem.hash x).checked, sizeOf p < sizeOf (Elem.hash x) := by
  rw [checked_hash, show sizeOf (Elem.hash x) = 1 + sizeOf x from rfl]
  cases x
  rw [Hash.mk.sizeOf_spec]
  simp only []
  repeat' first
    | apply small_append
    | exact small_opt (fun _ => rfl) (by omega)
    | exact small_many (fun _ => rfl) (by omega)
    | exact small_one (f := Elem.hashAlgorithm) (fun _ => rfl) (by omega)
    | exact small_one (f := Elem.hashValue) (fun _ => rfl) (by omega)

theorem small_externalReference (x : ExternalReference) : ∀ p ∈ (Elem.externalReference x).checked, sizeOf p < sizeOf (Elem.externalReference x) := by
  rw [checked_externalReference, show sizeOf (Elem.externalReference x) = 1 + sizeOf x from rfl]
  cases x
  rw [ExternalReference.mk.sizeOf_spec]
  simp only []
  repeat' first
    | apply small_append
    | exact small_opt (fun _ => rfl) (by omega)
    | exact small_many (fun _ => rfl) (by omega)
    | exact small_one (f := Elem.externalReferenceType) (fun _ => rfl) (by omega)
    | exact small_one (f := Elem.refUri) (fun _ => rfl) (by omega)

theorem small_licensing (x : Licensing) : ∀ p ∈ (Elem.licensing x).checked, sizeOf p < sizeOf (Elem.licensing x) := by
  rw [checked_licensing, show sizeOf (Elem.licensing x) = 1 + sizeOf x from rfl]
  cases x
  rw [Licensing.mk.sizeOf_spec]
  simp only []
  repeat' first
    | apply small_append
    | exact small_opt (fun _ => rfl) (by omega)
    | exact small_many (fun _ => rfl) (by omega)

theorem small_license (x : License) : ∀ p ∈ (Elem.license x).checked, sizeOf p < sizeOf (Elem.license x) := by
  rw [checked_license, show sizeOf (Elem.license x) = 1 + sizeOf x from rfl]
  cases x
  rw [License.mk.sizeOf_spec]
  simp only []
  repeat' first
    | apply small_append
    | exact small_opt (fun _ => rfl) (by omega)
    | exact small_many (fun _ => rfl) (by omega)
    | exact small_one (f := Elem.licenseIdentifier) (fun _ => rfl) (by omega)

theorem small_identifiableAction (x : IdentifiableAction) : ∀ p ∈ (Elem.identifiableAction x).checked, sizeOf p < sizeOf (Elem.identifiableAction x) := by
  rw [checked_identifiableAction, show sizeOf (Elem.identifiableAction x) = 1 + sizeOf x from rfl]
  cases x
  rw [IdentifiableAction.mk.sizeOf_spec]
  simp only []
  repeat' first
    | apply small_append
    | exact small_opt (fun _ => rfl) (by omega)
    | exact small_many (fun _ => rfl) (by omega)

theorem small_commit (x : Commit) : ∀ p ∈ (Elem.commit x).checked, sizeOf p < sizeOf (Elem.commit x) := by
  rw [checked_commit, show sizeOf (Elem.commit x) = 1 + sizeOf x from rfl]
  cases x
  rw [Commit.mk.sizeOf_spec]
  simp only []
  repeat' first
    | apply small_append
    | exact small_opt (fun _ => rfl) (by omega)
    | exact small_many (fun _ => rfl) (by omega)

theorem small_diff (x : Diff) : ∀ p ∈ (Elem.diff x).checked, sizeOf p < sizeOf (Elem.diff x) := by
  rw [checked_diff, show sizeOf (Elem.diff x) = 1 + sizeOf x from rfl]
  cases x
  rw [Diff.mk.sizeOf_spec]
  simp only []
  repeat' first
    | apply small_append
    | exact small_opt (fun _ => rfl) (by omega)
    | exact small_many (fun _ => rfl) (by omega)

theorem small_source (x : Source) : ∀ p ∈ (Elem.source x).checked, sizeOf p < sizeOf (Elem.source x) := by
  rw [checked_source, show sizeOf (Elem.source x) = 1 + sizeOf x from rfl]
  cases x
  rw [Source.mk.sizeOf_spec]
  simp only []
  repeat' first
    | apply small_append
    | exact small_opt (fun _ => rfl) (by omega)
    | exact small_many (fun _ => rfl) (by omega)

theorem small_issue (x : Issue) : ∀ p ∈ (Elem.issue x).checked, sizeOf p < sizeOf (Elem.issue x) := by
  rw [checked_issue, show sizeOf (Elem.issue x) = 1 + sizeOf x from rfl]
  cases x
  rw [Issue.mk.sizeOf_spec]
  simp only []
  repeat' first
    | apply small_append
    | exact small_opt (fun _ => rfl) (by omega)
    | exact small_many (fun _ => rfl) (by omega)
    | exact small_one (f := Elem.issueClassification) (fun _ => rfl) (by omega)

theorem small_patch (x : Patch) : ∀ p ∈ (Elem.patch x).checked, sizeOf p < sizeOf (Elem.patch x) := by
  rw [checked_patch, show sizeOf (Elem.patch x) = 1 + sizeOf x from rfl]
  cases x
  rw [Patch.mk.sizeOf_spec]
  simp only []
  repeat' first
    | apply small_append
    | exact small_opt (fun _ => rfl) (by omega)
    | exact small_many (fun _ => rfl) (by omega)
    | exact small_one (f := Elem.patchClassification) (fun _ => rfl) (by omega)

theorem small_signer (x : Signer) : ∀ p ∈ (Elem.signer x).checked, sizeOf p < sizeOf (Elem.signer x) := by
  rw [checked_signer, show sizeOf (Elem.signer x) = 1 + sizeOf x from rfl]
  cases x
  rw [Signer.mk.sizeOf_spec]
  simp only []
  repeat' first
    | apply small_append
    | exact small_opt (fun _ => rfl) (by omega)
    | exact small_many (fun _ => rfl) (by omega)
    | exact small_one (f := Elem.algorithm) (fun _ => rfl) (by omega)

theorem small_dataGovernance (x : DataGovernance) : ∀ p ∈ (Elem.dataGovernance x).checked, sizeOf p < sizeOf (Elem.dataGovernance x) := by
  rw [checked_dataGovernance, show sizeOf (Elem.dataGovernance x) = 1 + sizeOf x from rfl]
  cases x
  rw [DataGovernance.mk.sizeOf_spec]
  simp only []
  repeat' first
    | apply small_append
    | exact small_opt (fun _ => rfl) (by omega)
    | exact small_many (fun _ => rfl) (by omega)

theorem small_graphic (x : Graphic) : ∀ p ∈ (Elem.graphic x).checked, sizeOf p < sizeOf (Elem.graphic x) := by
  rw [checked_graphic, show sizeOf (Elem.graphic x) = 1 + sizeOf x from rfl]
  cases x
  rw [Graphic.mk.sizeOf_spec]
  simp only []
  repeat' first
    | apply small_append
    | exact small_opt (fun _ => rfl) (by omega)
    | exact small_many (fun _ => rfl) (by omega)

theorem small_graphicsCollection (x : GraphicsCollection) : ∀ p ∈ (Elem.graphicsCollection x).checked, sizeOf p < sizeOf (Elem.graphicsCollection x) := by
  rw [checked_graphicsCollection, show sizeOf (Elem.graphicsCollection x) = 1 + sizeOf x from rfl]
  cases x
  rw [GraphicsCollection.mk.sizeOf_spec]
  simp only []
  repeat' first
    | apply small_append
    | exact small_opt (fun _ => rfl) (by omega)
    | exact small_many (fun _ => rfl) (by omega)

theorem small_dataContents (x : DataContents) : ∀ p ∈ (Elem.dataContents x).checked, sizeOf p < sizeOf (Elem.dataContents x) := by
  rw [checked_dataContents, show sizeOf (Elem.dataContents x) = 1 + sizeOf x from rfl]
  cases x
  rw [DataContents.mk.sizeOf_spec]
  simp only []
  repeat' first
    | apply small_append
    | exact small_opt (fun _ => rfl) (by omega)
    | exact small_many (fun _ => rfl) (by omega)

theorem small_componentData (x : ComponentData) : ∀ p ∈ (Elem.componentData x).checked, sizeOf p < sizeOf (Elem.componentData x) := by
  rw [checked_componentData, show sizeOf (Elem.componentData x) = 1 + sizeOf x from rfl]
  cases x
  rw [ComponentData.mk.sizeOf_spec]
  simp only []
  repeat' first
    | apply small_append
    | exact small_opt (fun _ => rfl) (by omega)
    | exact small_many (fun _ => rfl) (by omega)
    | exact small_one (f := Elem.componentDataType) (fun _ => rfl) (by omega)

theorem small_modelParametersApproach (x : ModelParametersApproach) : ∀ p ∈ (Elem.modelParametersApproach x).checked, sizeOf p < sizeOf (Elem.modelParametersApproach x) := by
  rw [checked_modelParametersApproach, show sizeOf (Elem.modelParametersApproach x) = 1 + sizeOf x from rfl]
  cases x
  rw [ModelParametersApproach.mk.sizeOf_spec]
  simp only []
  repeat' first
    | apply small_append
    | exact small_opt (fun _ => rfl) (by omega)
    | exact small_many (fun _ => rfl) (by omega)

theorem small_modelParameters (x : ModelParameters) : ∀ p ∈ (Elem.modelParameters x).checked, sizeOf p < sizeOf (Elem.modelParameters x) := by
  rw [checked_modelParameters, show sizeOf (Elem.modelParameters x) = 1 + sizeOf x from rfl]
  cases x
  rw [ModelParameters.mk.sizeOf_spec]
  simp only []
  repeat' first
    | apply small_append
    | exact small_opt (fun _ => rfl) (by omega)
    | exact small_many (fun _ => rfl) (by omega)

theorem small_quantitativeAnalysis (x : QuantitativeAnalysis) : ∀ p ∈ (Elem.quantitativeAnalysis x).checked, sizeOf p < sizeOf (Elem.quantitativeAnalysis x) := by
  rw [checked_quantitativeAnalysis, show sizeOf (Elem.quantitativeAnalysis x) = 1 + sizeOf x from rfl]
  cases x
  rw [QuantitativeAnalysis.mk.sizeOf_spec]
  simp only []
  repeat' first
    | apply small_append
    | exact small_opt (fun _ => rfl) (by omega)
    | exact small_many (fun _ => rfl) (by omega)

theorem small_modelCard (x : ModelCard) : ∀ p ∈ (Elem.modelCard x).checked, sizeOf p < sizeOf (Elem.modelCard x) := by
  rw [checked_modelCard, show sizeOf (Elem.modelCard x) = 1 + sizeOf x from rfl]
  cases x
  rw [ModelCard.mk.sizeOf_spec]
  simp only []
  repeat' first
    | apply small_append
    | exact small_opt (fun _ => rfl) (by omega)
    | exact small_many (fun _ => rfl) (by omega)

theorem small_swid (x : Swid) : ∀ p ∈ (Elem.swid x).checked, sizeOf p < sizeOf (Elem.swid x) := by
  rw [checked_swid, show sizeOf (Elem.swid x) = 1 + sizeOf x from rfl]
  cases x
  rw [Swid.mk.sizeOf_spec]
  simp only []
  repeat' first
    | apply small_append
    | exact small_opt (fun _ => rfl) (by omega)
    | exact small_many (fun _ => rfl) (by omega)

theorem small_occurrence (x : Occurrence) : ∀ p ∈ (Elem.occurrence x).checked, sizeOf p < sizeOf (Elem.occurrence x) := by
  rw [checked_occurrence, show sizeOf (Elem.occurrence x) = 1 + sizeOf x from rfl]
  cases x
  rw [Occurrence.mk.sizeOf_spec]
  simp only []
  repeat' first
    | apply small_append
    | exact small_opt (fun _ => rfl) (by omega)
    | exact small_many (fun _ => rfl) (by omega)

theorem small_frame (x : Frame) : ∀ p ∈ (Elem.frame x).checked, sizeOf p < sizeOf (Elem.frame x) := by
  rw [checked_frame, show sizeOf (Elem.frame x) = 1 + sizeOf x from rfl]
  cases x
  rw [Frame.mk.sizeOf_spec]
  simp only []
  repeat' first
    | apply small_append
    | exact small_opt (fun _ => rfl) (by omega)
    | exact small_many (fun _ => rfl) (by omega)
    | exact small_one (f := Elem.normalizedString) (fun _ => rfl) (by omega)

theorem small_callstack (x : Callstack) : ∀ p ∈ (Elem.callstack x).checked, sizeOf p < sizeOf (Elem.callstack x) := by
  rw [checked_callstack, show sizeOf (Elem.callstack x) = 1 + sizeOf x from rfl]
  cases x
  rw [Callstack.mk.sizeOf_spec]
  simp only []
  repeat' first
    | apply small_append
    | exact small_opt (fun _ => rfl) (by omega)
    | exact small_many (fun _ => rfl) (by omega)
    | exact small_map (fun _ => rfl) (by omega)

theorem small_identity (x : Identity) : ∀ p ∈ (Elem.identity x).checked, sizeOf p < sizeOf (Elem.identity x) := by
  rw [checked_identity, show sizeOf (Elem.identity x) = 1 + sizeOf x from rfl]
  cases x
  rw [Identity.mk.sizeOf_spec]
  simp only []
  repeat' first
    | apply small_append
    | exact small_opt (fun _ => rfl) (by omega)
    | exact small_many (fun _ => rfl) (by omega)
    | exact small_one (f := Elem.identityField) (fun _ => rfl) (by omega)

theorem small_componentEvidence (x : ComponentEvidence) : ∀ p ∈ (Elem.componentEvidence x).checked, sizeOf p < sizeOf (Elem.componentEvidence x) := by
  rw [checked_componentEvidence, show sizeOf (Elem.componentEvidence x) = 1 + sizeOf x from rfl]
  cases x
  rw [ComponentEvidence.mk.sizeOf_spec]
  simp only []
  repeat' first
    | apply small_append
    | exact small_opt (fun _ => rfl) (by omega)
    | exact small_many (fun _ => rfl) (by omega)

theorem small_component (x : Component) : ∀ p ∈ (Elem.component x).checked, sizeOf p < sizeOf (Elem.component x) := by
  rw [checked_component, show sizeOf (Elem.component x) = 1 + sizeOf x from rfl]
  cases x
  rw [Component.mk.sizeOf_spec]
  simp only []
  repeat' first
    | apply small_append
    | exact small_opt (fun _ => rfl) (by omega)
    | exact small_many (fun _ => rfl) (by omega)
    | exact small_one (f := Elem.classification) (fun _ => rfl) (by omega)
    | exact small_one (f := Elem.normalizedString) (fun _ => rfl) (by omega)

theorem small_pedigree (x : Pedigree) : ∀ p ∈ (Elem.pedigree x).checked, sizeOf p < sizeOf (Elem.pedigree x) := by
  rw [checked_pedigree, show sizeOf (Elem.pedigree x) = 1 + sizeOf x from rfl]
  cases x
  rw [Pedigree.mk.sizeOf_spec]
  simp only []
  repeat' first
    | apply small_append
    | exact small_opt (fun _ => rfl) (by omega)
    | exact small_many (fun _ => rfl) (by omega)

theorem small_dataClassification (x : DataClassification) : ∀ p ∈ (Elem.dataClassification x).checked, sizeOf p < sizeOf (Elem.dataClassification x) := by
  rw [checked_dataClassification, show sizeOf (Elem.dataClassification x) = 1 + sizeOf x from rfl]
  cases x
  rw [DataClassification.mk.sizeOf_spec]
  simp only []
  repeat' first
    | apply small_append
    | exact small_opt (fun _ => rfl) (by omega)
    | exact small_many (fun _ => rfl) (by omega)
    | exact small_one (f := Elem.dataFlowType) (fun _ => rfl) (by omega)
    | exact small_one (f := Elem.normalizedString) (fun _ => rfl) (by omega)

theorem small_serviceData (x : ServiceData) : ∀ p ∈ (Elem.serviceData x).checked, sizeOf p < sizeOf (Elem.serviceData x) := by
  rw [checked_serviceData, show sizeOf (Elem.serviceData x) = 1 + sizeOf x from rfl]
  cases x
  rw [ServiceData.mk.sizeOf_spec]
  simp only []
  repeat' first
    | apply small_append
    | exact small_opt (fun _ => rfl) (by omega)
    | exact small_many (fun _ => rfl) (by omega)
    | exact small_one (f := Elem.dataClassification) (fun _ => rfl) (by omega)

theorem small_service (x : Service) : ∀ p ∈ (Elem.service x).checked, sizeOf p < sizeOf (Elem.service x) := by
  rw [checked_service, show sizeOf (Elem.service x) = 1 + sizeOf x from rfl]
  cases x
  rw [Service.mk.sizeOf_spec]
  simp only []
  repeat' first
    | apply small_append
    | exact small_opt (fun _ => rfl) (by omega)
    | exact small_many (fun _ => rfl) (by omega)
    | exact small_one (f := Elem.normalizedString) (fun _ => rfl) (by omega)

theorem small_tool (x : Tool) : ∀ p ∈ (Elem.tool x).checked, sizeOf p < sizeOf (Elem.tool x) := by
  rw [checked_tool, show sizeOf (Elem.tool x) = 1 + sizeOf x from rfl]
  cases x
  rw [Tool.mk.sizeOf_spec]
  simp only []
  repeat' first
    | apply small_append
    | exact small_opt (fun _ => rfl) (by omega)
    | exact small_many (fun _ => rfl) (by omega)

theorem small_metadata (x : Metadata) : ∀ p ∈ (Elem.metadata x).checked, sizeOf p < sizeOf (Elem.metadata x) := by
  rw [checked_metadata, show sizeOf (Elem.metadata x) = 1 + sizeOf x from rfl]
  cases x
  rw [Metadata.mk.sizeOf_spec]
  simp only []
  repeat' first
    | apply small_append
    | exact small_opt (fun _ => rfl) (by omega)
    | exact small_many (fun _ => rfl) (by omega)

theorem small_composition (x : Composition) : ∀ p ∈ (Elem.composition x).checked, sizeOf p < sizeOf (Elem.composition x) := by
  rw [checked_composition, show sizeOf (Elem.composition x) = 1 + sizeOf x from rfl]
  cases x
  rw [Composition.mk.sizeOf_spec]
  simp only []
  repeat' first
    | apply small_append
    | exact small_opt (fun _ => rfl) (by omega)
    | exact small_many (fun _ => rfl) (by omega)
    | exact small_one (f := Elem.aggregateType) (fun _ => rfl) (by omega)

theorem small_advisory (x : Advisory) : ∀ p ∈ (Elem.advisory x).checked, sizeOf p < sizeOf (Elem.advisory x) := by
  rw [checked_advisory, show sizeOf (Elem.advisory x) = 1 + sizeOf x from rfl]
  cases x
  rw [Advisory.mk.sizeOf_spec]
  simp only []
  repeat' first
    | apply small_append
    | exact small_opt (fun _ => rfl) (by omega)
    | exact small_many (fun _ => rfl) (by omega)
    | exact small_one (f := Elem.uri) (fun _ => rfl) (by omega)

theorem small_vulnerabilitySource (x : VulnerabilitySource) : ∀ p ∈ (Elem.vulnerabilitySource x).checked, sizeOf p < sizeOf (Elem.vulnerabilitySource x) := by
  rw [checked_vulnerabilitySource, show sizeOf (Elem.vulnerabilitySource x) = 1 + sizeOf x from rfl]
  cases x
  rw [VulnerabilitySource.mk.sizeOf_spec]
  simp only []
  repeat' first
    | apply small_append
    | exact small_opt (fun _ => rfl) (by omega)
    | exact small_many (fun _ => rfl) (by omega)

theorem small_vulnerabilityReference (x : VulnerabilityReference) : ∀ p ∈ (Elem.vulnerabilityReference x).checked, sizeOf p < sizeOf (Elem.vulnerabilityReference x) := by
  rw [checked_vulnerabilityReference, show sizeOf (Elem.vulnerabilityReference x) = 1 + sizeOf x from rfl]
  cases x
  rw [VulnerabilityReference.mk.sizeOf_spec]
  simp only []
  repeat' first
    | apply small_append
    | exact small_opt (fun _ => rfl) (by omega)
    | exact small_many (fun _ => rfl) (by omega)
    | exact small_one (f := Elem.normalizedString) (fun _ => rfl) (by omega)
    | exact small_one (f := Elem.vulnerabilitySource) (fun _ => rfl) (by omega)

theorem small_vulnerabilityRating (x : VulnerabilityRating) : ∀ p ∈ (Elem.vulnerabilityRating x).checked, sizeOf p < sizeOf (Elem.vulnerabilityRating x) := by
  rw [checked_vulnerabilityRating, show sizeOf (Elem.vulnerabilityRating x) = 1 + sizeOf x from rfl]
  cases x
  rw [VulnerabilityRating.mk.sizeOf_spec]
  simp only []
  repeat' first
    | apply small_append
    | exact small_opt (fun _ => rfl) (by omega)
    | exact small_many (fun _ => rfl) (by omega)

theorem small_vulnerabilityCredits (x : VulnerabilityCredits) : ∀ p ∈ (Elem.vulnerabilityCredits x).checked, sizeOf p < sizeOf (Elem.vulnerabilityCredits x) := by
  rw [checked_vulnerabilityCredits, show sizeOf (Elem.vulnerabilityCredits x) = 1 + sizeOf x from rfl]
  cases x
  rw [VulnerabilityCredits.mk.sizeOf_spec]
  simp only []
  repeat' first
    | apply small_append
    | exact small_opt (fun _ => rfl) (by omega)
    | exact small_many (fun _ => rfl) (by omega)

theorem small_vulnerabilityAnalysis (x : VulnerabilityAnalysis) : ∀ p ∈ (Elem.vulnerabilityAnalysis x).checked, sizeOf p < sizeOf (Elem.vulnerabilityAnalysis x) := by
  rw [checked_vulnerabilityAnalysis, show sizeOf (Elem.vulnerabilityAnalysis x) = 1 + sizeOf x from rfl]
  cases x
  rw [VulnerabilityAnalysis.mk.sizeOf_spec]
  simp only []
  repeat' first
    | apply small_append
    | exact small_opt (fun _ => rfl) (by omega)
    | exact small_many (fun _ => rfl) (by omega)

theorem small_targetVersion (x : TargetVersion) : ∀ p ∈ (Elem.targetVersion x).checked, sizeOf p < sizeOf (Elem.targetVersion x) := by
  rw [checked_targetVersion, show sizeOf (Elem.targetVersion x) = 1 + sizeOf x from rfl]
  cases x
  rw [TargetVersion.mk.sizeOf_spec]
  simp only []
  repeat' first
    | apply small_append
    | exact small_opt (fun _ => rfl) (by omega)
    | exact small_many (fun _ => rfl) (by omega)
    | exact small_one (f := Elem.status) (fun _ => rfl) (by omega)
    | exact small_one (f := Elem.versionRange) (fun _ => rfl) (by omega)

theorem small_vulnerabilityTarget (x : VulnerabilityTarget) : ∀ p ∈ (Elem.vulnerabilityTarget x).checked, sizeOf p < sizeOf (Elem.vulnerabilityTarget x) := by
  rw [checked_vulnerabilityTarget, show sizeOf (Elem.vulnerabilityTarget x) = 1 + sizeOf x from rfl]
  cases x
  rw [VulnerabilityTarget.mk.sizeOf_spec]
  simp only []
  repeat' first
    | apply small_append
    | exact small_opt (fun _ => rfl) (by omega)
    | exact small_many (fun _ => rfl) (by omega)

theorem small_vulnerability (x : Vulnerability) : ∀ p ∈ (Elem.vulnerability x).checked, sizeOf p < sizeOf (Elem.vulnerability x) := by
  rw [checked_vulnerability, show sizeOf (Elem.vulnerability x) = 1 + sizeOf x from rfl]
  cases x
  rw [Vulnerability.mk.sizeOf_spec]
  simp only []
  repeat' first
    | apply small_append
    | exact small_opt (fun _ => rfl) (by omega)
    | exact small_many (fun _ => rfl) (by omega)

theorem small_annotation (x : Annotation) : ∀ p ∈ (Elem.annotation x).checked, sizeOf p < sizeOf (Elem.annotation x) := by
  rw [checked_annotation, show sizeOf (Elem.annotation x) = 1 + sizeOf x from rfl]
  cases x
  rw [Annotation.mk.sizeOf_spec]
  simp only []
  repeat' first
    | apply small_append
    | exact small_opt (fun _ => rfl) (by omega)
    | exact small_many (fun _ => rfl) (by omega)
    | exact small_one (f := Elem.annotator) (fun _ => rfl) (by omega)
    | exact small_one (f := Elem.dateTime) (fun _ => rfl) (by omega)

theorem small_input (x : Input) : ∀ p ∈ (Elem.input x).checked, sizeOf p < sizeOf (Elem.input x) := by
  rw [checked_input, show sizeOf (Elem.input x) = 1 + sizeOf x from rfl]
  cases x
  rw [Input.mk.sizeOf_spec]
  simp only []
  repeat' first
    | apply small_append
    | exact small_opt (fun _ => rfl) (by omega)
    | exact small_many (fun _ => rfl) (by omega)
    | exact small_inputParts (by omega)

theorem small_output (x : Output) : ∀ p ∈ (Elem.output x).checked, sizeOf p < sizeOf (Elem.output x) := by
  rw [checked_output, show sizeOf (Elem.output x) = 1 + sizeOf x from rfl]
  cases x
  rw [Output.mk.sizeOf_spec]
  simp only []
  repeat' first
    | apply small_append
    | exact small_opt (fun _ => rfl) (by omega)
    | exact small_many (fun _ => rfl) (by omega)
    | exact small_outputParts (by omega)

theorem small_command (x : Command) : ∀ p ∈ (Elem.command x).checked, sizeOf p < sizeOf (Elem.command x) := by
  rw [checked_command, show sizeOf (Elem.command x) = 1 + sizeOf x from rfl]
  cases x
  rw [Command.mk.sizeOf_spec]
  simp only []
  repeat' first
    | apply small_append
    | exact small_opt (fun _ => rfl) (by omega)
    | exact small_many (fun _ => rfl) (by omega)

theorem small_step (x : Step) : ∀ p ∈ (Elem.step x).checked, sizeOf p < sizeOf (Elem.step x) := by
  rw [checked_step, show sizeOf (Elem.step x) = 1 + sizeOf x from rfl]
  cases x
  rw [Step.mk.sizeOf_spec]
  simp only []
  repeat' first
    | apply small_append
    | exact small_opt (fun _ => rfl) (by omega)
    | exact small_many (fun _ => rfl) (by omega)

theorem small_triggerEvent (x : TriggerEvent) : ∀ p ∈ (Elem.triggerEvent x).checked, sizeOf p < sizeOf (Elem.triggerEvent x) := by
  rw [checked_triggerEvent, show sizeOf (Elem.triggerEvent x) = 1 + sizeOf x from rfl]
  cases x
  rw [TriggerEvent.mk.sizeOf_spec]
  simp only []
  repeat' first
    | apply small_append
    | exact small_opt (fun _ => rfl) (by omega)
    | exact small_many (fun _ => rfl) (by omega)

theorem small_condition (x : Condition) : ∀ p ∈ (Elem.condition x).checked, sizeOf p < sizeOf (Elem.condition x) := by
  rw [checked_condition, show sizeOf (Elem.condition x) = 1 + sizeOf x from rfl]
  cases x
  rw [Condition.mk.sizeOf_spec]
  simp only []
  repeat' first
    | apply small_append
    | exact small_opt (fun _ => rfl) (by omega)
    | exact small_many (fun _ => rfl) (by omega)

theorem small_trigger (x : Trigger) : ∀ p ∈ (Elem.trigger x).checked, sizeOf p < sizeOf (Elem.trigger x) := by
  rw [checked_trigger, show sizeOf (Elem.trigger x) = 1 + sizeOf x from rfl]
  cases x
  rw [Trigger.mk.sizeOf_spec]
  simp only []
  repeat' first
    | apply small_append
    | exact small_opt (fun _ => rfl) (by omega)
    | exact small_many (fun _ => rfl) (by omega)
    | exact small_one (f := Elem.bomRefAttribute) (fun _ => rfl) (by omega)
    | exact small_one (f := Elem.triggerType) (fun _ => rfl) (by omega)

theorem small_volume (x : Volume) : ∀ p ∈ (Elem.volume x).checked, sizeOf p < sizeOf (Elem.volume x) := by
  rw [checked_volume, show sizeOf (Elem.volume x) = 1 + sizeOf x from rfl]
  cases x
  rw [Volume.mk.sizeOf_spec]
  simp only []
  repeat' first
    | apply small_append
    | exact small_opt (fun _ => rfl) (by omega)
    | exact small_many (fun _ => rfl) (by omega)
    | exact small_one (f := Elem.volumeMode) (fun _ => rfl) (by omega)

theorem small_workspace (x : Workspace) : ∀ p ∈ (Elem.workspace x).checked, sizeOf p < sizeOf (Elem.workspace x) := by
  rw [checked_workspace, show sizeOf (Elem.workspace x) = 1 + sizeOf x from rfl]
  cases x
  rw [Workspace.mk.sizeOf_spec]
  simp only []
  repeat' first
    | apply small_append
    | exact small_opt (fun _ => rfl) (by omega)
    | exact small_many (fun _ => rfl) (by omega)

theorem small_workflowTask (x : WorkflowTask) : ∀ p ∈ (Elem.workflowTask x).checked, sizeOf p < sizeOf (Elem.workflowTask x) := by
  rw [checked_workflowTask, show sizeOf (Elem.workflowTask x) = 1 + sizeOf x from rfl]
  cases x
  rw [WorkflowTask.mk.sizeOf_spec]
  simp only []
  repeat' first
    | apply small_append
    | exact small_opt (fun _ => rfl) (by omega)
    | exact small_many (fun _ => rfl) (by omega)
    | exact small_map (fun _ => rfl) (by omega)

theorem small_workflow (x : Workflow) : ∀ p ∈ (Elem.workflow x).checked, sizeOf p < sizeOf (Elem.workflow x) := by
  rw [checked_workflow, show sizeOf (Elem.workflow x) = 1 + sizeOf x from rfl]
  cases x
  rw [Workflow.mk.sizeOf_spec]
  simp only []
  repeat' first
    | apply small_append
    | exact small_opt (fun _ => rfl) (by omega)
    | exact small_many (fun _ => rfl) (by omega)
    | exact small_map (fun _ => rfl) (by omega)

theorem small_formula (x : Formula) : ∀ p ∈ (Elem.formula x).checked, sizeOf p < sizeOf (Elem.formula x) := by
  rw [checked_formula, show sizeOf (Elem.formula x) = 1 + sizeOf x from rfl]
  cases x
  rw [Formula.mk.sizeOf_spec]
  simp only []
  repeat' first
    | apply small_append
    | exact small_opt (fun _ => rfl) (by omega)
    | exact small_many (fun _ => rfl) (by omega)

theorem small_bom (x : Bom) : ∀ p ∈ (Elem.bom x).checked, sizeOf p < sizeOf (Elem.bom x) := by
  rw [checked_bom, show sizeOf (Elem.bom x) = 1 + sizeOf x from rfl]
  cases x
  rw [Bom.mk.sizeOf_spec]
  simp only []
  repeat' first
    | apply small_append
    | exact small_opt (fun _ => rfl) (by omega)
    | exact small_many (fun _ => rfl) (by omega)

theorem small_licenseIdentifier (x : LicenseIdentifier) : ∀ p ∈ (Elem.licenseIdentifier x).checked, sizeOf p < sizeOf (Elem.licenseIdentifier x) := by
  cases x with
  | spdxId i =>
    show ∀ p ∈ [Elem.spdxId i], sizeOf p < 1 + (1 + sizeOf i)
    exact small_one (f := Elem.spdxId) (fun _ => rfl) (by omega)
  | name n =>
    show ∀ p ∈ [Elem.normalizedString n], sizeOf p < 1 + (1 + sizeOf n)
    exact small_one (f := Elem.normalizedString) (fun _ => rfl) (by omega)

theorem small_licenseContact (x : LicenseContact) : ∀ p ∈ (Elem.licenseContact x).checked, sizeOf p < sizeOf (Elem.licenseContact x) := by
  cases x with
  | organization o =>
    show ∀ p ∈ [Elem.organizationalEntity o], sizeOf p < 1 + (1 + sizeOf o)
    exact small_one (f := Elem.organizationalEntity) (fun _ => rfl) (by omega)
  | contact c =>
    show ∀ p ∈ [Elem.organizationalContact c], sizeOf p < 1 + (1 + sizeOf c)
    exact small_one (f := Elem.organizationalContact) (fun _ => rfl) (by omega)

theorem small_licenseChoice (x : LicenseChoice) : ∀ p ∈ (Elem.licenseChoice x).checked, sizeOf p < sizeOf (Elem.licenseChoice x) := by
  cases x with
  | license l =>
    show ∀ p ∈ [Elem.license l], sizeOf p < 1 + (1 + sizeOf l)
    exact small_one (f := Elem.license) (fun _ => rfl) (by omega)
  | expression e =>
    show ∀ p ∈ [Elem.spdxExpression e], sizeOf p < 1 + (1 + sizeOf e)
    exact small_one (f := Elem.spdxExpression) (fun _ => rfl) (by omega)

theorem small_licenses (x : Licenses) : ∀ p ∈ (Elem.licenses x).checked, sizeOf p < sizeOf (Elem.licenses x) := by
  show ∀ p ∈ x.map Elem.licenseChoice, sizeOf p < 1 + sizeOf x
  exact small_map (fun _ => rfl) (by omega)

theorem small_signature (x : Signature) : ∀ p ∈ (Elem.signature x).checked, sizeOf p < sizeOf (Elem.signature x) := by
  cases x with
  | signers l =>
    show ∀ p ∈ l.map Elem.signer, sizeOf p < 1 + (1 + sizeOf l)
    exact small_map (fun _ => rfl) (by omega)
  | chain l =>
    show ∀ p ∈ l.map Elem.signer, sizeOf p < 1 + (1 + sizeOf l)
    exact small_map (fun _ => rfl) (by omega)
  | single s =>
    show ∀ p ∈ [Elem.signer s], sizeOf p < 1 + (1 + sizeOf s)
    exact small_one (f := Elem.signer) (fun _ => rfl) (by omega)

theorem small_dataGovernanceResponsibleParty (x : DataGovernanceResponsibleParty) : ∀ p ∈ (Elem.dataGovernanceResponsibleParty x).checked, sizeOf p < sizeOf (Elem.dataGovernanceResponsibleParty x) := by
  cases x with
  | organization o =>
    show ∀ p ∈ [Elem.organizationalEntity o], sizeOf p < 1 + (1 + sizeOf o)
    exact small_one (f := Elem.organizationalEntity) (fun _ => rfl) (by omega)
  | contact c =>
    show ∀ p ∈ [Elem.organizationalContact c], sizeOf p < 1 + (1 + sizeOf c)
    exact small_one (f := Elem.organizationalContact) (fun _ => rfl) (by omega)

theorem small_dataset (x : Dataset) : ∀ p ∈ (Elem.dataset x).checked, sizeOf p < sizeOf (Elem.dataset x) := by
  cases x with
  | component c =>
    show ∀ p ∈ [Elem.componentData c], sizeOf p < 1 + (1 + sizeOf c)
    exact small_one (f := Elem.componentData) (fun _ => rfl) (by omega)
  | reference a0 =>
    show ∀ p ∈ ([] : List Elem), sizeOf p < 1 + (1 + sizeOf a0)
    intro p hp; exact absurd hp List.not_mem_nil

theorem small_serviceDataChoice (x : ServiceDataChoice) : ∀ p ∈ (Elem.serviceDataChoice x).checked, sizeOf p < sizeOf (Elem.serviceDataChoice x) := by
  cases x with
  | serviceData l =>
    show ∀ p ∈ l.map Elem.serviceData, sizeOf p < 1 + (1 + sizeOf l)
    exact small_map (fun _ => rfl) (by omega)
  | classification l =>
    show ∀ p ∈ l.map Elem.dataClassification, sizeOf p < 1 + (1 + sizeOf l)
    exact small_map (fun _ => rfl) (by omega)

theorem small_tools (x : Tools) : ∀ p ∈ (Elem.tools x).checked, sizeOf p < sizeOf (Elem.tools x) := by
  cases x with
  | list l =>
    show ∀ p ∈ l.map Elem.tool, sizeOf p < 1 + (1 + sizeOf l)
    exact small_map (fun _ => rfl) (by omega)
  | object services components =>
    show ∀ p ∈ many Elem.service services ++ many Elem.component components, sizeOf p < 1 + (1 + sizeOf services + sizeOf components)
    exact small_append (small_many (fun _ => rfl) (by omega)) (small_many (fun _ => rfl) (by omega))

theorem small_annotator (x : Annotator) : ∀ p ∈ (Elem.annotator x).checked, sizeOf p < sizeOf (Elem.annotator x) := by
  cases x with
  | organization o =>
    show ∀ p ∈ [Elem.organizationalEntity o], sizeOf p < 1 + (1 + sizeOf o)
    exact small_one (f := Elem.organizationalEntity) (fun _ => rfl) (by omega)
  | individual c =>
    show ∀ p ∈ [Elem.organizationalContact c], sizeOf p < 1 + (1 + sizeOf c)
    exact small_one (f := Elem.organizationalContact) (fun _ => rfl) (by omega)
  | component c =>
    show ∀ p ∈ [Elem.component c], sizeOf p < 1 + (1 + sizeOf c)
    exact small_one (f := Elem.component) (fun _ => rfl) (by omega)
  | service s =>
    show ∀ p ∈ [Elem.service s], sizeOf p < 1 + (1 + sizeOf s)
    exact small_one (f := Elem.service) (fun _ => rfl) (by omega)

theorem small_resourceReference (x : ResourceReference) : ∀ p ∈ (Elem.resourceReference x).checked, sizeOf p < sizeOf (Elem.resourceReference x) := by
  cases x with
  | ref a0 =>
    show ∀ p ∈ ([] : List Elem), sizeOf p < 1 + (1 + sizeOf a0)
    intro p hp; exact absurd hp List.not_mem_nil
  | externalReference e =>
    show ∀ p ∈ [Elem.externalReference e], sizeOf p < 1 + (1 + sizeOf e)
    exact small_one (f := Elem.externalReference) (fun _ => rfl) (by omega)

/-- The parts of an element are smaller than it. -/
theorem Elem.small (e : Elem) : ∀ p ∈ e.checked, sizeOf p < sizeOf e := by
  cases e with
  | normalizedString x => intro p hp; exact absurd hp List.not_mem_nil
  | uri x => intro p hp; exact absurd hp List.not_mem_nil
  | dateTime x => intro p hp; exact absurd hp List.not_mem_nil
  | purl x => intro p hp; exact absurd hp List.not_mem_nil
  | cpe x => intro p hp; exact absurd hp List.not_mem_nil
  | mimeType x => intro p hp; exact absurd hp List.not_mem_nil
  | bomRefAttribute x => intro p hp; exact absurd hp List.not_mem_nil
  | serialNumber x => intro p hp; exact absurd hp List.not_mem_nil
  | hashValue x => intro p hp; exact absurd hp List.not_mem_nil
  | attachmentEncoding x => intro p hp; exact absurd hp List.not_mem_nil
  | confidence x => intro p hp; exact absurd hp List.not_mem_nil
  | spdxId x => intro p hp; exact absurd hp List.not_mem_nil
  | spdxExpression x => intro p hp; exact absurd hp List.not_mem_nil
  | refUri x => intro p hp; exact absurd hp List.not_mem_nil
  | classification x => intro p hp; exact absurd hp List.not_mem_nil
  | aggregateType x => intro p hp; exact absurd hp List.not_mem_nil
  | scoreMethod x => intro p hp; exact absurd hp List.not_mem_nil
  | scope x => intro p hp; exact absurd hp List.not_mem_nil
  | hashAlgorithm x => intro p hp; exact absurd hp List.not_mem_nil
  | externalReferenceType x => intro p hp; exact absurd hp List.not_mem_nil
  | identityField x => intro p hp; exact absurd hp List.not_mem_nil
  | algorithm x => intro p hp; exact absurd hp List.not_mem_nil
  | licenseType x => intro p hp; exact absurd hp List.not_mem_nil
  | approachType x => intro p hp; exact absurd hp List.not_mem_nil
  | componentDataType x => intro p hp; exact absurd hp List.not_mem_nil
  | issueClassification x => intro p hp; exact absurd hp List.not_mem_nil
  | patchClassification x => intro p hp; exact absurd hp List.not_mem_nil
  | dataFlowType x => intro p hp; exact absurd hp List.not_mem_nil
  | impactAnalysisState x => intro p hp; exact absurd hp List.not_mem_nil
  | impactAnalysisJustification x => intro p hp; exact absurd hp List.not_mem_nil
  | impactAnalysisResponse x => intro p hp; exact absurd hp List.not_mem_nil
  | severity x => intro p hp; exact absurd hp List.not_mem_nil
  | status x => intro p hp; exact absurd hp List.not_mem_nil
  | taskType x => intro p hp; exact absurd hp List.not_mem_nil
  | outputType x => intro p hp; exact absurd hp List.not_mem_nil
  | triggerType x => intro p hp; exact absurd hp List.not_mem_nil
  | accessMode x => intro p hp; exact absurd hp List.not_mem_nil
  | volumeMode x => intro p hp; exact absurd hp List.not_mem_nil
  | versionRange x => intro p hp; exact absurd hp List.not_mem_nil
  | attachedText x => exact small_attachedText x
  | attachment x => exact small_attachment x
  | organizationalContact x => exact small_organizationalContact x
  | organizationalEntity x => exact small_organizationalEntity x
  | property x => exact small_property x
  | hash x => exact small_hash x
  | externalReference x => exact small_externalReference x
  | licensing x => exact small_licensing x
  | license x => exact small_license x
  | identifiableAction x => exact small_identifiableAction x
  | commit x => exact small_commit x
  | diff x => exact small_diff x
  | source x => exact small_source x
  | issue x => exact small_issue x
  | patch x => exact small_patch x
  | signer x => exact small_signer x
  | dataGovernance x => exact small_dataGovernance x
  | graphic x => exact small_graphic x
  | graphicsCollection x => exact small_graphicsCollection x
  | dataContents x => exact small_dataContents x
  | componentData x => exact small_componentData x
  | modelParametersApproach x => exact small_modelParametersApproach x
  | modelParameters x => exact small_modelParameters x
  | quantitativeAnalysis x => exact small_quantitativeAnalysis x
  | modelCard x => exact small_modelCard x
  | swid x => exact small_swid x
  | occurrence x => exact small_occurrence x
  | frame x => exact small_frame x
  | callstack x => exact small_callstack x
  | identity x => exact small_identity x
  | componentEvidence x => exact small_componentEvidence x
  | component x => exact small_component x
  | pedigree x => exact small_pedigree x
  | dataClassification x => exact small_dataClassification x
  | serviceData x => exact small_serviceData x
  | service x => exact small_service x
  | tool x => exact small_tool x
  | metadata x => exact small_metadata x
  | composition x => exact small_composition x
  | advisory x => exact small_advisory x
  | vulnerabilitySource x => exact small_vulnerabilitySource x
  | vulnerabilityReference x => exact small_vulnerabilityReference x
  | vulnerabilityRating x => exact small_vulnerabilityRating x
  | vulnerabilityCredits x => exact small_vulnerabilityCredits x
  | vulnerabilityAnalysis x => exact small_vulnerabilityAnalysis x
  | targetVersion x => exact small_targetVersion x
  | vulnerabilityTarget x => exact small_vulnerabilityTarget x
  | vulnerability x => exact small_vulnerability x
  | annotation x => exact small_annotation x
  | input x => exact small_input x
  | output x => exact small_output x
  | command x => exact small_command x
  | step x => exact small_step x
  | triggerEvent x => exact small_triggerEvent x
  | condition x => exact small_condition x
  | trigger x => exact small_trigger x
  | volume x => exact small_volume x
  | workspace x => exact small_workspace x
  | workflowTask x => exact small_workflowTask x
  | workflow x => exact small_workflow x
  | formula x => exact small_formula x
  | bom x => exact small_bom x
  | licenseIdentifier x => exact small_licenseIdentifier x
  | licenseContact x => exact small_licenseContact x
  | licenseChoice x => exact small_licenseChoice x
  | licenses x => exact small_licenses x
  | signature x => exact small_signature x
  | dataGovernanceResponsibleParty x => exact small_dataGovernanceResponsibleParty x
  | dataset x => exact small_dataset x
  | serviceDataChoice x => exact small_serviceDataChoice x
  | tools x => exact small_tools x
  | annotator x => exact small_annotator x
  | resourceReference x => exact small_resourceReference x

/-! ## Everything inside -/

theorem Elem.passes_iff (E : VEnv) (v : SpecVersion) (e : Elem) :
    e.Passes E v ↔ e.rule E v ∧ ∀ p ∈ e.checked, p.Passes E v := (Elem.good E v e).2

theorem Elem.passes_inside {E : VEnv} {v : SpecVersion} {a b : Elem} (h : a.Passes E v)
    (hi : Inside Elem.checked a b) : b.Passes E v := by
  induction hi with
  | refl e => exact h
  | step hb _ ih => exact ih (((Elem.passes_iff E v _).mp h).2 _ hb)

/-- An element passes validation iff each element inside it, as far as validation looks,
satisfies its own rule. -/
theorem Elem.passes_iff_rules (E : VEnv) (v : SpecVersion) (e : Elem) :
    e.Passes E v ↔ ∀ p, Inside Elem.checked e p → p.rule E v := by
  constructor
  · intro h p hp
    exact ((Elem.passes_iff E v p).mp (Elem.passes_inside h hp)).1
  · suffices ∀ n e, sizeOf e < n → (∀ p, Inside Elem.checked e p → p.rule E v) → e.Passes E v from
      this _ e (Nat.lt_succ_self _)
    intro n
    induction n with
    | zero => intro e h; omega
    | succ n ih =>
      intro e hn h
      rw [Elem.passes_iff]
      refine ⟨h e (.refl e), fun p hp => ih p ?_ fun q hq => h q (.step hp hq)⟩
      have := Elem.small e p hp
      omega

end Cdx
