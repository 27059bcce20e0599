import Verif.Spec.Format.Bom

set_option linter.unusedVariables false

/-!
# Documents whose enumeration values are read back from their names

`X.Named v x`: every enumeration value and every address of an external reference in the parts of
`x` that version `v` has is read back from the name it is written under. The values that are not are
those that hold an unknown name which is in fact a known one, as `Unknown("library")`.
-/

namespace Cdx

/-- Whether the enumeration values in a `AttachedText` are read back from their names. -/
def AttachedText.Named (x : AttachedText) : Prop :=
  (∀ y, x.encoding = some y → Stable Encoding.display Encoding.new y)

/-- Whether the enumeration values in a `Hash` are read back from their names. -/
def Hash.Named (x : Hash) : Prop :=
  Stable HashAlgorithm.display HashAlgorithm.new x.alg

/-- Whether the enumeration values in a `ExternalReference` are read back from their names. -/
def ExternalReference.Named (x : ExternalReference) : Prop :=
  Stable ExternalReferenceType.display ExternalReferenceType.new x.externalReferenceType ∧
  Stable RefUri.display RefUri.ofUrl x.url ∧
  (∀ y, x.hashes = some y → ∀ z ∈ y, Hash.Named z)

/-- Whether the enumeration values in a `Licensing` are read back from their names. -/
def Licensing.Named (x : Licensing) : Prop :=
  (∀ y, x.licenseTypes = some y → ∀ z ∈ y, Stable LicenseType.display LicenseType.new z)

/-- Whether the enumeration values in a `License` that version `v` has are read back from their names. -/
def License.Named (v : SpecVersion) (x : License) : Prop :=
  (∀ y, x.text = some y → AttachedText.Named y) ∧
  (v = .v1_5 → ∀ y, x.licensing = some y → Licensing.Named y)

/-- Whether the enumeration values in a `LicenseChoice` that version `v` has are read back from their names. -/
def LicenseChoice.Named (v : SpecVersion) : LicenseChoice → Prop
  | .license l => License.Named v l
  | .expression _ => True

/-- Whether the enumeration values in a `Diff` are read back from their names. -/
def Diff.Named (x : Diff) : Prop :=
  (∀ y, x.text = some y → AttachedText.Named y)

/-- Whether the enumeration values in a `Issue` are read back from their names. -/
def Issue.Named (x : Issue) : Prop :=
  Stable IssueClassification.display IssueClassification.new x.issueType

/-- Whether the enumeration values in a `Patch` are read back from their names. -/
def Patch.Named (x : Patch) : Prop :=
  Stable PatchClassification.display PatchClassification.new x.patchType ∧
  (∀ y, x.diff = some y → Diff.Named y) ∧
  (∀ y, x.resolves = some y → ∀ z ∈ y, Issue.Named z)

/-- Whether the enumeration values in a `Signer` are read back from their names. -/
def Signer.Named (x : Signer) : Prop :=
  Stable Algorithm.display Algorithm.new x.algorithm

/-- Whether the enumeration values in a `Signature` are read back from their names. -/
def Signature.Named : Signature → Prop
  | .signers l => ∀ y ∈ l, Signer.Named y
  | .chain l => ∀ y ∈ l, Signer.Named y
  | .single s => Signer.Named s

/-- Whether the enumeration values in a `ComponentData` are read back from their names. -/
def ComponentData.Named (x : ComponentData) : Prop :=
  Stable ComponentDataType.display ComponentDataType.new x.dataType

/-- Whether the enumeration values in a `ModelParametersApproach` are read back from their names. -/
def ModelParametersApproach.Named (x : ModelParametersApproach) : Prop :=
  (∀ y, x.approachType = some y → Stable ApproachType.display ApproachType.new y)

/-- Whether the enumeration values in a `Dataset` are read back from their names. -/
def Dataset.Named : Dataset → Prop
  | .component c => ComponentData.Named c
  | .reference _ => True

/-- Whether the enumeration values in a `ModelParameters` are read back from their names. -/
def ModelParameters.Named (x : ModelParameters) : Prop :=
  (∀ y, x.approach = some y → ModelParametersApproach.Named y) ∧
  (∀ y, x.datasets = some y → ∀ z ∈ y, Dataset.Named z)

/-- Whether the enumeration values in a `ModelCard` are read back from their names. -/
def ModelCard.Named (x : ModelCard) : Prop :=
  (∀ y, x.modelParameters = some y → ModelParameters.Named y)

/-- Whether the enumeration values in a `Swid` are read back from their names. -/
def Swid.Named (x : Swid) : Prop :=
  (∀ y, x.text = some y → AttachedText.Named y)

/-- Whether the enumeration values in a `Identity` are read back from their names. -/
def Identity.Named (x : Identity) : Prop :=
  Stable IdentityField.display IdentityField.new x.field

/-- Whether the enumeration values in a `ComponentEvidence` that version `v` has are read back from their names. -/
def ComponentEvidence.Named (v : SpecVersion) (x : ComponentEvidence) : Prop :=
  (∀ y, x.licenses = some y → ∀ z ∈ y, LicenseChoice.Named v z) ∧
  (v = .v1_5 → ∀ y, x.identity = some y → Identity.Named y)

mutual

/-- The same for an optional list of `Component`s. -/
def Component.NamedOpt (v : SpecVersion) : Option (List Component) → Prop
  | none => True
  | some l => Component.NamedAll v l
termination_by structural l => l

/-- The same for a list of `Component`s. -/
def Component.NamedAll (v : SpecVersion) : List Component → Prop
  | [] => True
  | x :: l => Component.Named v x ∧ Component.NamedAll v l
termination_by structural l => l

/-- The same for an optional `Pedigree`. -/
def Pedigree.NamedOpt (v : SpecVersion) : Option Pedigree → Prop
  | none => True
  | some x => Pedigree.Named v x
termination_by structural x => x

/-- Whether the enumeration values in a `Pedigree` that version `v` has are read back from their
names. -/
def Pedigree.Named (v : SpecVersion) : Pedigree → Prop
  | ⟨ancestors, descendants, variants, commits, patches, notes⟩ =>
    Component.NamedOpt v ancestors ∧
    Component.NamedOpt v descendants ∧
    Component.NamedOpt v variants ∧
    (∀ y, patches = some y → ∀ z ∈ y, Patch.Named z)
termination_by structural x => x

/-- Whether the enumeration values in a `Component` that version `v` has are read back from their
names. -/
def Component.Named (v : SpecVersion) : Component → Prop
  | ⟨componentType, mimeType, bomRef, supplier, author, publisher, group, name, version, description, scope, hashes, licenses, copyright, cpe, purl, swid, modified, pedigree, externalReferences, properties, components, evidence, signature, modelCard, data⟩ =>
    Stable Classification.display Classification.new componentType ∧
    (∀ y, scope = some y → Stable Scope.display Scope.new y) ∧
    (∀ y, hashes = some y → ∀ z ∈ y, Hash.Named z) ∧
    (∀ y, licenses = some y → ∀ z ∈ y, LicenseChoice.Named v z) ∧
    (∀ y, swid = some y → Swid.Named y) ∧
    Pedigree.NamedOpt v pedigree ∧
    (∀ y, externalReferences = some y → ∀ z ∈ y, ExternalReference.Named z) ∧
    Component.NamedOpt v components ∧
    (∀ y, evidence = some y → ComponentEvidence.Named v y) ∧
    (v ≠ .v1_3 → ∀ y, signature = some y → Signature.Named y) ∧
    (v = .v1_5 → ∀ y, modelCard = some y → ModelCard.Named y) ∧
    (v = .v1_5 → ∀ y, data = some y → ComponentData.Named y)
termination_by structural x => x

end

/-- Whether the enumeration values in a `DataClassification` are read back from their names. -/
def DataClassification.Named (x : DataClassification) : Prop :=
  Stable DataFlowType.display DataFlowType.new x.flow

/-- Whether the enumeration values in a `ServiceData` are read back from their names. -/
def ServiceData.Named (x : ServiceData) : Prop :=
  DataClassification.Named x.classification

/-- Whether the enumeration values in a `service::Data` that version `v` has are read back from their
names. -/
def ServiceDataChoice.Named (v : SpecVersion) : ServiceDataChoice → Prop
  | .classification l => ∀ y ∈ l, DataClassification.Named y
  | .serviceData l => ∀ y ∈ l, ServiceData.Named y

mutual

/-- The same for an optional list of `Service`s. -/
def Service.NamedOpt (v : SpecVersion) : Option (List Service) → Prop
  | none => True
  | some l => Service.NamedAll v l
termination_by structural l => l

/-- The same for a list of `Service`s. -/
def Service.NamedAll (v : SpecVersion) : List Service → Prop
  | [] => True
  | x :: l => Service.Named v x ∧ Service.NamedAll v l
termination_by structural l => l

/-- Whether the enumeration values in a `Service` that version `v` has are read back from their
names. -/
def Service.Named (v : SpecVersion) : Service → Prop
  | ⟨bomRef, provider, group, name, version, description, endpoints, authenticated, xTrustBoundary, data, licenses, externalReferences, properties, services, signature, trustZone⟩ =>
    (∀ y, data = some y → ServiceDataChoice.Named v y) ∧
    (∀ y, licenses = some y → ∀ z ∈ y, LicenseChoice.Named v z) ∧
    (∀ y, externalReferences = some y → ∀ z ∈ y, ExternalReference.Named z) ∧
    Service.NamedOpt v services ∧
    (v ≠ .v1_3 → ∀ y, signature = some y → Signature.Named y)
termination_by structural x => x

end

/-- Whether the enumeration values in a `Tool` that version `v` has are read back from their names. -/
def Tool.Named (v : SpecVersion) (x : Tool) : Prop :=
  (∀ y, x.hashes = some y → ∀ z ∈ y, Hash.Named z) ∧
  (v ≠ .v1_3 → ∀ y, x.externalReferences = some y → ∀ z ∈ y, ExternalReference.Named z)

/-- Whether the enumeration values in a `Tools` that version `v` has are read back from their names. -/
def Tools.Named (v : SpecVersion) : Tools → Prop
  | .list l => ∀ y ∈ l, Tool.Named v y
  | .object services components => v = .v1_5 →
    (∀ y, services = some y → ∀ z ∈ y, Service.Named v z) ∧
    (∀ y, components = some y → ∀ z ∈ y, Component.Named v z)

/-- Whether the enumeration values in a `Lifecycle` are read back from their names. -/
def Lifecycle.Named : Lifecycle → Prop
  | .phase p => Stable Phase.display Phase.new p
  | .description _ => True

/-- Whether the enumeration values in a `Metadata` that version `v` has are read back from their names. -/
def Metadata.Named (v : SpecVersion) (x : Metadata) : Prop :=
  (∀ y, x.tools = some y → Tools.Named v y) ∧
  (∀ y, x.component = some y → Component.Named v y) ∧
  (∀ y, x.licenses = some y → ∀ z ∈ y, LicenseChoice.Named v z) ∧
  (v = .v1_5 → ∀ y, x.lifecycles = some y → ∀ z ∈ y, Lifecycle.Named z)

/-- Whether the enumeration values in a `Composition` that version `v` has are read back from their names. -/
def Composition.Named (v : SpecVersion) (x : Composition) : Prop :=
  Stable AggregateType.display AggregateType.new x.aggregate ∧
  (v ≠ .v1_3 → ∀ y, x.signature = some y → Signature.Named y)

/-- Whether the enumeration values in a `VulnerabilityRating` are read back from their names. -/
def VulnerabilityRating.Named (x : VulnerabilityRating) : Prop :=
  (∀ y, x.severity = some y → Stable Severity.display Severity.new y) ∧
  (∀ y, x.scoreMethod = some y → Stable ScoreMethod.display ScoreMethod.new y)

/-- Whether the enumeration values in a `VulnerabilityAnalysis` that version `v` has are read back from their names. -/
def VulnerabilityAnalysis.Named (v : SpecVersion) (x : VulnerabilityAnalysis) : Prop :=
  (∀ y, x.state = some y → Stable ImpactAnalysisState.display ImpactAnalysisState.new y) ∧
  (∀ y, x.justification = some y → Stable ImpactAnalysisJustification.display ImpactAnalysisJustification.new y) ∧
  (∀ y, x.responses = some y → ∀ z ∈ y, Stable ImpactAnalysisResponse.display ImpactAnalysisResponse.new z)

/-- Whether the enumeration values in a `TargetVersion` are read back from their names. -/
def TargetVersion.Named (x : TargetVersion) : Prop :=
  Stable Status.display Status.new x.status

/-- Whether the enumeration values in a `VulnerabilityTarget` are read back from their names. -/
def VulnerabilityTarget.Named (x : VulnerabilityTarget) : Prop :=
  (∀ y, x.versions = some y → ∀ z ∈ y, TargetVersion.Named z)

/-- Whether the enumeration values in a `Vulnerability` that version `v` has are read back from their names. -/
def Vulnerability.Named (v : SpecVersion) (x : Vulnerability) : Prop :=
  (∀ y, x.vulnerabilityRatings = some y → ∀ z ∈ y, VulnerabilityRating.Named z) ∧
  (∀ y, x.tools = some y → Tools.Named v y) ∧
  (∀ y, x.vulnerabilityAnalysis = some y → VulnerabilityAnalysis.Named v y) ∧
  (∀ y, x.vulnerabilityTargets = some y → ∀ z ∈ y, VulnerabilityTarget.Named z)

/-- Whether the enumeration values in a `Annotator` are read back from their names. -/
def Annotator.Named : Annotator → Prop
  | .organization _ => True
  | .individual _ => True
  | .component c => Component.Named .v1_5 c
  | .service s => Service.Named .v1_5 s

/-- Whether the enumeration values in a `Annotation` are read back from their names. -/
def Annotation.Named (x : Annotation) : Prop :=
  Annotator.Named x.annotator ∧
  (∀ y, x.signature = some y → Signature.Named y)

/-- Whether the enumeration values in a `ResourceReference` are read back from their names. -/
def ResourceReference.Named : ResourceReference → Prop
  | .ref _ => True
  | .externalReference e => ExternalReference.Named e

/-- Whether the enumeration values in a `RequiredInputField` are read back from their names. -/
def RequiredInputField.Named : RequiredInputField → Prop
  | .resource r => ResourceReference.Named r
  | .parameters _ => True
  | .environmentVars _ => True
  | .data _ => True

/-- Whether the enumeration values in a `Input` are read back from their names. -/
def Input.Named (x : Input) : Prop :=
  RequiredInputField.Named x.required ∧
  (∀ y, x.source = some y → ResourceReference.Named y) ∧
  (∀ y, x.target = some y → ResourceReference.Named y)

/-- Whether the enumeration values in a `RequiredOutputField` are read back from their names. -/
def RequiredOutputField.Named : RequiredOutputField → Prop
  | .resource r => ResourceReference.Named r
  | .environmentVars _ => True
  | .data _ => True

/-- Whether the enumeration values in a `Output` are read back from their names. -/
def Output.Named (x : Output) : Prop :=
  RequiredOutputField.Named x.required ∧
  (∀ y, x.type = some y → Stable OutputType.display OutputType.new y) ∧
  (∀ y, x.source = some y → ResourceReference.Named y) ∧
  (∀ y, x.target = some y → ResourceReference.Named y)

/-- Whether the enumeration values in a `TriggerEvent` are read back from their names. -/
def TriggerEvent.Named (x : TriggerEvent) : Prop :=
  (∀ y, x.source = some y → ResourceReference.Named y) ∧
  (∀ y, x.target = some y → ResourceReference.Named y)

/-- Whether the enumeration values in a `Trigger` are read back from their names. -/
def Trigger.Named (x : Trigger) : Prop :=
  (∀ y, x.resourceReferences = some y → ∀ z ∈ y, ResourceReference.Named z) ∧
  Stable TriggerType.display TriggerType.new x.type ∧
  (∀ y, x.event = some y → TriggerEvent.Named y) ∧
  (∀ y, x.inputs = some y → ∀ z ∈ y, Input.Named z) ∧
  (∀ y, x.outputs = some y → ∀ z ∈ y, Output.Named z)

/-- Whether the enumeration values in a `Volume` are read back from their names. -/
def Volume.Named (x : Volume) : Prop :=
  Stable VolumeMode.display VolumeMode.new x.mode

/-- Whether the enumeration values in a `Workspace` are read back from their names. -/
def Workspace.Named (x : Workspace) : Prop :=
  (∀ y, x.resourceReferences = some y → ∀ z ∈ y, ResourceReference.Named z) ∧
  (∀ y, x.accessMode = some y → Stable AccessMode.display AccessMode.new y) ∧
  (∀ y, x.volume = some y → Volume.Named y)

/-- Whether the enumeration values in a `WorkflowTask` are read back from their names. -/
def WorkflowTask.Named (x : WorkflowTask) : Prop :=
  (∀ y, x.resourceReferences = some y → ∀ z ∈ y, ResourceReference.Named z) ∧
  (∀ y ∈ x.taskTypes, Stable TaskType.display TaskType.new y) ∧
  (∀ y, x.trigger = some y → Trigger.Named y) ∧
  (∀ y, x.inputs = some y → ∀ z ∈ y, Input.Named z) ∧
  (∀ y, x.outputs = some y → ∀ z ∈ y, Output.Named z) ∧
  (∀ y, x.workspaces = some y → ∀ z ∈ y, Workspace.Named z)

/-- Whether the enumeration values in a `Workflow` are read back from their names. -/
def Workflow.Named (x : Workflow) : Prop :=
  (∀ y, x.resourceReferences = some y → ∀ z ∈ y, ResourceReference.Named z) ∧
  (∀ y, x.tasks = some y → ∀ z ∈ y, WorkflowTask.Named z) ∧
  (∀ y ∈ x.taskTypes, Stable TaskType.display TaskType.new y) ∧
  (∀ y, x.trigger = some y → Trigger.Named y) ∧
  (∀ y, x.inputs = some y → ∀ z ∈ y, Input.Named z) ∧
  (∀ y, x.outputs = some y → ∀ z ∈ y, Output.Named z) ∧
  (∀ y, x.workspaces = some y → ∀ z ∈ y, Workspace.Named z)

/-- Whether the enumeration values in a `Formula` are read back from their names. -/
def Formula.Named (x : Formula) : Prop :=
  (∀ y, x.components = some y → ∀ z ∈ y, Component.Named .v1_5 z) ∧
  (∀ y, x.services = some y → ∀ z ∈ y, Service.Named .v1_5 z) ∧
  (∀ y, x.workflows = some y → ∀ z ∈ y, Workflow.Named z)

/-- Whether the enumeration values in a `Bom` that version `v` has are read back from their names. -/
def Bom.Named (v : SpecVersion) (x : Bom) : Prop :=
  (∀ y, x.metadata = some y → Metadata.Named v y) ∧
  (∀ y, x.components = some y → ∀ z ∈ y, Component.Named v z) ∧
  (∀ y, x.services = some y → ∀ z ∈ y, Service.Named v z) ∧
  (∀ y, x.externalReferences = some y → ∀ z ∈ y, ExternalReference.Named z) ∧
  (∀ y, x.compositions = some y → ∀ z ∈ y, Composition.Named v z) ∧
  (v ≠ .v1_3 → ∀ y, x.vulnerabilities = some y → ∀ z ∈ y, Vulnerability.Named v z) ∧
  (v ≠ .v1_3 → ∀ y, x.signature = some y → Signature.Named y) ∧
  (v = .v1_5 → ∀ y, x.annotations = some y → ∀ z ∈ y, Annotation.Named z) ∧
  (v = .v1_5 → ∀ y, x.formulation = some y → ∀ z ∈ y, Formula.Named z)

end Cdx
