import Verif.Lemmas.Conforming.Basic
import Verif.Lemmas.Format.Parts
import Verif.Model.Format.Bom

/-!
# Lemmas: the names of the elements that the writers write

Generated.
-/

set_option linter.unusedSectionVars false

namespace Cdx.Conforming

open Spec

section
variable [F32Format]

theorem component_writeAll (v : SpecVersion) (l : List Component) :
    Component.writeXmlAll v l = l.flatMap (Component.writeXml v) := by
  induction l with
  | nil => simp [Component.writeXmlAll]
  | cons a l ih => simp [Component.writeXmlAll, ih]

instance (tag s) : Tag (writeCdata tag s) tag := ⟨⟩
instance (tag : String) (x : AttachedText) : Tag (AttachedText.writeXml tag x) tag := ⟨⟩
instance (x : Property) : Tag (Property.writeXml x) "property" := ⟨⟩
instance (x : Hash) : Tag (Hash.writeXml x) "hash" := ⟨⟩
instance (tag : String) (x : OrganizationalContact) : Tag (OrganizationalContact.writeXml tag x) tag := ⟨⟩
instance (tag : String) (x : OrganizationalEntity) : Tag (OrganizationalEntity.writeXml tag x) tag := ⟨⟩
instance (x : ExternalReference) : Tag (ExternalReference.writeXml x) "reference" := ⟨⟩
instance (x : VulnerabilitySource) : Tag (VulnerabilitySource.writeXml x) "source" := ⟨⟩
instance (x : VulnerabilityReference) : Tag (VulnerabilityReference.writeXml x) "reference" := ⟨⟩
instance (x : Advisory) : Tag (Advisory.writeXml x) "advisory" := ⟨⟩
instance (x : VulnerabilityCredits) : Tag (VulnerabilityCredits.writeXml x) "credits" := ⟨⟩
instance (x : Dependency) : Tag (Dependency.writeXml x) "dependency" := ⟨⟩
instance (v : SpecVersion) (x : Composition) : Tag (Composition.writeXml v x) "composition" := ⟨⟩
instance (tag : String) (x : IdentifiableAction) : Tag (IdentifiableAction.writeXml tag x) tag := ⟨⟩
instance (x : Commit) : Tag (Commit.writeXml x) "commit" := ⟨⟩
instance (x : Diff) : Tag (Diff.writeXml x) "diff" := ⟨⟩
instance (x : Source) : Tag (Source.writeXml x) "source" := ⟨⟩
instance (x : Issue) : Tag (Issue.writeXml x) "issue" := ⟨⟩
instance (x : Patch) : Tag (Patch.writeXml x) "patch" := ⟨⟩
instance (v : SpecVersion) (x : VulnerabilityAnalysis) : Tag (VulnerabilityAnalysis.writeXml v x) "analysis" := ⟨⟩
instance (x : TargetVersion) : Tag (TargetVersion.writeXml x) "version" := ⟨⟩
instance (x : VulnerabilityTarget) : Tag (VulnerabilityTarget.writeXml x) "target" := ⟨⟩
instance (v : SpecVersion) (x : License) : Tag (License.writeXml v x) "license" := ⟨⟩
instance (x : SpdxExpression) : Tag (SpdxExpression.writeXml x) "expression" := ⟨⟩
instance (v : SpecVersion) (x : Licenses) : Tag (Licenses.writeXml v x) "licenses" := ⟨⟩
instance (x : VulnerabilityRating) : Tag (VulnerabilityRating.writeXml x) "rating" := ⟨⟩
instance (v : SpecVersion) (x : ComponentEvidence) : Tag (ComponentEvidence.writeXml v x) "evidence" := ⟨⟩
instance (tag : String) (x : DataGovernanceResponsibleParty) : Tag (DataGovernanceResponsibleParty.writeXml tag x) tag := ⟨⟩
instance (tag : String) (x : DataGovernance) : Tag (DataGovernance.writeXml tag x) tag := ⟨⟩
instance (tag : String) (x : Attachment) : Tag (Attachment.writeXml tag x) tag := ⟨⟩
instance (x : Graphic) : Tag (Graphic.writeXml x) "graphic" := ⟨⟩
instance (tag : String) (x : GraphicsCollection) : Tag (GraphicsCollection.writeXml tag x) tag := ⟨⟩
instance (x : DataContents) : Tag (DataContents.writeXml x) "contents" := ⟨⟩
instance (tag : String) (x : ComponentData) : Tag (ComponentData.writeXml tag x) tag := ⟨⟩
instance (x : ModelParametersApproach) : Tag (ModelParametersApproach.writeXml x) "approach" := ⟨⟩
instance (x : Dataset) : Tag (Dataset.writeXml x) "dataset" := ⟨⟩
instance (tag : String) (x : MLParameter) : Tag (MLParameter.writeXml tag x) tag := ⟨⟩
instance (x : ModelParameters) : Tag (ModelParameters.writeXml x) "modelParameters" := ⟨⟩
instance (x : ConfidenceInterval) : Tag (ConfidenceInterval.writeXml x) "confidenceInterval" := ⟨⟩
instance (x : PerformanceMetric) : Tag (PerformanceMetric.writeXml x) "performanceMetric" := ⟨⟩
instance (x : QuantitativeAnalysis) : Tag (QuantitativeAnalysis.writeXml x) "quantitativeAnalysis" := ⟨⟩
instance (x : Considerations) : Tag (Considerations.writeXml x) "considerations" := ⟨⟩
instance (x : ModelCard) : Tag (ModelCard.writeXml x) "modelCard" := ⟨⟩
instance (x : DataClassification) : Tag (DataClassification.writeXml x) "classification" := ⟨⟩
instance (x : ServiceData) : Tag (ServiceData.writeXml x) "dataflow" := ⟨⟩
instance (v : SpecVersion) (x : ServiceDataChoice) : Tag (ServiceDataChoice.writeXml v x) "data" := ⟨⟩
instance (x : Swid) : Tag (Swid.writeXml x) "swid" := ⟨⟩
instance (x : Lifecycle) : Tag (Lifecycle.writeXml x) "lifecycle" := ⟨⟩
instance (v : SpecVersion) (x : Component) : Tag (Component.writeXml v x) "component" := ⟨⟩
instance (v : SpecVersion) (x : Pedigree) : Tag (Pedigree.writeXml v x) "pedigree" := ⟨⟩
instance (v : SpecVersion) (x : Service) : Tag (Service.writeXml v x) "service" := ⟨⟩
instance (v : SpecVersion) (x : Tool) : Tag (Tool.writeXml v x) "tool" := ⟨⟩
instance (v : SpecVersion) (x : Tools) : Tag (Tools.writeXml v x) "tools" := ⟨⟩
instance (v : SpecVersion) (x : Metadata) : Tag (Metadata.writeXml v x) "metadata" := ⟨⟩
instance (v : SpecVersion) (x : Vulnerability) : Tag (Vulnerability.writeXml v x) "vulnerability" := ⟨⟩
instance (tag : String) (x : ResourceReference) : Tag (ResourceReference.writeXml tag x) tag := ⟨⟩
instance (x : Parameter) : Tag (Parameter.writeXml x) "parameter" := ⟨⟩
instance (x : Input) : Tag (Input.writeXml x) "input" := ⟨⟩
instance (x : Output) : Tag (Output.writeXml x) "output" := ⟨⟩
instance (x : Command) : Tag (Command.writeXml x) "command" := ⟨⟩
instance (x : Step) : Tag (Step.writeXml x) "step" := ⟨⟩
instance (x : TriggerEvent) : Tag (TriggerEvent.writeXml x) "event" := ⟨⟩
instance (x : Condition) : Tag (Condition.writeXml x) "condition" := ⟨⟩
instance (x : Trigger) : Tag (Trigger.writeXml x) "trigger" := ⟨⟩
instance (x : Volume) : Tag (Volume.writeXml x) "volume" := ⟨⟩
instance (x : Workspace) : Tag (Workspace.writeXml x) "workspace" := ⟨⟩
instance (x : WorkflowTask) : Tag (WorkflowTask.writeXml x) "task" := ⟨⟩
instance (x : Workflow) : Tag (Workflow.writeXml x) "workflow" := ⟨⟩
instance (v : SpecVersion) (x : Formula) : Tag (Formula.writeXml v x) "formula" := ⟨⟩
instance : Differ "bom-ref" "mime-type" := ⟨by decide⟩
instance : Differ "bom-ref" "type" := ⟨by decide⟩
instance : Differ "description" "name" := ⟨by decide⟩
instance : Differ "encoding" "content-type" := ⟨by decide⟩
instance : Differ "mime-type" "type" := ⟨by decide⟩
instance : Differ "name" "tagId" := ⟨by decide⟩
instance : Differ "patch" "name" := ⟨by decide⟩
instance : Differ "patch" "tagId" := ⟨by decide⟩
instance : Differ "patch" "tagVersion" := ⟨by decide⟩
instance : Differ "patch" "version" := ⟨by decide⟩
instance : Differ "tagVersion" "name" := ⟨by decide⟩
instance : Differ "tagVersion" "tagId" := ⟨by decide⟩
instance : Differ "tagVersion" "version" := ⟨by decide⟩
instance : Differ "version" "name" := ⟨by decide⟩
instance : Differ "version" "serialNumber" := ⟨by decide⟩
instance : Differ "version" "tagId" := ⟨by decide⟩
instance : Texty .string .string := ⟨rfl⟩
instance : Texty .boolean .boolean := ⟨rfl⟩
instance : Texty .integer .integer := ⟨rfl⟩
instance : Texty .decimal .decimal := ⟨rfl⟩
instance : Texty .hash .string := ⟨rfl⟩
instance : Texty .expression .string := ⟨rfl⟩
instance : Texty .licenseId .string := ⟨rfl⟩
instance : Texty .licenseName .string := ⟨rfl⟩
instance : Texty .attachedText .string := ⟨rfl⟩
instance : Texty .attachment .string := ⟨rfl⟩
instance : Texty .property .string := ⟨rfl⟩
instance : Texty .classification .string := ⟨rfl⟩
instance : Texty .noteText .string := ⟨rfl⟩

end

end Cdx.Conforming
