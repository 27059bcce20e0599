import Verif.Props.ExampleBom
import Verif.Lemmas.Format.Document
import Verif.Lemmas.Format.Lax
import Verif.Spec.Format.Tags

/-!
# Properties C42, C43: how elements of XML documents are read
-/

set_option linter.unusedSectionVars false

namespace Cdx.Props
open Cdx

section
variable [F32Format] [ReadLimit] {α : Type} {v : SpecVersion} {tag inner : String}

/-! ## C42: readers consume exactly their element -/

/-- C42: the readers of texts, numbers and truth values, whatever the element is called. -/
theorem C42_values_partial :
    LocalAt tag readSimple ∧ LocalAt tag readOptional ∧ LocalAt tag readInner ∧ LocalAt tag readBool ∧
    LocalAt tag readU32 ∧ LocalAt tag readF32 ∧ LocalAt tag readScore ∧ LocalAt tag readRef :=
  ⟨readSimple_local, readOptional_local, readInner_local, readBool_local, readU32_local, readF32_local,
    readScore_local, readRef_local⟩

/-- C42: the readers of lists, if the reader of the items consumes exactly its element. -/
theorem C42_lists_partial {r : XElem α} (h : LocalAt inner r) :
    LocalAt tag (readList inner r) ∧ LocalAt tag (readListLax inner r) :=
  ⟨readList_local h, readListLax_local h⟩

/-- C42: the readers of elements that do not drop unknown content event by event, whatever the
element is called. -/
theorem C42_elements_partial :
    LocalAt tag Advisory.readXml ∧
    LocalAt tag (Annotation.readXml v) ∧
    LocalAt tag (Annotator.readXml v) ∧
    LocalAt tag AttachedText.readXml ∧
    LocalAt tag Command.readXml ∧
    LocalAt tag Commit.readXml ∧
    LocalAt tag (Component.readXml v) ∧
    LocalAt tag (Composition.readXml v) ∧
    LocalAt tag Condition.readXml ∧
    LocalAt tag DataClassification.readXml ∧
    LocalAt tag DataGovernanceResponsibleParty.readXml ∧
    LocalAt tag Dependency.readXml ∧
    LocalAt tag Diff.readXml ∧
    LocalAt tag ExternalReference.readXml ∧
    LocalAt tag (Formula.readXml v) ∧
    LocalAt tag Hash.readXml ∧
    LocalAt tag IdentifiableAction.readXml ∧
    LocalAt tag Input.readXml ∧
    LocalAt tag Issue.readXml ∧
    LocalAt tag (License.readXml v) ∧
    LocalAt tag LicenseContact.readXml ∧
    LocalAt tag (Licenses.readXml v) ∧
    LocalAt tag Licensing.readXml ∧
    LocalAt tag Lifecycle.readXml ∧
    LocalAt tag (Metadata.readXml v) ∧
    LocalAt tag Occurrence.readXml ∧
    LocalAt tag OrganizationalContact.readXml ∧
    LocalAt tag OrganizationalEntity.readXml ∧
    LocalAt tag Output.readXml ∧
    LocalAt tag Parameter.readXml ∧
    LocalAt tag Patch.readXml ∧
    LocalAt tag Property.readXml ∧
    LocalAt tag ResourceReference.readXml ∧
    LocalAt tag (Service.readXml v) ∧
    LocalAt tag Signer.readXml ∧
    LocalAt tag Source.readXml ∧
    LocalAt tag SpdxExpression.readXml ∧
    LocalAt tag Step.readXml ∧
    LocalAt tag Swid.readXml ∧
    LocalAt tag TargetVersion.readXml ∧
    LocalAt tag (Tool.readXml v) ∧
    LocalAt tag (Tools.readXml v) ∧
    LocalAt tag Trigger.readXml ∧
    LocalAt tag TriggerEvent.readXml ∧
    LocalAt tag Volume.readXml ∧
    LocalAt tag (Vulnerability.readXml v) ∧
    LocalAt tag (VulnerabilityAnalysis.readXml v) ∧
    LocalAt tag VulnerabilityCredits.readXml ∧
    LocalAt tag VulnerabilityRating.readXml ∧
    LocalAt tag VulnerabilityReference.readXml ∧
    LocalAt tag VulnerabilitySource.readXml ∧
    LocalAt tag VulnerabilityTarget.readXml ∧
    LocalAt tag Workflow.readXml ∧
    LocalAt tag WorkflowTask.readXml ∧
    LocalAt tag Workspace.readXml :=
  ⟨Advisory.xml_local, Annotation.xml_local v, Annotator.xml_local v, AttachedText.xml_local,
    Command.xml_local, Commit.xml_local, Component.xml_local v, Composition.xml_local v,
    Condition.xml_local, DataClassification.xml_local, DataGovernanceResponsibleParty.xml_local,
    Dependency.xml_local, Diff.xml_local, ExternalReference.xml_local, Formula.xml_local v,
    Hash.xml_local, IdentifiableAction.xml_local, Input.xml_local, Issue.xml_local,
    License.xml_local v, LicenseContact.xml_local, Licenses.xml_local v, Licensing.xml_local,
    Lifecycle.xml_local, Metadata.xml_local v, Occurrence.xml_local,
    OrganizationalContact.xml_local, OrganizationalEntity.xml_local, Output.xml_local,
    Parameter.xml_local, Patch.xml_local, Property.xml_local, ResourceReference.xml_local,
    Service.xml_local v, Signer.xml_local, Source.xml_local, SpdxExpression.xml_local,
    Step.xml_local, Swid.xml_local, TargetVersion.xml_local, Tool.xml_local v, Tools.xml_local
    v, Trigger.xml_local, TriggerEvent.xml_local, Volume.xml_local, Vulnerability.xml_local v,
    VulnerabilityAnalysis.xml_local v, VulnerabilityCredits.xml_local,
    VulnerabilityRating.xml_local, VulnerabilityReference.xml_local,
    VulnerabilitySource.xml_local, VulnerabilityTarget.xml_local, Workflow.xml_local,
    WorkflowTask.xml_local, Workspace.xml_local⟩

/-- C42: the readers of elements that drop unknown content event by event, for the names that these
elements have. -/
theorem C42_dropping_partial :
    LocalAt "governance" DataGovernance.readXml ∧
    LocalAt "attachment" Attachment.readXml ∧
    LocalAt "data" Attachment.readXml ∧
    LocalAt "image" Attachment.readXml ∧
    LocalAt "graphic" Graphic.readXml ∧
    LocalAt "graphics" GraphicsCollection.readXml ∧
    LocalAt "contents" DataContents.readXml ∧
    LocalAt "data" ComponentData.readXml ∧
    LocalAt "dataset" ComponentData.readXml ∧
    LocalAt "approach" ModelParametersApproach.readXml ∧
    LocalAt "dataset" Dataset.readXml ∧
    LocalAt "input" MLParameter.readXml ∧
    LocalAt "output" MLParameter.readXml ∧
    LocalAt "modelParameters" ModelParameters.readXml ∧
    LocalAt "confidenceInterval" ConfidenceInterval.readXml ∧
    LocalAt "performanceMetric" PerformanceMetric.readXml ∧
    LocalAt "quantitativeAnalysis" QuantitativeAnalysis.readXml ∧
    LocalAt "modelCard" ModelCard.readXml ∧
    LocalAt "proofOfConcept" VulnerabilityProofOfConcept.readXml ∧
    LocalAt "dataflow" ServiceData.readXml ∧
    LocalAt "data" (ServiceDataChoice.readXml v) ∧
    LocalAt "frame" Frame.readXml ∧
    LocalAt "callstack" Callstack.readXml ∧
    LocalAt "method" Method.readXml ∧
    LocalAt "identity" Identity.readXml ∧
    LocalAt "evidence" (ComponentEvidence.readXml v) ∧
    LocalAt "signature" Signature.readXml ∧ LocalAt "tools" readToolRefs :=
  ⟨DataGovernance.xml_local (by decide), Attachment.xml_local (by decide), Attachment.xml_local
    (by decide), Attachment.xml_local (by decide), Graphic.xml_local (by decide),
    GraphicsCollection.xml_local (by decide), DataContents.xml_local (by decide),
    ComponentData.xml_local (by decide), ComponentData.xml_local (by decide),
    ModelParametersApproach.xml_local (by decide), Dataset.xml_local (by decide),
    MLParameter.xml_local (by decide), MLParameter.xml_local (by decide),
    ModelParameters.xml_local (by decide), ConfidenceInterval.xml_local (by decide),
    PerformanceMetric.xml_local (by decide), QuantitativeAnalysis.xml_local (by decide),
    ModelCard.xml_local (by decide), VulnerabilityProofOfConcept.xml_local (by decide),
    ServiceData.xml_local (by decide), ServiceDataChoice.xml_local v (by decide),
    Frame.xml_local (by decide), Callstack.xml_local (by decide), Method.xml_local (by decide),
    Identity.xml_local (by decide), ComponentEvidence.xml_local v (by decide),
    Signature.xml_local, readToolRefs_local⟩

/-- Why tame content is asked for: a `frame` in an unknown element ends the `frame` around it, so that
the reader returns in the middle of the element. -/
theorem C42_fails : ∃ (content : List XNode) (x : Frame) (left rest : List XEvent),
    Frame.readXml ⟨"frame", none, none⟩ []
        (XNode.eventsAll content ++ .stop ⟨"frame", none, none⟩ :: rest) = .ok (x, left) ∧
      left = .stop ⟨"unknown", none, none⟩ :: .stop ⟨"frame", none, none⟩ :: rest :=
  ⟨[.elem ⟨"module", none, none⟩ [] none [.chars "m"],
    .elem ⟨"unknown", none, none⟩ [] none [.elem ⟨"frame", none, none⟩ [] none []]],
    { module := "m" }, _, [.stop ⟨"frames", none, none⟩], rfl, rfl⟩

/-! ## C43: unknown elements are skipped -/

/-- C43: an element with a name that the version does not know, of whatever content, after any of the
children of the document's root, changes nothing. -/
theorem C43_document_partial {root foreign : XName} {attrs fattrs : List (String × String)}
    {ns fns : Option String} {children content : List XNode} {rest : List XEvent}
    (ht : XNode.TameAll children) (h : foreign.localName ∉ Bom.tags v) :
    Bom.parseXmlWith v (.startDocument :: .start root attrs ns ::
        (XNode.eventsAll children ++ ((XNode.elem foreign fattrs fns content).events ++ rest))) =
      Bom.parseXmlWith v (.startDocument :: .start root attrs ns ::
        (XNode.eventsAll children ++ rest)) := by
  simp only [Bom.parseXmlWith, Bom.readDocument, Bom.readBody_lax v ht h]

/-- C43: the same for the elements in the document that are read this way. -/
theorem C43_elements_partial :
    Lax OrganizationalContact.tags OrganizationalContact.readXml ∧
    Lax OrganizationalEntity.tags OrganizationalEntity.readXml ∧
    Lax VulnerabilitySource.tags VulnerabilitySource.readXml ∧
    Lax VulnerabilityReference.tags VulnerabilityReference.readXml ∧
    Lax Advisory.tags Advisory.readXml ∧
    Lax VulnerabilityCredits.tags VulnerabilityCredits.readXml ∧
    Lax (License.tags v) (License.readXml v) ∧
    Lax IdentifiableAction.tags IdentifiableAction.readXml ∧
    Lax Commit.tags Commit.readXml ∧
    Lax Diff.tags Diff.readXml ∧
    Lax Issue.tags Issue.readXml ∧
    Lax Patch.tags Patch.readXml ∧
    Lax (VulnerabilityAnalysis.tags v) (VulnerabilityAnalysis.readXml v) ∧
    Lax TargetVersion.tags TargetVersion.readXml ∧
    Lax VulnerabilityTarget.tags VulnerabilityTarget.readXml ∧
    Lax (Service.tags v) (Service.readXml v) ∧
    Lax VulnerabilityRating.tags VulnerabilityRating.readXml ∧
    Lax (Component.tags v) (Component.readXml v) ∧
    Lax (Tool.tags v) (Tool.readXml v) ∧
    Lax (Metadata.tags v) (Metadata.readXml v) ∧
    Lax (Vulnerability.tags v) (Vulnerability.readXml v) ∧
    Lax Step.tags Step.readXml ∧
    Lax TriggerEvent.tags TriggerEvent.readXml ∧
    Lax Trigger.tags Trigger.readXml ∧
    Lax Volume.tags Volume.readXml ∧
    Lax Workspace.tags Workspace.readXml ∧
    Lax WorkflowTask.tags WorkflowTask.readXml ∧
    Lax Workflow.tags Workflow.readXml ∧
    Lax ["environmentVar", "value"] EnvironmentVar.readAll :=
  ⟨OrganizationalContact.lax, OrganizationalEntity.lax, VulnerabilitySource.lax,
    VulnerabilityReference.lax, Advisory.lax, VulnerabilityCredits.lax, License.lax v,
    IdentifiableAction.lax, Commit.lax, Diff.lax, Issue.lax, Patch.lax,
    VulnerabilityAnalysis.lax v, TargetVersion.lax, VulnerabilityTarget.lax, Service.lax v,
    VulnerabilityRating.lax, Component.lax v, Tool.lax v, Metadata.lax v, Vulnerability.lax v,
    Step.lax, TriggerEvent.lax, Trigger.lax, Volume.lax, Workspace.lax, WorkflowTask.lax,
    Workflow.lax, EnvironmentVar.lax⟩

/-- C43: the same for lists that are read this way: the only name they know is that of their items. -/
theorem C43_lists_partial {r : XElem α} (h : LocalAt inner r) : Lax [inner] (readListLax inner r) :=
  readListLax_lax h

end

example : ∃ content, TameContent "evidence" content ∧ XNode.TameAll content ∧ 0 < content.length :=
  ⟨[.elem ⟨"unknown", none, none⟩ [("a", "b")] none [.chars "x", .elem ⟨"frame", none, none⟩ [] none []]],
    by simp [TameContent, XNode.namesAll, XNode.names],
    by simp [XNode.TameAll, XNode.Tame, TameContent, XNode.namesAll, XNode.names, XNode.isElem],
    by decide⟩

example : "unknown" ∉ Bom.tags .v1_5 ∧ "annotations" ∉ Bom.tags .v1_4 ∧ "annotations" ∈ Bom.tags .v1_5 := by
  decide

end Cdx.Props
