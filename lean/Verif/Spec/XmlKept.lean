import Verif.Spec.Format.Bom

/-!
# Documents read from XML that can be written and read again

A document that was read from XML mostly satisfies what `Bom.XmlOk` asks for: texts are trimmed,
numbers are in range, names are those of the enumerations. What reading does not guarantee is listed
here, type by type. A type without a condition of its own does not occur.
-/

namespace Cdx

/-- A text event as the XML library delivers it (`trim_whitespace(true)`, `models/bom.rs` 221): no
white space at either end, and not empty. The library trims character data itself; CDATA sections it
delivers as they are, so for them this is a condition on the document. -/
def XEvent.Clean : XEvent → Prop
  | .chars s => Trimmed s ∧ s ≠ ""
  | .cdata s => Trimmed s ∧ s ≠ ""
  | _ => True

/-- All texts of a document are clean. -/
def CleanTexts (evs : List XEvent) : Prop := ∀ e ∈ evs, e.Clean

/-- An organization that XML keeps: a contact without name, email and phone is not written. -/
structure OrganizationalEntity.XmlKept (x : OrganizationalEntity) : Prop where
  contact : ∀ y, x.contact = some y → ∀ z ∈ y, OrganizationalContact.willWrite z = true

/-- An external reference that XML keeps: the type that is called `codified-infrastructure` is written with
another name. -/
structure ExternalReference.XmlKept (x : ExternalReference) : Prop where
  externalReferenceType : Stable ExternalReferenceType.display ExternalReferenceType.new x.externalReferenceType

/-- Credits that XML keeps: empty organizations and persons are not written. -/
structure VulnerabilityCredits.XmlKept (x : VulnerabilityCredits) : Prop where
  organizations : ∀ y, x.organizations = some y → ∀ z ∈ y, OrganizationalEntity.XmlKept z ∧ OrganizationalEntity.willWrite z = true
  individuals : ∀ y, x.individuals = some y → ∀ z ∈ y, OrganizationalContact.willWrite z = true

/-- A license that XML keeps: `licensing` is not. -/
structure License.XmlKept (v : SpecVersion) (x : License) : Prop where
  licensing : v = .v1_5 → x.licensing = none

/-- Licenses and expressions that XML keeps. -/
def LicenseChoice.XmlKept (v : SpecVersion) : LicenseChoice → Prop
  | .license l => License.XmlKept v l
  | .expression _ => True

/-- Lists of licenses that XML keeps. -/
def Licenses.XmlKept (v : SpecVersion) (l : Licenses) : Prop := ∀ x ∈ l, LicenseChoice.XmlKept v x

/-- A composition that XML keeps: one of the names of an aggregate is misspelt. -/
structure Composition.XmlKept (v : SpecVersion) (x : Composition) : Prop where
  aggregate : Stable AggregateType.display AggregateType.new x.aggregate

/-- An issue that XML keeps: an empty source is not written. -/
structure Issue.XmlKept (x : Issue) : Prop where
  source : ∀ y, x.source = some y → Source.willWrite y = true

/-- A patch that XML keeps: an empty diff is not written. -/
structure Patch.XmlKept (x : Patch) : Prop where
  diff : ∀ y, x.diff = some y → Diff.willWrite y = true
  resolves : ∀ y, x.resolves = some y → ∀ z ∈ y, Issue.XmlKept z

/-- Owners, custodians and stewards that XML keeps. -/
def DataGovernanceResponsibleParty.XmlKept : DataGovernanceResponsibleParty → Prop
  | .organization y => OrganizationalEntity.XmlKept y
  | .contact _ => True

/-- The conditions on the parts of `DataGovernance`. -/
structure DataGovernance.XmlKept (x : DataGovernance) : Prop where
  owners : ∀ y, x.owners = some y → ∀ z ∈ y, DataGovernanceResponsibleParty.XmlKept z
  custodians : ∀ y, x.custodians = some y → ∀ z ∈ y, DataGovernanceResponsibleParty.XmlKept z
  stewards : ∀ y, x.stewards = some y → ∀ z ∈ y, DataGovernanceResponsibleParty.XmlKept z

/-- An attachment that XML keeps: a content type is not. -/
structure Attachment.XmlKept (x : Attachment) : Prop where
  contentType : x.contentType = none

/-- References to resources that XML keeps: external references are not. -/
def ResourceReference.XmlKept : ResourceReference → Prop
  | .ref _ => True
  | .externalReference _ => False

/-- What an input is made of, as far as XML keeps it. The reader does not return parameters. -/
def RequiredInputField.XmlKept : RequiredInputField → Prop
  | .resource x => ResourceReference.XmlKept x
  | .parameters _ => True
  | .environmentVars _ => True
  | .data x => Attachment.XmlKept x

/-- What an output is made of, as far as XML keeps it. -/
def RequiredOutputField.XmlKept : RequiredOutputField → Prop
  | .resource x => ResourceReference.XmlKept x
  | .environmentVars _ => True
  | .data x => Attachment.XmlKept x

/-- The conditions on the parts of `Graphic`. -/
structure Graphic.XmlKept (x : Graphic) : Prop where
  image : ∀ y, x.image = some y → Attachment.XmlKept y

/-- The conditions on the parts of `GraphicsCollection`. -/
structure GraphicsCollection.XmlKept (x : GraphicsCollection) : Prop where
  collection : ∀ y, x.collection = some y → ∀ z ∈ y, Graphic.XmlKept z

/-- The conditions on the parts of `DataContents`. -/
structure DataContents.XmlKept (x : DataContents) : Prop where
  attachment : ∀ y, x.attachment = some y → Attachment.XmlKept y

/-- The conditions on the parts of `ComponentData`. -/
structure ComponentData.XmlKept (x : ComponentData) : Prop where
  contents : ∀ y, x.contents = some y → DataContents.XmlKept y
  graphics : ∀ y, x.graphics = some y → GraphicsCollection.XmlKept y
  governance : ∀ y, x.governance = some y → DataGovernance.XmlKept y

/-- Datasets that XML keeps. The reader does not return references. -/
def Dataset.XmlKept : Dataset → Prop
  | .component y => ComponentData.XmlKept y
  | .reference _ => True

/-- The conditions on the parts of `ModelParameters`. -/
structure ModelParameters.XmlKept (x : ModelParameters) : Prop where
  datasets : ∀ y, x.datasets = some y → ∀ z ∈ y, Dataset.XmlKept z

/-- The conditions on the parts of `QuantitativeAnalysis`. -/
structure QuantitativeAnalysis.XmlKept (x : QuantitativeAnalysis) : Prop where
  graphics : ∀ y, x.graphics = some y → GraphicsCollection.XmlKept y

/-- The conditions on the parts of `ModelCard`. -/
structure ModelCard.XmlKept (x : ModelCard) : Prop where
  modelParameters : ∀ y, x.modelParameters = some y → ModelParameters.XmlKept y
  quantitativeAnalysis : ∀ y, x.quantitativeAnalysis = some y → QuantitativeAnalysis.XmlKept y

/-- A data flow that XML keeps: a description is not. -/
structure ServiceData.XmlKept (x : ServiceData) : Prop where
  description : x.description = none
  governance : ∀ y, x.governance = some y → DataGovernance.XmlKept y

/-- The data of a service that XML keeps. -/
def ServiceDataChoice.XmlKept : ServiceDataChoice → Prop
  | .classification _ => True
  | .serviceData l => ∀ x ∈ l, ServiceData.XmlKept x

/-- A rating that XML keeps: infinite scores and scores that are no number are not. -/
structure VulnerabilityRating.XmlKept (x : VulnerabilityRating) : Prop where
  score : ∀ y, x.score = some y → F32.isFinite y = true

/-- Evidence that XML keeps: what version 1.5 added is not, and `]]>` ends the CDATA section of a
copyright text. -/
structure ComponentEvidence.XmlKept (v : SpecVersion) (x : ComponentEvidence) : Prop where
  occurrences : v = .v1_5 → x.occurrences = none
  callstack : v = .v1_5 → x.callstack = none
  identity : v = .v1_5 → x.identity = none
  licenses : ∀ y, x.licenses = some y → Licenses.XmlKept v y
  copyright : ∀ y, x.copyright = some y → ∀ z ∈ y, SafeCdata z

/-- The conditions on the parts of `Input`. -/
structure Input.XmlKept (x : Input) : Prop where
  required : RequiredInputField.XmlKept x.required
  source : ∀ y, x.source = some y → ResourceReference.XmlKept y
  target : ∀ y, x.target = some y → ResourceReference.XmlKept y

/-- The conditions on the parts of `Output`. -/
structure Output.XmlKept (x : Output) : Prop where
  required : RequiredOutputField.XmlKept x.required
  source : ∀ y, x.source = some y → ResourceReference.XmlKept y
  target : ∀ y, x.target = some y → ResourceReference.XmlKept y

/-- The conditions on the parts of `TriggerEvent`. -/
structure TriggerEvent.XmlKept (x : TriggerEvent) : Prop where
  data : ∀ y, x.data = some y → Attachment.XmlKept y
  source : ∀ y, x.source = some y → ResourceReference.XmlKept y
  target : ∀ y, x.target = some y → ResourceReference.XmlKept y

/-- The conditions on the parts of `Trigger`. -/
structure Trigger.XmlKept (x : Trigger) : Prop where
  resourceReferences : ∀ y, x.resourceReferences = some y → ∀ z ∈ y, ResourceReference.XmlKept z
  event : ∀ y, x.event = some y → TriggerEvent.XmlKept y
  inputs : ∀ y, x.inputs = some y → ∀ z ∈ y, Input.XmlKept z
  outputs : ∀ y, x.outputs = some y → ∀ z ∈ y, Output.XmlKept z

/-- The conditions on the parts of `Workspace`. -/
structure Workspace.XmlKept (x : Workspace) : Prop where
  resourceReferences : ∀ y, x.resourceReferences = some y → ∀ z ∈ y, ResourceReference.XmlKept z

/-- A workflow that XML keeps: tasks are not. -/
structure Workflow.XmlKept (x : Workflow) : Prop where
  resourceReferences : ∀ y, x.resourceReferences = some y → ∀ z ∈ y, ResourceReference.XmlKept z
  tasks : ∀ y, x.tasks = some y → y = []
  trigger : ∀ y, x.trigger = some y → Trigger.XmlKept y
  inputs : ∀ y, x.inputs = some y → ∀ z ∈ y, Input.XmlKept z
  outputs : ∀ y, x.outputs = some y → ∀ z ∈ y, Output.XmlKept z
  workspaces : ∀ y, x.workspaces = some y → ∀ z ∈ y, Workspace.XmlKept z

/-- A pedigree that XML keeps, whose components satisfy `sub`. -/
structure Pedigree.XmlKeptWith (sub : Component → Prop) (v : SpecVersion) (x : Pedigree) : Prop where
  ancestors : ∀ y, x.ancestors = some y → ∀ z ∈ y, sub z
  descendants : ∀ y, x.descendants = some y → ∀ z ∈ y, sub z
  variants : ∀ y, x.variants = some y → ∀ z ∈ y, sub z
  patches : ∀ y, x.patches = some y → ∀ z ∈ y, Patch.XmlKept z

/-- A component that XML keeps, whose nested components satisfy `sub`: an empty supplier and empty
evidence are not written. -/
structure Component.XmlKeptWith (sub : Component → Prop) (v : SpecVersion) (x : Component) : Prop where
  supplier : ∀ y, x.supplier = some y → OrganizationalEntity.XmlKept y ∧ OrganizationalEntity.willWrite y = true
  licenses : ∀ y, x.licenses = some y → Licenses.XmlKept v y
  pedigree : ∀ y, x.pedigree = some y → Pedigree.XmlKeptWith sub v y
  externalReferences : ∀ y, x.externalReferences = some y → ∀ z ∈ y, ExternalReference.XmlKept z
  components : ∀ y, x.components = some y → ∀ z ∈ y, sub z
  evidence : ∀ y, x.evidence = some y → ComponentEvidence.XmlKept v y ∧ ComponentEvidence.willWrite y = true
  modelCard : v = .v1_5 → ∀ y, x.modelCard = some y → ModelCard.XmlKept y
  data : v = .v1_5 → ∀ y, x.data = some y → ComponentData.XmlKept y

/-- `component`s that XML keeps, down to `n` levels of nesting: deeper ones are not read. -/
def Component.XmlKeptN (v : SpecVersion) : Nat → Component → Prop
  | 0, _ => True
  | n + 1, x => Component.XmlKeptWith (Component.XmlKeptN v n) v x

/-- `component`s that XML keeps. -/
def Component.XmlKept [ReadLimit] (v : SpecVersion) (x : Component) : Prop := Component.XmlKeptN v ReadLimit.limit x

/-- A service that XML keeps, whose nested services satisfy `sub`. -/
structure Service.XmlKeptWith (sub : Service → Prop) (v : SpecVersion) (x : Service) : Prop where
  provider : ∀ y, x.provider = some y → OrganizationalEntity.XmlKept y
  data : ∀ y, x.data = some y → ServiceDataChoice.XmlKept y
  licenses : ∀ y, x.licenses = some y → Licenses.XmlKept v y
  externalReferences : ∀ y, x.externalReferences = some y → ∀ z ∈ y, ExternalReference.XmlKept z
  services : ∀ y, x.services = some y → ∀ z ∈ y, sub z

/-- `service`s that XML keeps, down to `n` levels of nesting: deeper ones are not read. -/
def Service.XmlKeptN (v : SpecVersion) : Nat → Service → Prop
  | 0, _ => True
  | n + 1, x => Service.XmlKeptWith (Service.XmlKeptN v n) v x

/-- `service`s that XML keeps. -/
def Service.XmlKept [ReadLimit] (v : SpecVersion) (x : Service) : Prop := Service.XmlKeptN v ReadLimit.limit x

variable [ReadLimit]

/-- The conditions on the parts of `Tool`. -/
structure Tool.XmlKept (v : SpecVersion) (x : Tool) : Prop where
  externalReferences : v ≠ .v1_3 → ∀ y, x.externalReferences = some y → ∀ z ∈ y, ExternalReference.XmlKept z

/-- Tools that XML keeps. As version 1.5, an empty list of tools is written like an object without
services and components. (The reader of version 1.5 returns no empty lists; those of older versions
do.) -/
def Tools.XmlKept (v : SpecVersion) : Tools → Prop
  | .list l => (v = .v1_5 → l ≠ []) ∧ ∀ x ∈ l, Tool.XmlKept v x
  | .object s c =>
    (∀ l, s = some l → ∀ x ∈ l, Service.XmlKept v x) ∧ ∀ l, c = some l → ∀ x ∈ l, Component.XmlKept v x

/-- The conditions on the parts of `Metadata`. -/
structure Metadata.XmlKept (v : SpecVersion) (x : Metadata) : Prop where
  tools : ∀ y, x.tools = some y → Tools.XmlKept v y
  authors : ∀ y, x.authors = some y → ∀ z ∈ y, OrganizationalContact.willWrite z = true
  component : ∀ y, x.component = some y → Component.XmlKept v y
  manufacture : ∀ y, x.manufacture = some y → OrganizationalEntity.XmlKept y
  supplier : ∀ y, x.supplier = some y → OrganizationalEntity.XmlKept y
  licenses : ∀ y, x.licenses = some y → Licenses.XmlKept v y

/-- The conditions on the parts of `Formula`. -/
structure Formula.XmlKept (v : SpecVersion) (x : Formula) : Prop where
  components : ∀ y, x.components = some y → ∀ z ∈ y, Component.XmlKept v z
  services : ∀ y, x.services = some y → ∀ z ∈ y, Service.XmlKept v z
  workflows : ∀ y, x.workflows = some y → ∀ z ∈ y, Workflow.XmlKept z

/-- A vulnerability that XML keeps: a proof of concept is not. -/
structure Vulnerability.XmlKept (v : SpecVersion) (x : Vulnerability) : Prop where
  proofOfConcept : v = .v1_5 → x.proofOfConcept = none
  vulnerabilityRatings : ∀ y, x.vulnerabilityRatings = some y → ∀ z ∈ y, VulnerabilityRating.XmlKept z
  vulnerabilityCredits : ∀ y, x.vulnerabilityCredits = some y → VulnerabilityCredits.XmlKept y
  tools : ∀ y, x.tools = some y → Tools.XmlKept v y

/-- A document that XML keeps: neither its own signature nor annotations are. -/
structure Bom.XmlKept (v : SpecVersion) (x : Bom) : Prop where
  signature : v ≠ .v1_3 → x.signature = none
  annotations : v = .v1_5 → x.annotations = none
  metadata : ∀ y, x.metadata = some y → Metadata.XmlKept v y
  components : ∀ y, x.components = some y → ∀ z ∈ y, Component.XmlKept v z
  services : ∀ y, x.services = some y → ∀ z ∈ y, Service.XmlKept v z
  externalReferences : ∀ y, x.externalReferences = some y → ∀ z ∈ y, ExternalReference.XmlKept z
  compositions : ∀ y, x.compositions = some y → ∀ z ∈ y, Composition.XmlKept v z
  vulnerabilities : v ≠ .v1_3 → ∀ y, x.vulnerabilities = some y → ∀ z ∈ y, Vulnerability.XmlKept v z
  formulation : v = .v1_5 → ∀ y, x.formulation = some y → ∀ z ∈ y, Formula.XmlKept v z

end Cdx
