import Verif.Spec.Xml
import Verif.Model.Format.Data
import Verif.Spec.Format.Parts

set_option linter.unusedVariables false

/-!
# What the file formats keep: data, model cards, lifecycles
-/

namespace Cdx

/-- `DataGovernanceResponsibleParty`s that XML keeps. -/
def DataGovernanceResponsibleParty.XmlOk : DataGovernanceResponsibleParty → Prop
  | .organization y => OrganizationalEntity.XmlOk y
  | .contact y => OrganizationalContact.XmlOk y

/-- `DataGovernance`s that XML keeps: texts do not begin or end with white space, enumeration values are
read back from their names, numbers are in range, lists of repeated elements are not empty. -/
structure DataGovernance.XmlOk (x : DataGovernance) : Prop where
  owners : ∀ y, x.owners = some y → ∀ z ∈ y, DataGovernanceResponsibleParty.XmlOk z
  custodians : ∀ y, x.custodians = some y → ∀ z ∈ y, DataGovernanceResponsibleParty.XmlOk z
  stewards : ∀ y, x.stewards = some y → ∀ z ∈ y, DataGovernanceResponsibleParty.XmlOk z

/-- `Attachment`s that XML keeps: the content type is not. -/
structure Attachment.XmlOk (x : Attachment) : Prop where
  content : Trimmed x.content ∧ x.content ≠ ""
  contentType : x.contentType = none

/-- `Graphic`s that XML keeps: texts do not begin or end with white space, enumeration values are
read back from their names, numbers are in range, lists of repeated elements are not empty. -/
structure Graphic.XmlOk (x : Graphic) : Prop where
  name : ∀ y, x.name = some y → Trimmed y
  image : ∀ y, x.image = some y → Attachment.XmlOk y

/-- `GraphicsCollection`s that XML keeps: texts do not begin or end with white space, enumeration values are
read back from their names, numbers are in range, lists of repeated elements are not empty. -/
structure GraphicsCollection.XmlOk (x : GraphicsCollection) : Prop where
  description : ∀ y, x.description = some y → Trimmed y
  collection : ∀ y, x.collection = some y → ∀ z ∈ y, Graphic.XmlOk z

/-- `DataContents`s that XML keeps: texts do not begin or end with white space, enumeration values are
read back from their names, numbers are in range, lists of repeated elements are not empty. -/
structure DataContents.XmlOk (x : DataContents) : Prop where
  attachment : ∀ y, x.attachment = some y → Attachment.XmlOk y
  url : ∀ y, x.url = some y → Trimmed y
  properties : ∀ y, x.properties = some y → ∀ z ∈ y, Property.XmlOk z

/-- `ComponentData`s that JSON keeps: enumeration values are read back from their names, numbers are in
range. -/
structure ComponentData.JsonOk (x : ComponentData) : Prop where
  dataType : Stable ComponentDataType.display ComponentDataType.new x.dataType

/-- `ComponentData`s that XML keeps: texts do not begin or end with white space, enumeration values are
read back from their names, numbers are in range, lists of repeated elements are not empty. -/
structure ComponentData.XmlOk (x : ComponentData) : Prop where
  dataType : Stable ComponentDataType.display ComponentDataType.new x.dataType ∧ Trimmed (ComponentDataType.display x.dataType)
  name : ∀ y, x.name = some y → Trimmed y
  contents : ∀ y, x.contents = some y → DataContents.XmlOk y
  classification : ∀ y, x.classification = some y → Trimmed y
  sensitiveData : ∀ y, x.sensitiveData = some y → Trimmed y
  graphics : ∀ y, x.graphics = some y → GraphicsCollection.XmlOk y
  description : ∀ y, x.description = some y → Trimmed y
  governance : ∀ y, x.governance = some y → DataGovernance.XmlOk y

/-- `ModelParametersApproach`s that JSON keeps: enumeration values are read back from their names, numbers are in
range. -/
structure ModelParametersApproach.JsonOk (x : ModelParametersApproach) : Prop where
  approachType : ∀ y, x.approachType = some y → Stable ApproachType.display ApproachType.new y

/-- `ModelParametersApproach`s that XML keeps: texts do not begin or end with white space, enumeration values are
read back from their names, numbers are in range, lists of repeated elements are not empty. -/
structure ModelParametersApproach.XmlOk (x : ModelParametersApproach) : Prop where
  approachType : ∀ y, x.approachType = some y → Stable ApproachType.display ApproachType.new y ∧ Trimmed (ApproachType.display y)

/-- `Dataset`s that JSON keeps. -/
def Dataset.JsonOk : Dataset → Prop
  | .component y => ComponentData.JsonOk y
  | .reference _ => True

/-- `Dataset`s that XML keeps: references are not. -/
def Dataset.XmlOk : Dataset → Prop
  | .component y => ComponentData.XmlOk y
  | .reference _ => False

/-- `MLParameter`s that XML keeps: texts do not begin or end with white space, enumeration values are
read back from their names, numbers are in range, lists of repeated elements are not empty. -/
structure MLParameter.XmlOk (x : MLParameter) : Prop where
  format : ∀ y, x.format = some y → Trimmed y

/-- `ModelParameters`s that JSON keeps: enumeration values are read back from their names, numbers are in
range. -/
structure ModelParameters.JsonOk (x : ModelParameters) : Prop where
  approach : ∀ y, x.approach = some y → ModelParametersApproach.JsonOk y
  datasets : ∀ y, x.datasets = some y → ∀ z ∈ y, Dataset.JsonOk z

/-- `ModelParameters`s that XML keeps: texts do not begin or end with white space, enumeration values are
read back from their names, numbers are in range, lists of repeated elements are not empty. -/
structure ModelParameters.XmlOk (x : ModelParameters) : Prop where
  approach : ∀ y, x.approach = some y → ModelParametersApproach.XmlOk y
  task : ∀ y, x.task = some y → Trimmed y
  architectureFamily : ∀ y, x.architectureFamily = some y → Trimmed y
  modelArchitecture : ∀ y, x.modelArchitecture = some y → Trimmed y
  datasets : ∀ y, x.datasets = some y → ∀ z ∈ y, Dataset.XmlOk z
  inputs : ∀ y, x.inputs = some y → ∀ z ∈ y, MLParameter.XmlOk z
  outputs : ∀ y, x.outputs = some y → ∀ z ∈ y, MLParameter.XmlOk z

/-- `ConfidenceInterval`s that XML keeps: texts do not begin or end with white space, enumeration values are
read back from their names, numbers are in range, lists of repeated elements are not empty. -/
structure ConfidenceInterval.XmlOk (x : ConfidenceInterval) : Prop where
  lowerBound : ∀ y, x.lowerBound = some y → Trimmed y
  upperBound : ∀ y, x.upperBound = some y → Trimmed y

/-- `PerformanceMetric`s that XML keeps: texts do not begin or end with white space, enumeration values are
read back from their names, numbers are in range, lists of repeated elements are not empty. -/
structure PerformanceMetric.XmlOk (x : PerformanceMetric) : Prop where
  metricType : ∀ y, x.metricType = some y → Trimmed y
  value : ∀ y, x.value = some y → Trimmed y
  slice : ∀ y, x.slice = some y → Trimmed y
  confidenceInterval : ∀ y, x.confidenceInterval = some y → ConfidenceInterval.XmlOk y

/-- `QuantitativeAnalysis`s that XML keeps: texts do not begin or end with white space, enumeration values are
read back from their names, numbers are in range, lists of repeated elements are not empty. -/
structure QuantitativeAnalysis.XmlOk (x : QuantitativeAnalysis) : Prop where
  performanceMetrics : ∀ y, x.performanceMetrics = some y → ∀ z ∈ y, PerformanceMetric.XmlOk z
  graphics : ∀ y, x.graphics = some y → GraphicsCollection.XmlOk y

/-- `ModelCard`s that JSON keeps: enumeration values are read back from their names, numbers are in
range. -/
structure ModelCard.JsonOk (x : ModelCard) : Prop where
  modelParameters : ∀ y, x.modelParameters = some y → ModelParameters.JsonOk y

/-- `ModelCard`s that XML keeps: texts do not begin or end with white space, enumeration values are
read back from their names, numbers are in range, lists of repeated elements are not empty. -/
structure ModelCard.XmlOk (x : ModelCard) : Prop where
  considerations : x.considerations = none
  properties : x.properties = none
  modelParameters : ∀ y, x.modelParameters = some y → ModelParameters.XmlOk y
  quantitativeAnalysis : ∀ y, x.quantitativeAnalysis = some y → QuantitativeAnalysis.XmlOk y

/-- `VulnerabilityProofOfConcept`s that XML keeps: texts do not begin or end with white space, enumeration values are
read back from their names, numbers are in range, lists of repeated elements are not empty. -/
structure VulnerabilityProofOfConcept.XmlOk (x : VulnerabilityProofOfConcept) : Prop where
  reproductionSteps : ∀ y, x.reproductionSteps = some y → Trimmed y
  environment : ∀ y, x.environment = some y → Trimmed y
  supportingMaterial : ∀ y, x.supportingMaterial = some y → ∀ z ∈ y, Attachment.XmlOk z

/-- `DataClassification`s that JSON keeps: enumeration values are read back from their names, numbers are in
range. -/
structure DataClassification.JsonOk (x : DataClassification) : Prop where
  flow : Stable DataFlowType.display DataFlowType.new x.flow

/-- `DataClassification`s that XML keeps. -/
structure DataClassification.XmlOk (x : DataClassification) : Prop where
  flow : Stable DataFlowType.display DataFlowType.new x.flow
  classification : Trimmed x.classification

/-- `ServiceData` that JSON keeps, on its own. -/
structure ServiceData.JsonOk (x : ServiceData) : Prop where
  classification : DataClassification.JsonOk x.classification

/-- `ServiceData` that XML keeps: the description is not. -/
structure ServiceData.XmlOk (x : ServiceData) : Prop where
  description : x.description = none
  classification : DataClassification.XmlOk x.classification
  governance : ∀ y, x.governance = some y → DataGovernance.XmlOk y
  source : ∀ y, x.source = some y → ∀ z ∈ y, Trimmed z
  destination : ∀ y, x.destination = some y → ∀ z ∈ y, Trimmed z

/-- What version `v` of the format has of `Data`: version 1.5 introduced data flows; before, there
are only their classifications. -/
def ServiceDataChoice.at (v : SpecVersion) : ServiceDataChoice → ServiceDataChoice
  | .classification l => .classification l
  | .serviceData l => since15 v (.serviceData l) (.classification (l.map (·.classification)))

/-- `Data` that JSON keeps: in version 1.5, a list of data flows is read as a list of
classifications. -/
def ServiceDataChoice.JsonOk (v : SpecVersion) : ServiceDataChoice → Prop
  | .classification l => ∀ x ∈ l, DataClassification.JsonOk x
  | .serviceData l => v ≠ .v1_5 ∧ ∀ x ∈ l, DataClassification.JsonOk x.classification

/-- `Data` that XML keeps: an empty list of data flows is read as a list of classifications. -/
def ServiceDataChoice.XmlOk (v : SpecVersion) : ServiceDataChoice → Prop
  | .classification l => ∀ x ∈ l, DataClassification.XmlOk x
  | .serviceData l => (v = .v1_5 → l ≠ [] ∧ ∀ x ∈ l, ServiceData.XmlOk x) ∧
      (v ≠ .v1_5 → ∀ x ∈ l, DataClassification.XmlOk x.classification)

/-- `Swid`s that JSON keeps: enumeration values are read back from their names, numbers are in
range. -/
structure Swid.JsonOk (x : Swid) : Prop where
  tagVersion : ∀ y, x.tagVersion = some y → y < 2 ^ 32
  text : ∀ y, x.text = some y → AttachedText.JsonOk y

/-- `Swid`s that XML keeps. -/
structure Swid.XmlOk (x : Swid) : Prop where
  tagVersion : ∀ y, x.tagVersion = some y → y < 2 ^ 32
  text : ∀ y, x.text = some y → AttachedText.XmlOk y
  url : ∀ y, x.url = some y → Trimmed y

/-- `Lifecycle`s that JSON keeps. -/
def Lifecycle.JsonOk : Lifecycle → Prop
  | .phase p => Stable Phase.display Phase.new p
  | .description _ => True

/-- `Lifecycle`s that XML keeps. -/
def Lifecycle.XmlOk : Lifecycle → Prop
  | .phase p => Stable Phase.display Phase.new p ∧ Trimmed (Phase.display p)
  | .description d => Trimmed d.name ∧ ∀ y, d.description = some y → Trimmed y

end Cdx
