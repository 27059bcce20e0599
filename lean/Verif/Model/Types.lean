import Verif.Model.Enums
import Verif.Model.Config

/-!
# The BOM data model

The structures of `cyclonedx-bom/src/models`. Newtypes around strings (`NormalizedString`,
`Uri`, `DateTime`, `BomReference`, `Purl`, ...) are `String`; newtypes around vectors
(`Components`, `Licenses`, ...) are lists; `u32` is `Nat`; `f32` is its bit pattern.
-/

namespace Cdx

/-- `NormalizedString` (`external_models/normalized_string.rs` 26-27). -/
abbrev NormalizedString := String
/-- `DateTime` (`external_models/date_time.rs` 41-42). -/
abbrev DateTime := String
/-- `Uri` (`external_models/uri.rs` 74-75). -/
abbrev Uri := String
/-- `Purl` (`external_models/uri.rs` 34-35). -/
abbrev Purl := String
/-- `BomReference` (`models/bom.rs` 91-92). -/
abbrev BomReference := String
/-- `f32` by its IEEE 754 bit pattern (`models/component.rs` 499-500 `ConfidenceScore`,
`models/vulnerability_rating.rs` 99-100 `Score`). -/
abbrev F32 := BitVec 32

/-- `SpdxExpression` (`external_models/spdx.rs` 113-117). -/
structure SpdxExpression where
  bomRef : Option BomReference := none
  expression : String
  deriving DecidableEq, Repr

/-- `AttachedText` (`models/attached_text.rs` 28-33). -/
structure AttachedText where
  contentType : Option NormalizedString := none
  encoding : Option Encoding := none
  content : String
  deriving DecidableEq, Repr

/-- `Attachment` (`models/attachment.rs` 26-31). -/
structure Attachment where
  content : String
  contentType : Option String := none
  encoding : Option String := none
  deriving DecidableEq, Repr

/-- `OrganizationalContact` (`models/organization.rs` 32-38). -/
structure OrganizationalContact where
  bomRef : Option BomReference := none
  name : Option NormalizedString := none
  email : Option NormalizedString := none
  phone : Option NormalizedString := none
  deriving DecidableEq, Repr

/-- `OrganizationalEntity` (`models/organization.rs` 73-79). -/
structure OrganizationalEntity where
  bomRef : Option BomReference := none
  name : Option NormalizedString := none
  url : Option (List Uri) := none
  contact : Option (List OrganizationalContact) := none
  deriving DecidableEq, Repr

/-- `Property` (`models/property.rs` 47-51). -/
structure Property where
  name : String
  value : NormalizedString
  deriving DecidableEq, Repr

/-- `Properties` (`models/property.rs` 31-32). -/
abbrev Properties := List Property

/-- `Hash` (`models/hash.rs` 29-33). -/
structure Hash where
  alg : HashAlgorithm
  content : String
  deriving DecidableEq, Repr

/-- `Hashes` (`models/hash.rs` 44-45). -/
abbrev Hashes := List Hash

/-- `external_reference::Uri` (`models/external_reference.rs` 194-198, 228-229). -/
inductive RefUri where
  | url (u : Uri)
  | bomLink (s : String)
  deriving DecidableEq, Repr

/-- `ExternalReference` (`models/external_reference.rs` 31-37). -/
structure ExternalReference where
  externalReferenceType : ExternalReferenceType
  url : RefUri
  comment : Option String := none
  hashes : Option Hashes := none
  deriving DecidableEq, Repr

/-- `ExternalReferences` (`models/external_reference.rs` 74-75). -/
abbrev ExternalReferences := List ExternalReference

/-- `LicenseIdentifier` (`models/license.rs` 182-188). -/
inductive LicenseIdentifier where
  | spdxId (id : String)
  | name (n : NormalizedString)
  deriving DecidableEq, Repr

/-- `LicenseContact` (`models/license.rs` 240-244). -/
inductive LicenseContact where
  | organization (o : OrganizationalEntity)
  | contact (c : OrganizationalContact)
  deriving DecidableEq, Repr

/-- `Licensing` (`models/license.rs` 206-216). -/
structure Licensing where
  altIds : Option (List NormalizedString) := none
  licensor : Option LicenseContact := none
  licensee : Option LicenseContact := none
  purchaser : Option LicenseContact := none
  purchaseOrder : Option String := none
  licenseTypes : Option (List LicenseType) := none
  lastRenewal : Option DateTime := none
  expiration : Option DateTime := none
  deriving DecidableEq, Repr

/-- `License` (`models/license.rs` 84-92). -/
structure License where
  bomRef : Option BomReference := none
  licenseIdentifier : LicenseIdentifier
  text : Option AttachedText := none
  url : Option Uri := none
  licensing : Option Licensing := none
  properties : Option Properties := none
  deriving DecidableEq, Repr

/-- `LicenseChoice` (`models/license.rs` 41-46). -/
inductive LicenseChoice where
  | license (l : License)
  | expression (e : SpdxExpression)
  deriving DecidableEq, Repr

/-- `Licenses` (`models/license.rs` 143-144). -/
abbrev Licenses := List LicenseChoice

/-- `IdentifiableAction` (`models/code.rs` 78-83). -/
structure IdentifiableAction where
  timestamp : Option DateTime := none
  name : Option NormalizedString := none
  email : Option NormalizedString := none
  deriving DecidableEq, Repr

/-- `Commit` (`models/code.rs` 31-38). -/
structure Commit where
  uid : Option NormalizedString := none
  url : Option Uri := none
  author : Option IdentifiableAction := none
  committer : Option IdentifiableAction := none
  message : Option NormalizedString := none
  deriving DecidableEq, Repr

/-- `Diff` (`models/code.rs` 63-67). -/
structure Diff where
  text : Option AttachedText := none
  url : Option Uri := none
  deriving DecidableEq, Repr

/-- `Source` (`models/code.rs` 230-234). -/
structure Source where
  name : Option NormalizedString := none
  url : Option Uri := none
  deriving DecidableEq, Repr

/-- `Issue` (`models/code.rs` 95-103). -/
structure Issue where
  issueType : IssueClassification
  id : Option NormalizedString := none
  name : Option NormalizedString := none
  description : Option NormalizedString := none
  source : Option Source := none
  references : Option (List Uri) := none
  deriving DecidableEq, Repr

/-- `Patch` (`models/code.rs` 160-165). -/
structure Patch where
  patchType : PatchClassification
  diff : Option Diff := none
  resolves : Option (List Issue) := none
  deriving DecidableEq, Repr

/-- `Signer` (`models/signature.rs` 53-59). -/
structure Signer where
  algorithm : Algorithm
  value : String
  deriving DecidableEq, Repr

/-- `Signature` (`models/signature.rs` 25-33). -/
inductive Signature where
  | signers (l : List Signer)
  | chain (l : List Signer)
  | single (s : Signer)
  deriving DecidableEq, Repr

/-- `DataGovernanceResponsibleParty` (`models/data_governance.rs` 52-56). -/
inductive DataGovernanceResponsibleParty where
  | organization (o : OrganizationalEntity)
  | contact (c : OrganizationalContact)
  deriving DecidableEq, Repr

/-- `DataGovernance` (`models/data_governance.rs` 29-34). -/
structure DataGovernance where
  custodians : Option (List DataGovernanceResponsibleParty) := none
  stewards : Option (List DataGovernanceResponsibleParty) := none
  owners : Option (List DataGovernanceResponsibleParty) := none
  deriving DecidableEq, Repr

/-- `Graphic` (`models/component_data.rs` 119-123). -/
structure Graphic where
  name : Option String := none
  image : Option Attachment := none
  deriving DecidableEq, Repr

/-- `GraphicsCollection` (`models/component_data.rs` 102-106). -/
structure GraphicsCollection where
  description : Option String := none
  collection : Option (List Graphic) := none
  deriving DecidableEq, Repr

/-- `DataContents` (`models/component_data.rs` 84-89). -/
structure DataContents where
  attachment : Option Attachment := none
  url : Option Uri := none
  properties : Option Properties := none
  deriving DecidableEq, Repr

/-- `ComponentData` (`models/component_data.rs` 32-44). -/
structure ComponentData where
  bomRef : Option BomReference := none
  dataType : ComponentDataType
  name : Option String := none
  contents : Option DataContents := none
  classification : Option String := none
  sensitiveData : Option String := none
  graphics : Option GraphicsCollection := none
  description : Option String := none
  governance : Option DataGovernance := none
  deriving DecidableEq, Repr

/-- `ModelParametersApproach` (`models/modelcard.rs` 82-85). -/
structure ModelParametersApproach where
  approachType : Option ApproachType := none
  deriving DecidableEq, Repr

/-- `Dataset` (`models/modelcard.rs` 162-167). -/
inductive Dataset where
  | component (c : ComponentData)
  | reference (r : String)
  deriving DecidableEq, Repr

/-- `MLParameter` (`models/modelcard.rs` 204-207). -/
structure MLParameter where
  format : Option String := none
  deriving DecidableEq, Repr

/-- `ModelParameters` (`models/modelcard.rs` 60-69); `Datasets`, `Inputs`, `Outputs`
(149-150, 178-179, 189-190) are lists. -/
structure ModelParameters where
  approach : Option ModelParametersApproach := none
  task : Option String := none
  architectureFamily : Option String := none
  modelArchitecture : Option String := none
  datasets : Option (List Dataset) := none
  inputs : Option (List MLParameter) := none
  outputs : Option (List MLParameter) := none
  deriving DecidableEq, Repr

/-- `ConfidenceInterval` (`models/modelcard.rs` 261-265). -/
structure ConfidenceInterval where
  lowerBound : Option String := none
  upperBound : Option String := none
  deriving DecidableEq, Repr

/-- `PerformanceMetric` (`models/modelcard.rs` 247-253). -/
structure PerformanceMetric where
  metricType : Option String := none
  value : Option String := none
  slice : Option String := none
  confidenceInterval : Option ConfidenceInterval := none
  deriving DecidableEq, Repr

/-- `QuantitativeAnalysis` (`models/modelcard.rs` 217-221). -/
structure QuantitativeAnalysis where
  performanceMetrics : Option (List PerformanceMetric) := none
  graphics : Option GraphicsCollection := none
  deriving DecidableEq, Repr

/-- `Considerations` (`models/modelcard.rs` 268-269), which has no fields. -/
structure Considerations where
  deriving DecidableEq, Repr

/-- `ModelCard` (`models/modelcard.rs` 33-40). -/
structure ModelCard where
  bomRef : Option BomReference := none
  modelParameters : Option ModelParameters := none
  quantitativeAnalysis : Option QuantitativeAnalysis := none
  considerations : Option Considerations := none
  properties : Option Properties := none
  deriving DecidableEq, Repr

/-- `Swid` (`models/component.rs` 286-295). -/
structure Swid where
  tagId : String
  name : String
  version : Option String := none
  tagVersion : Option Nat := none
  patch : Option Bool := none
  text : Option AttachedText := none
  url : Option Uri := none
  deriving DecidableEq, Repr

/-- `Occurrence` (`models/component.rs` 401-405). -/
structure Occurrence where
  bomRef : Option BomReference := none
  location : String
  deriving DecidableEq, Repr

/-- `Frame` (`models/component.rs` 457-466). -/
structure Frame where
  package : Option NormalizedString := none
  module : NormalizedString
  function : Option NormalizedString := none
  parameters : Option (List NormalizedString) := none
  line : Option Nat := none
  column : Option Nat := none
  fullFilename : Option NormalizedString := none
  deriving DecidableEq, Repr

/-- `Callstack` with `Frames` (`models/component.rs` 426-429, 443-444). -/
structure Callstack where
  frames : List Frame
  deriving DecidableEq, Repr

/-- `Method` (`models/component.rs` 574-579). -/
structure Method where
  technique : String
  confidence : F32
  value : Option String := none
  deriving DecidableEq, Repr

/-- `Identity` (`models/component.rs` 551-558). -/
structure Identity where
  field : IdentityField
  confidence : Option F32 := none
  methods : Option (List Method) := none
  tools : Option (List String) := none
  deriving DecidableEq, Repr

/-- `ComponentEvidence` (`models/component.rs` 361-371); `Copyright` is a string (610-614). -/
structure ComponentEvidence where
  licenses : Option Licenses := none
  copyright : Option (List String) := none
  occurrences : Option (List Occurrence) := none
  callstack : Option Callstack := none
  identity : Option Identity := none
  deriving DecidableEq, Repr

mutual

/-- `Component` (`models/component.rs` 48-79). -/
structure Component where
  componentType : Classification
  mimeType : Option String := none
  bomRef : Option String := none
  supplier : Option OrganizationalEntity := none
  author : Option NormalizedString := none
  publisher : Option NormalizedString := none
  group : Option NormalizedString := none
  name : NormalizedString
  version : Option NormalizedString := none
  description : Option NormalizedString := none
  scope : Option Scope := none
  hashes : Option Hashes := none
  licenses : Option Licenses := none
  copyright : Option NormalizedString := none
  cpe : Option String := none
  purl : Option Purl := none
  swid : Option Swid := none
  modified : Option Bool := none
  pedigree : Option Pedigree := none
  externalReferences : Option ExternalReferences := none
  properties : Option Properties := none
  components : Option (List Component) := none
  evidence : Option ComponentEvidence := none
  signature : Option Signature := none
  modelCard : Option ModelCard := none
  data : Option ComponentData := none

/-- `Pedigree` (`models/component.rs` 584-592). -/
structure Pedigree where
  ancestors : Option (List Component) := none
  descendants : Option (List Component) := none
  variants : Option (List Component) := none
  commits : Option (List Commit) := none
  patches : Option (List Patch) := none
  notes : Option String := none

end

deriving instance Repr for Component, Pedigree

/-- `Components` (`models/component.rs` 165-166). -/
abbrev Components := List Component

/-- `DataClassification` (`models/service.rs` 186-190). -/
structure DataClassification where
  flow : DataFlowType
  classification : NormalizedString
  deriving DecidableEq, Repr

/-- `ServiceData` (`models/service.rs` 149-157). -/
structure ServiceData where
  name : Option NormalizedString := none
  description : Option NormalizedString := none
  classification : DataClassification
  governance : Option DataGovernance := none
  source : Option (List Uri) := none
  destination : Option (List Uri) := none
  deriving DecidableEq, Repr

/-- `service::Data` (`models/service.rs` 130-134). -/
inductive ServiceDataChoice where
  | serviceData (l : List ServiceData)
  | classification (l : List DataClassification)
  deriving DecidableEq, Repr

/-- `Service` (`models/service.rs` 35-55). -/
structure Service where
  bomRef : Option String := none
  provider : Option OrganizationalEntity := none
  group : Option NormalizedString := none
  name : NormalizedString
  version : Option NormalizedString := none
  description : Option NormalizedString := none
  endpoints : Option (List Uri) := none
  authenticated : Option Bool := none
  xTrustBoundary : Option Bool := none
  data : Option ServiceDataChoice := none
  licenses : Option Licenses := none
  externalReferences : Option ExternalReferences := none
  properties : Option Properties := none
  services : Option (List Service) := none
  signature : Option Signature := none
  trustZone : Option NormalizedString := none
  deriving Repr

/-- `Services` (`models/service.rs` 117-118). -/
abbrev Services := List Service

/-- `Tool` (`models/tool.rs` 74-82). -/
structure Tool where
  vendor : Option NormalizedString := none
  name : Option NormalizedString := none
  version : Option NormalizedString := none
  hashes : Option Hashes := none
  externalReferences : Option ExternalReferences := none
  deriving DecidableEq, Repr

/-- `Tools` (`models/tool.rs` 32-42). -/
inductive Tools where
  | list (l : List Tool)
  | object (services : Option Services) (components : Option Components)
  deriving Repr

/-- `lifecycle::Description` (`models/lifecycle.rs` 75-79). -/
structure LifecycleDescription where
  name : NormalizedString
  description : Option NormalizedString := none
  deriving DecidableEq, Repr

/-- `Lifecycle` (`models/lifecycle.rs` 24-28). -/
inductive Lifecycle where
  | phase (p : Phase)
  | description (d : LifecycleDescription)
  deriving DecidableEq, Repr

/-- `Metadata` (`models/metadata.rs` 36-48). -/
structure Metadata where
  timestamp : Option DateTime := none
  tools : Option Tools := none
  authors : Option (List OrganizationalContact) := none
  component : Option Component := none
  manufacture : Option OrganizationalEntity := none
  supplier : Option OrganizationalEntity := none
  licenses : Option Licenses := none
  properties : Option Properties := none
  lifecycles : Option (List Lifecycle) := none
  deriving Repr

/-- `Dependency` (`models/dependency.rs` 22-26). -/
structure Dependency where
  dependencyRef : String
  dependencies : List String
  deriving DecidableEq, Repr

/-- `Composition` (`models/composition.rs` 26-34). -/
structure Composition where
  bomRef : Option BomReference := none
  aggregate : AggregateType
  assemblies : Option (List BomReference) := none
  dependencies : Option (List BomReference) := none
  vulnerabilities : Option (List BomReference) := none
  signature : Option Signature := none
  deriving DecidableEq, Repr

/-- `Advisory` (`models/advisory.rs` 29-33). -/
structure Advisory where
  title : Option NormalizedString := none
  url : Uri
  deriving DecidableEq, Repr

/-- `VulnerabilitySource` (`models/vulnerability_source.rs` 29-33). -/
structure VulnerabilitySource where
  name : Option NormalizedString := none
  url : Option Uri := none
  deriving DecidableEq, Repr

/-- `VulnerabilityReference` (`models/vulnerability_reference.rs` 29-33). -/
structure VulnerabilityReference where
  id : NormalizedString
  vulnerabilitySource : VulnerabilitySource
  deriving DecidableEq, Repr

/-- `VulnerabilityRating` (`models/vulnerability_rating.rs` 30-38). -/
structure VulnerabilityRating where
  vulnerabilitySource : Option VulnerabilitySource := none
  score : Option F32 := none
  severity : Option Severity := none
  scoreMethod : Option ScoreMethod := none
  vector : Option NormalizedString := none
  justification : Option String := none
  deriving DecidableEq, Repr

/-- `VulnerabilityCredits` (`models/vulnerability_credits.rs` 25-29). -/
structure VulnerabilityCredits where
  organizations : Option (List OrganizationalEntity) := none
  individuals : Option (List OrganizationalContact) := none
  deriving DecidableEq, Repr

/-- `VulnerabilityAnalysis` (`models/vulnerability_analysis.rs` 30-40). -/
structure VulnerabilityAnalysis where
  state : Option ImpactAnalysisState := none
  justification : Option ImpactAnalysisJustification := none
  responses : Option (List ImpactAnalysisResponse) := none
  detail : Option String := none
  firstIssued : Option DateTime := none
  lastUpdated : Option DateTime := none
  deriving DecidableEq, Repr

/-- `VersionRange` (`models/vulnerability_target.rs` 122-131). -/
inductive VersionRange where
  | version (v : NormalizedString)
  | range (r : NormalizedString)
  | undefinedVersionRange (s : String)
  deriving DecidableEq, Repr

/-- `vulnerability_target::Version` (`models/vulnerability_target.rs` 81-85). -/
structure TargetVersion where
  versionRange : VersionRange
  status : Status
  deriving DecidableEq, Repr

/-- `VulnerabilityTarget` (`models/vulnerability_target.rs` 30-34). -/
structure VulnerabilityTarget where
  bomRef : String
  versions : Option (List TargetVersion) := none
  deriving DecidableEq, Repr

/-- `VulnerabilityProofOfConcept` (`models/vulnerability.rs` 157-162). -/
structure VulnerabilityProofOfConcept where
  reproductionSteps : Option String := none
  environment : Option String := none
  supportingMaterial : Option (List Attachment) := none
  deriving DecidableEq, Repr

/-- `Vulnerability` (`models/vulnerability.rs` 39-62). -/
structure Vulnerability where
  bomRef : Option String := none
  id : Option NormalizedString := none
  vulnerabilitySource : Option VulnerabilitySource := none
  vulnerabilityReferences : Option (List VulnerabilityReference) := none
  vulnerabilityRatings : Option (List VulnerabilityRating) := none
  cwes : Option (List Nat) := none
  description : Option String := none
  detail : Option String := none
  recommendation : Option String := none
  workaround : Option String := none
  proofOfConcept : Option VulnerabilityProofOfConcept := none
  advisories : Option (List Advisory) := none
  created : Option DateTime := none
  published : Option DateTime := none
  updated : Option DateTime := none
  rejected : Option DateTime := none
  vulnerabilityCredits : Option VulnerabilityCredits := none
  tools : Option Tools := none
  vulnerabilityAnalysis : Option VulnerabilityAnalysis := none
  vulnerabilityTargets : Option (List VulnerabilityTarget) := none
  properties : Option Properties := none
  deriving Repr

/-- `Annotator` (`models/annotation.rs` 66-72). -/
inductive Annotator where
  | organization (o : OrganizationalEntity)
  | individual (c : OrganizationalContact)
  | component (c : Component)
  | service (s : Service)
  deriving Repr

/-- `Annotation` (`models/annotation.rs` 46-54). -/
structure Annotation where
  bomRef : Option String := none
  subjects : List String
  annotator : Annotator
  timestamp : DateTime
  text : String
  signature : Option Signature := none
  deriving Repr

/-- `ResourceReference` (`models/formulation/workflow/resource_reference.rs` 5-9). -/
inductive ResourceReference where
  | ref (r : String)
  | externalReference (e : ExternalReference)
  deriving DecidableEq, Repr

/-- `EnvironmentVar` (`models/formulation/workflow/mod.rs` 190-194). -/
inductive EnvironmentVar where
  | property (name value : String)
  | value (v : String)
  deriving DecidableEq, Repr

/-- `Parameter` (`models/formulation/workflow/input.rs` 49-54). -/
structure Parameter where
  name : Option String := none
  value : Option String := none
  dataType : Option String := none
  deriving DecidableEq, Repr

/-- `RequiredInputField` (`models/formulation/workflow/input.rs` 41-47). -/
inductive RequiredInputField where
  | resource (r : ResourceReference)
  | parameters (p : List Parameter)
  | environmentVars (v : List EnvironmentVar)
  | data (a : Attachment)
  deriving DecidableEq, Repr

/-- `Input` (`models/formulation/workflow/input.rs` 9-15). -/
structure Input where
  required : RequiredInputField
  source : Option ResourceReference := none
  target : Option ResourceReference := none
  properties : Option Properties := none
  deriving DecidableEq, Repr

/-- `RequiredOutputField` (`models/formulation/workflow/output.rs` 43-48). -/
inductive RequiredOutputField where
  | resource (r : ResourceReference)
  | environmentVars (v : List EnvironmentVar)
  | data (a : Attachment)
  deriving DecidableEq, Repr

/-- `Output` (`models/formulation/workflow/output.rs` 9-16). -/
structure Output where
  required : RequiredOutputField
  type : Option OutputType := none
  source : Option ResourceReference := none
  target : Option ResourceReference := none
  properties : Option Properties := none
  deriving DecidableEq, Repr

/-- `Command` (`models/formulation/workflow/step.rs` 25-29). -/
structure Command where
  executed : Option String := none
  properties : Option Properties := none
  deriving DecidableEq, Repr

/-- `Step` (`models/formulation/workflow/step.rs` 3-9). -/
structure Step where
  commands : Option (List Command) := none
  description : Option String := none
  name : Option String := none
  properties : Option Properties := none
  deriving DecidableEq, Repr

/-- `trigger::Event` (`models/formulation/workflow/trigger.rs` 102-111). -/
structure TriggerEvent where
  uid : Option String := none
  description : Option String := none
  timeReceived : Option DateTime := none
  data : Option Attachment := none
  source : Option ResourceReference := none
  target : Option ResourceReference := none
  properties : Option Properties := none
  deriving DecidableEq, Repr

/-- `Condition` (`models/formulation/workflow/trigger.rs` 132-137). -/
structure Condition where
  description : Option String := none
  expression : Option String := none
  properties : Option Properties := none
  deriving DecidableEq, Repr

/-- `Trigger` (`models/formulation/workflow/trigger.rs` 14-28). -/
structure Trigger where
  bomRef : BomReference
  uid : String
  name : Option String := none
  description : Option String := none
  resourceReferences : Option (List ResourceReference) := none
  type : TriggerType
  event : Option TriggerEvent := none
  conditions : Option (List Condition) := none
  timeActivated : Option DateTime := none
  inputs : Option (List Input) := none
  outputs : Option (List Output) := none
  properties : Option Properties := none
  deriving DecidableEq, Repr

/-- `Volume` (`models/formulation/workflow/workspace.rs` 75-85). -/
structure Volume where
  uid : Option String := none
  name : Option String := none
  mode : VolumeMode := .filesystem
  path : Option String := none
  sizeAllocated : Option String := none
  persistent : Option Bool := none
  remote : Option Bool := none
  properties : Option Properties := none
  deriving DecidableEq, Repr

/-- `Workspace` (`models/formulation/workflow/workspace.rs` 9-23). -/
structure Workspace where
  bomRef : BomReference
  uid : String
  name : Option String := none
  aliases : Option (List String) := none
  description : Option String := none
  resourceReferences : Option (List ResourceReference) := none
  accessMode : Option AccessMode := none
  mountPath : Option String := none
  managedDataType : Option String := none
  volumeRequest : Option String := none
  volume : Option Volume := none
  properties : Option Properties := none
  deriving DecidableEq, Repr

/-- `Task` (`models/formulation/workflow/mod.rs` 83-100). -/
structure WorkflowTask where
  bomRef : BomReference
  uid : String
  name : Option String := none
  description : Option String := none
  resourceReferences : Option (List ResourceReference) := none
  taskTypes : List TaskType
  trigger : Option Trigger := none
  steps : Option (List Step) := none
  inputs : Option (List Input) := none
  outputs : Option (List Output) := none
  timeStart : Option DateTime := none
  timeEnd : Option DateTime := none
  workspaces : Option (List Workspace) := none
  runtimeTopology : Option (List Dependency) := none
  properties : Option Properties := none
  deriving DecidableEq, Repr

/-- `Workflow` (`models/formulation/workflow/mod.rs` 20-39). -/
structure Workflow where
  bomRef : BomReference
  uid : String
  name : Option String := none
  description : Option String := none
  resourceReferences : Option (List ResourceReference) := none
  tasks : Option (List WorkflowTask) := none
  taskDependencies : Option (List Dependency) := none
  taskTypes : List TaskType
  trigger : Option Trigger := none
  steps : Option (List Step) := none
  inputs : Option (List Input) := none
  outputs : Option (List Output) := none
  timeStart : Option DateTime := none
  timeEnd : Option DateTime := none
  workspaces : Option (List Workspace) := none
  runtimeTopology : Option (List Dependency) := none
  properties : Option Properties := none
  deriving DecidableEq, Repr

/-- `Formula` (`models/formulation/mod.rs` 12-19). -/
structure Formula where
  bomRef : Option BomReference := none
  components : Option Components := none
  services : Option Services := none
  workflows : Option (List Workflow) := none
  properties : Option Properties := none
  deriving Repr

/-- `Bom` (`models/bom.rs` 103-123). -/
structure Bom where
  version : Nat
  serialNumber : Option String := none
  metadata : Option Metadata := none
  components : Option Components := none
  services : Option Services := none
  externalReferences : Option ExternalReferences := none
  dependencies : Option (List Dependency) := none
  compositions : Option (List Composition) := none
  properties : Option Properties := none
  vulnerabilities : Option (List Vulnerability) := none
  signature : Option Signature := none
  annotations : Option (List Annotation) := none
  formulation : Option (List Formula) := none
  specVersion : SpecVersion
  deriving Repr

end Cdx
