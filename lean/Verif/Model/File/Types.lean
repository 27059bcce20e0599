import Verif.Model.Types

set_option linter.unusedVariables false

/-!
# The structures of the file formats

The structures and enumerations of `cyclonedx-bom/src/specs`, from which the files of a version are
written and into which they are read. The macro `versioned` (`cyclonedx-bom-macros/src/lib.rs`)
makes a module of those in `specs/common` for each version; here the version is a parameter, and a
field or a case that a version does not have is of type `Unit` or asks for a proof that the version
has it. As in the model of the program's own structures, newtypes around strings (`BomReference`,
`UrnUuid`, `MimeType`, `Cpe`, `HashValue`, `Copyright`, `TaskType`, ...) are strings and newtypes
around vectors are lists. The derived serialization and deserialization and the XML readers and
writers are in the other files of this directory.
-/

namespace Cdx

/-- The type of a field marked `#[versioned("1.4", "1.5")]`: version 1.3 does not have it. -/
abbrev Since14 (v : SpecVersion) (α : Type) : Type :=
  match v with
  | .v1_3 => Unit
  | .v1_4 => α
  | .v1_5 => α

/-- The type of a field marked `#[versioned("1.5")]`: versions 1.3 and 1.4 do not have it. -/
abbrev Since15 (v : SpecVersion) (α : Type) : Type :=
  match v with
  | .v1_3 => Unit
  | .v1_4 => Unit
  | .v1_5 => α

/-- The version of a component (`specs/common/component.rs` 144-148): a text in 1.3, optional in the
other versions. -/
abbrev File.Version (v : SpecVersion) : Type :=
  match v with
  | .v1_3 => String
  | .v1_4 => Option String
  | .v1_5 => Option String

/-- `Expression` (`specs/common/license.rs` 504-510). -/
structure File.SpdxExpression where
  bomRef : Option String
  expression : String

/-- `AttachedText` (`specs/common/attached_text.rs` 28-36). -/
structure File.AttachedText where
  contentType : Option String
  encoding : Option String
  content : String

/-- `Attachment` (`specs/v1_5/attachment.rs` 37-45). -/
structure File.Attachment where
  content : String
  contentType : Option String
  encoding : Option String

/-- `OrganizationalContact` (`specs/common/organization.rs` 33-44). -/
structure File.OrganizationalContact where
  bomRef : Option String
  name : Option String
  email : Option String
  phone : Option String

/-- `OrganizationalEntity` (`specs/common/organization.rs` 159-170). -/
structure File.OrganizationalEntity where
  bomRef : Option String
  name : Option String
  url : Option (List String)
  contact : Option (List File.OrganizationalContact)

/-- `Property` (`specs/common/property.rs` 79-84). -/
structure File.Property where
  name : String
  value : String

/-- `Hash` (`specs/common/hash.rs` 79-84). -/
structure File.Hash where
  alg : String
  content : String

/-- `ExternalReference` (`specs/common/external_reference.rs` 85-95). -/
structure File.ExternalReference where
  externalReferenceType : String
  url : String
  comment : Option String
  hashes : Option (List File.Hash)

/-- `LicenseIdentifier` (`specs/common/license.rs` 413-419). -/
inductive File.LicenseIdentifier where
  | spdxId (id : String)
  | name (n : String)

/-- `LicenseContact` (`specs/v1_5/licensing.rs` 92-97). -/
inductive File.LicenseContact where
  | organization (o : File.OrganizationalEntity)
  | individual (c : File.OrganizationalContact)

/-- `Licensing` (`specs/v1_5/licensing.rs` 36-47). -/
structure File.Licensing where
  altIds : Option (List String)
  licensor : Option File.LicenseContact
  licensee : Option File.LicenseContact
  purchaser : Option File.LicenseContact
  purchaseOrder : Option String
  licenseTypes : Option (List String)
  lastRenewal : Option String
  expiration : Option String

/-- `License` (`specs/common/license.rs` 197-215). -/
structure File.License (v : SpecVersion) where
  bomRef : Since15 v (Option String)
  licenseIdentifier : File.LicenseIdentifier
  text : Option File.AttachedText
  url : Option String
  licensing : Since15 v (Option File.Licensing)
  properties : Since15 v (Option (List File.Property))

/-- `LicenseChoice` (`specs/common/license.rs` 121-128). -/
inductive File.LicenseChoice (v : SpecVersion) where
  | license (l : File.License v)
  | expression (e : File.SpdxExpression)

/-- `IdentifiableAction` (`specs/common/code.rs` 234-243). -/
structure File.IdentifiableAction where
  timestamp : Option String
  name : Option String
  email : Option String

/-- `Commit` (`specs/common/code.rs` 85-98). -/
structure File.Commit where
  uid : Option String
  url : Option String
  author : Option File.IdentifiableAction
  committer : Option File.IdentifiableAction
  message : Option String

/-- `Diff` (`specs/common/code.rs` 513-520). -/
structure File.Diff where
  text : Option File.AttachedText
  url : Option String

/-- `Source` (`specs/common/code.rs` 779-786). -/
structure File.Source where
  name : Option String
  url : Option String

/-- `Issue` (`specs/common/code.rs` 615-630). -/
structure File.Issue where
  issueType : String
  id : Option String
  name : Option String
  description : Option String
  source : Option File.Source
  references : Option (List String)

/-- `Patch` (`specs/common/code.rs` 397-406). -/
structure File.Patch where
  patchType : String
  diff : Option File.Diff
  resolves : Option (List File.Issue)

/-- `Signer` (`specs/common/signature.rs` 32-38). -/
structure File.Signer where
  algorithm : Algorithm
  value : String

/-- `Signature` (`specs/common/signature.rs` 112-121). -/
inductive File.Signature where
  | signers (l : List File.Signer)
  | chain (l : List File.Signer)
  | single (s : File.Signer)

/-- `DataGovernanceResponsibleParty` (`specs/v1_5/data_governance.rs` 165-169). -/
inductive File.DataGovernanceResponsibleParty where
  | organization (o : File.OrganizationalEntity)
  | contact (c : File.OrganizationalContact)

/-- `DataGovernance` (`specs/v1_5/data_governance.rs` 34-42). -/
structure File.DataGovernance where
  custodians : Option (List File.DataGovernanceResponsibleParty)
  stewards : Option (List File.DataGovernanceResponsibleParty)
  owners : Option (List File.DataGovernanceResponsibleParty)

/-- `Graphic` (`specs/v1_5/component_data.rs` 580-586). -/
structure File.Graphic where
  name : Option String
  image : Option File.Attachment

/-- `GraphicsCollection` (`specs/v1_5/component_data.rs` 405-411). -/
structure File.GraphicsCollection where
  description : Option String
  collection : Option (List File.Graphic)

/-- `DataContents` (`specs/v1_5/component_data.rs` 282-291). -/
structure File.DataContents where
  attachment : Option File.Attachment
  url : Option String
  properties : Option (List File.Property)

/-- `ComponentData` (`specs/v1_5/component_data.rs` 46-69). -/
structure File.ComponentData where
  bomRef : Option String
  dataType : String
  name : Option String
  contents : Option File.DataContents
  classification : Option String
  sensitiveData : Option String
  graphics : Option File.GraphicsCollection
  description : Option String
  governance : Option File.DataGovernance

/-- `ModelParametersApproach` (`specs/v1_5/modelcard.rs` 366-371). -/
structure File.ModelParametersApproach where
  approachType : Option String

/-- `Dataset` (`specs/v1_5/modelcard.rs` 512-518). -/
inductive File.Dataset where
  | component (c : File.ComponentData)
  | reference (r : String)

/-- `MLParameter` (`specs/v1_5/modelcard.rs` 1164-1168). -/
structure File.MLParameter where
  format : Option String

/-- `ModelParameters` (`specs/v1_5/modelcard.rs` 176-193). -/
structure File.ModelParameters where
  approach : Option File.ModelParametersApproach
  task : Option String
  architectureFamily : Option String
  modelArchitecture : Option String
  datasets : Option (List File.Dataset)
  inputs : Option (List File.MLParameter)
  outputs : Option (List File.MLParameter)

/-- `ConfidenceInterval` (`specs/v1_5/modelcard.rs` 890-897). -/
structure File.ConfidenceInterval where
  lowerBound : Option String
  upperBound : Option String

/-- `PerformanceMetric` (`specs/v1_5/modelcard.rs` 763-773). -/
structure File.PerformanceMetric where
  metricType : Option String
  value : Option String
  slice : Option String
  confidenceInterval : Option File.ConfidenceInterval

/-- `QuantitativeAnalysis` (`specs/v1_5/modelcard.rs` 584-591). -/
structure File.QuantitativeAnalysis where
  performanceMetrics : Option (List File.PerformanceMetric)
  graphics : Option File.GraphicsCollection

/-- `Considerations` (`specs/v1_5/modelcard.rs` 987-989). -/
structure File.Considerations where

/-- `ModelCard` (`specs/v1_5/modelcard.rs` 40-53). -/
structure File.ModelCard where
  bomRef : Option String
  modelParameters : Option File.ModelParameters
  quantitativeAnalysis : Option File.QuantitativeAnalysis
  considerations : Option File.Considerations
  properties : Option (List File.Property)

/-- `Swid` (`specs/common/component.rs` 694-709). -/
structure File.Swid where
  tagId : String
  name : String
  version : Option String
  tagVersion : Option Nat
  patch : Option Bool
  text : Option File.AttachedText
  url : Option String

/-- `Occurrence` (`specs/v1_5/evidence.rs` 93-99). -/
structure File.Occurrence where
  bomRef : Option String
  location : String

/-- `Frame` (`specs/v1_5/evidence.rs` 294-310). -/
structure File.Frame where
  package : Option String
  module : String
  function : Option String
  parameters : Option (List String)
  line : Option Nat
  column : Option Nat
  fullFilename : Option String

/-- `Callstack` (`specs/v1_5/evidence.rs` 180-184). -/
structure File.Callstack where
  frames : List File.Frame

/-- `Method` (`specs/v1_5/evidence.rs` 696-703). -/
structure File.Method where
  technique : String
  confidence : F32
  value : Option String

/-- `Identity` (`specs/v1_5/evidence.rs` 477-488). -/
structure File.Identity where
  field : String
  confidence : Option F32
  methods : Option (List File.Method)
  tools : Option (List String)

/-- `ComponentEvidence` (`specs/common/component.rs` 898-914). -/
structure File.ComponentEvidence (v : SpecVersion) where
  licenses : Option (List (File.LicenseChoice v))
  copyright : Option (List String)
  occurrences : Since15 v (Option (List File.Occurrence))
  callstack : Since15 v (Option File.Callstack)
  identity : Since15 v (Option File.Identity)

mutual

/-- `Component` (`specs/common/component.rs` 126-186). -/
structure File.Component (v : SpecVersion) where
  componentType : String
  mimeType : Option String
  bomRef : Option String
  supplier : Option File.OrganizationalEntity
  author : Option String
  publisher : Option String
  group : Option String
  name : String
  version : File.Version v
  description : Option String
  scope : Option String
  hashes : Option (List File.Hash)
  licenses : Option (List (File.LicenseChoice v))
  copyright : Option String
  cpe : Option String
  purl : Option String
  swid : Option File.Swid
  modified : Option Bool
  pedigree : Option (File.Pedigree v)
  externalReferences : Option (List File.ExternalReference)
  properties : Option (List File.Property)
  components : Option (List (File.Component v))
  evidence : Option (File.ComponentEvidence v)
  signature : Since14 v (Option File.Signature)
  modelCard : Since15 v (Option File.ModelCard)
  data : Since15 v (Option File.ComponentData)

/-- `Pedigree` (`specs/common/component.rs` 1082-1097). -/
structure File.Pedigree (v : SpecVersion) where
  ancestors : Option (List (File.Component v))
  descendants : Option (List (File.Component v))
  variants : Option (List (File.Component v))
  commits : Option (List File.Commit)
  patches : Option (List File.Patch)
  notes : Option String

end

/-- `DataClassification` (`specs/common/service.rs` 701-706). -/
structure File.DataClassification where
  flow : String
  classification : String

/-- `ServiceData` (`specs/v1_5/service_data.rs` 36-51). -/
structure File.ServiceData where
  name : Option String
  description : Option String
  classification : File.DataClassification
  governance : Option File.DataGovernance
  source : Option (List String)
  destination : Option (List String)

/-- `Data` (`specs/common/service.rs` 540-548). -/
inductive File.ServiceDataChoice (v : SpecVersion) where
  | serviceData (h : v = .v1_5) (l : List File.ServiceData)
  | classification (l : List File.DataClassification)

/-- `Service` (`specs/common/service.rs` 113-149). -/
structure File.Service (v : SpecVersion) where
  bomRef : Option String
  provider : Option File.OrganizationalEntity
  group : Option String
  name : String
  version : Option String
  description : Option String
  endpoints : Option (List String)
  authenticated : Option Bool
  xTrustBoundary : Option Bool
  data : Option (File.ServiceDataChoice v)
  licenses : Option (List (File.LicenseChoice v))
  externalReferences : Option (List File.ExternalReference)
  properties : Option (List File.Property)
  services : Option (List (File.Service v))
  signature : Since14 v (Option File.Signature)
  trustZone : Since15 v (Option String)

/-- `Tool` (`specs/common/tool.rs` 218-232). -/
structure File.Tool (v : SpecVersion) where
  vendor : Option String
  name : Option String
  version : Option String
  hashes : Option (List File.Hash)
  externalReferences : Since14 v (Option (List File.ExternalReference))

/-- `Tools` (`specs/common/tool.rs` 44-57). -/
inductive File.Tools (v : SpecVersion) where
  | list (l : List (File.Tool v))
  | object (h : v = .v1_5) (services : Option (List (File.Service v))) (components : Option (List (File.Component v)))

/-- `Description` (`specs/v1_5/lifecycles.rs` 217-223). -/
structure File.LifecycleDescription where
  name : String
  description : Option String

/-- `Lifecycle` (`specs/v1_5/lifecycles.rs` 88-94). -/
inductive File.Lifecycle where
  | phase (p : String)
  | description (d : File.LifecycleDescription)

/-- `Metadata` (`specs/common/metadata.rs` 51-73). -/
structure File.Metadata (v : SpecVersion) where
  timestamp : Option String
  tools : Option (File.Tools v)
  authors : Option (List File.OrganizationalContact)
  component : Option (File.Component v)
  manufacture : Option File.OrganizationalEntity
  supplier : Option File.OrganizationalEntity
  licenses : Option (List (File.LicenseChoice v))
  properties : Option (List File.Property)
  lifecycles : Since15 v (Option (List File.Lifecycle))

/-- `Dependency` (`specs/common/dependency.rs` 78-85). -/
structure File.Dependency where
  dependencyRef : String
  dependsOn : List String

/-- `Composition` (`specs/common/composition.rs` 88-105). -/
structure File.Composition (v : SpecVersion) where
  bomRef : Since15 v (Option String)
  aggregate : String
  assemblies : Option (List String)
  dependencies : Option (List String)
  vulnerabilities : Since15 v (Option (List String))
  signature : Since14 v (Option File.Signature)

/-- `Advisory` (`specs/common/advisory.rs` 81-87). -/
structure File.Advisory where
  title : Option String
  url : String

/-- `VulnerabilitySource` (`specs/common/vulnerability_source.rs` 31-38). -/
structure File.VulnerabilitySource where
  name : Option String
  url : Option String

/-- `VulnerabilityReference` (`specs/common/vulnerability_reference.rs` 84-90). -/
structure File.VulnerabilityReference where
  id : String
  vulnerabilitySource : File.VulnerabilitySource

/-- `VulnerabilityRating` (`specs/common/vulnerability_rating.rs` 84-99). -/
structure File.VulnerabilityRating where
  vulnerabilitySource : Option File.VulnerabilitySource
  score : Option F32
  severity : Option String
  scoreMethod : Option String
  vector : Option String
  justification : Option String

/-- `VulnerabilityCredits` (`specs/common/vulnerability_credits.rs` 33-40). -/
structure File.VulnerabilityCredits where
  organizations : Option (List File.OrganizationalEntity)
  individuals : Option (List File.OrganizationalContact)

/-- `VulnerabilityAnalysis` (`specs/common/vulnerability_analysis.rs` 39-56). -/
structure File.VulnerabilityAnalysis (v : SpecVersion) where
  state : Option String
  justification : Option String
  responses : Option (List String)
  detail : Option String
  firstIssued : Since15 v (Option String)
  lastUpdated : Since15 v (Option String)

/-- `VersionRange` (`specs/common/vulnerability_target.rs` 342-349). -/
inductive File.VersionRange where
  | version (v : String)
  | range (r : String)
  | undefinedVersionRange (s : String)

/-- `Version` (`specs/common/vulnerability_target.rs` 239-245). -/
structure File.TargetVersion where
  versionRange : File.VersionRange
  status : String

/-- `VulnerabilityTarget` (`specs/common/vulnerability_target.rs` 82-89). -/
structure File.VulnerabilityTarget where
  bomRef : String
  versions : Option (List File.TargetVersion)

/-- `ProofOfConcept` (`specs/v1_5/proof_of_concept.rs` 33-42). -/
structure File.VulnerabilityProofOfConcept where
  reproductionSteps : Option String
  environment : Option String
  supportingMaterial : Option (List File.Attachment)

/-- `Vulnerability` (`specs/common/vulnerability.rs` 107-155). -/
structure File.Vulnerability (v : SpecVersion) where
  bomRef : Option String
  id : Option String
  vulnerabilitySource : Option File.VulnerabilitySource
  vulnerabilityReferences : Option (List File.VulnerabilityReference)
  vulnerabilityRatings : Option (List File.VulnerabilityRating)
  cwes : Option (List Nat)
  description : Option String
  detail : Option String
  recommendation : Option String
  workaround : Since15 v (Option String)
  proofOfConcept : Since15 v (Option File.VulnerabilityProofOfConcept)
  advisories : Option (List File.Advisory)
  created : Option String
  published : Option String
  updated : Option String
  rejected : Since15 v (Option String)
  vulnerabilityCredits : Option File.VulnerabilityCredits
  tools : Option (File.Tools v)
  vulnerabilityAnalysis : Option (File.VulnerabilityAnalysis v)
  vulnerabilityTargets : Option (List File.VulnerabilityTarget)
  properties : Option (List File.Property)

/-- `Annotator` (`specs/v1_5/annotation.rs` 161-168). -/
inductive File.Annotator where
  | organization (o : File.OrganizationalEntity)
  | individual (c : File.OrganizationalContact)
  | component (c : File.Component .v1_5)
  | service (s : File.Service .v1_5)

/-- `Annotation` (`specs/v1_5/annotation.rs` 113-130). -/
structure File.Annotation where
  bomRef : Option String
  subjects : List String
  annotator : File.Annotator
  timestamp : String
  text : String
  signature : Option File.Signature

/-- `ResourceReference` (`specs/v1_5/formulation/workflow/resource_reference.rs` 77-86). -/
inductive File.ResourceReference where
  | ref (r : String)
  | externalReference (e : File.ExternalReference)

/-- `EnvironmentVar` (`specs/v1_5/formulation/workflow/mod.rs` 521-526). -/
inductive File.EnvironmentVar where
  | property (name : String) (value : String)
  | value (v : String)

/-- `Parameter` (`specs/v1_5/formulation/workflow/input.rs` 237-246). -/
structure File.Parameter where
  name : Option String
  value : Option String
  dataType : Option String

/-- `RequiredInputField` (`specs/v1_5/formulation/workflow/input.rs` 228-235). -/
inductive File.RequiredInputField where
  | resource (r : File.ResourceReference)
  | parameters (p : List File.Parameter)
  | environmentVars (v : List File.EnvironmentVar)
  | data (a : File.Attachment)

/-- `Input` (`specs/v1_5/formulation/workflow/input.rs` 17-27). -/
structure File.Input where
  required : File.RequiredInputField
  source : Option File.ResourceReference
  target : Option File.ResourceReference
  properties : Option (List File.Property)

/-- `RequiredOutputField` (`specs/v1_5/formulation/workflow/output.rs` 225-231). -/
inductive File.RequiredOutputField where
  | resource (r : File.ResourceReference)
  | environmentVars (v : List File.EnvironmentVar)
  | data (a : File.Attachment)

/-- `Output` (`specs/v1_5/formulation/workflow/output.rs` 16-28). -/
structure File.Output where
  required : File.RequiredOutputField
  type : Option String
  source : Option File.ResourceReference
  target : Option File.ResourceReference
  properties : Option (List File.Property)

/-- `Command` (`specs/v1_5/formulation/workflow/step.rs` 132-138). -/
structure File.Command where
  executed : Option String
  properties : Option (List File.Property)

/-- `Step` (`specs/v1_5/formulation/workflow/step.rs` 15-25). -/
structure File.Step where
  commands : Option (List File.Command)
  description : Option String
  name : Option String
  properties : Option (List File.Property)

/-- `Event` (`specs/v1_5/formulation/workflow/trigger.rs` 236-253). -/
structure File.TriggerEvent where
  uid : Option String
  description : Option String
  timeReceived : Option String
  data : Option File.Attachment
  source : Option File.ResourceReference
  target : Option File.ResourceReference
  properties : Option (List File.Property)

/-- `Condition` (`specs/v1_5/formulation/workflow/trigger.rs` 394-402). -/
structure File.Condition where
  description : Option String
  expression : Option String
  properties : Option (List File.Property)

/-- `Trigger` (`specs/v1_5/formulation/workflow/trigger.rs` 23-48). -/
structure File.Trigger where
  bomRef : String
  uid : String
  name : Option String
  description : Option String
  resourceReferences : Option (List File.ResourceReference)
  type : String
  event : Option File.TriggerEvent
  conditions : Option (List File.Condition)
  timeActivated : Option String
  inputs : Option (List File.Input)
  outputs : Option (List File.Output)
  properties : Option (List File.Property)

/-- `Volume` (`specs/v1_5/formulation/workflow/workspace/volume.rs` 10-28). -/
structure File.Volume where
  uid : Option String
  name : Option String
  mode : Option String
  path : Option String
  sizeAllocated : Option String
  persistent : Option Bool
  remote : Option Bool
  properties : Option (List File.Property)

/-- `Workspace` (`specs/v1_5/formulation/workflow/workspace/mod.rs` 21-47). -/
structure File.Workspace where
  bomRef : String
  uid : String
  name : Option String
  aliases : Option (List String)
  description : Option String
  resourceReferences : Option (List File.ResourceReference)
  accessMode : Option String
  mountPath : Option String
  managedDataType : Option String
  volumeRequest : Option String
  volume : Option File.Volume
  properties : Option (List File.Property)

/-- `Task` (`specs/v1_5/formulation/workflow/mod.rs` 281-312). -/
structure File.WorkflowTask where
  bomRef : String
  uid : String
  name : Option String
  description : Option String
  resourceReferences : Option (List File.ResourceReference)
  taskTypes : List String
  trigger : Option File.Trigger
  steps : Option (List File.Step)
  inputs : Option (List File.Input)
  outputs : Option (List File.Output)
  timeStart : Option String
  timeEnd : Option String
  workspaces : Option (List File.Workspace)
  runtimeTopology : Option (List File.Dependency)
  properties : Option (List File.Property)

/-- `Workflow` (`specs/v1_5/formulation/workflow/mod.rs` 32-67). -/
structure File.Workflow where
  bomRef : String
  uid : String
  name : Option String
  description : Option String
  resourceReferences : Option (List File.ResourceReference)
  tasks : Option (List File.WorkflowTask)
  taskDependencies : Option (List File.Dependency)
  taskTypes : List String
  trigger : Option File.Trigger
  steps : Option (List File.Step)
  inputs : Option (List File.Input)
  outputs : Option (List File.Output)
  timeStart : Option String
  timeEnd : Option String
  workspaces : Option (List File.Workspace)
  runtimeTopology : Option (List File.Dependency)
  properties : Option (List File.Property)

/-- `Formula` (`specs/v1_5/formulation/mod.rs` 24-37). -/
structure File.Formula where
  bomRef : Option String
  components : Option (List (File.Component .v1_5))
  services : Option (List (File.Service .v1_5))
  workflows : Option (List File.Workflow)
  properties : Option (List File.Property)

/-- `Bom` (`specs/common/bom.rs` 79-114). -/
structure File.Bom (v : SpecVersion) where
  version : Nat
  serialNumber : Option String
  metadata : Option (File.Metadata v)
  components : Option (List (File.Component v))
  services : Option (List (File.Service v))
  externalReferences : Option (List File.ExternalReference)
  dependencies : Option (List File.Dependency)
  compositions : Option (List (File.Composition v))
  properties : Since15 v (Option (List File.Property))
  vulnerabilities : Since14 v (Option (List (File.Vulnerability v)))
  signature : Since14 v (Option File.Signature)
  annotations : Since15 v (Option (List File.Annotation))
  formulation : Since15 v (Option (List File.Formula))
  specVersion : SpecVersion

end Cdx
