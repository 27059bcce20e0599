import Verif.Model.Validate
import Verif.Spec.Checks
import Verif.Spec.Refs

/-!
# Specification: the elements of a BOM and what validation asks of them

`Elem` has one constructor for each kind of element that validation knows, `checked` and
`unchecked` list the elements directly inside an element, `rule` is the condition on the
element itself. `checked` are the parts that the code looks at, `unchecked` those it forgets:
the split is a claim about the code that the theorems of `Props/Validation.lean` prove.
-/

namespace Cdx.Spec

set_option linter.unusedVariables false

/-- An element of a BOM. -/
inductive Elem where
  | normalizedString (x : NormalizedString)
  | uri (x : Uri)
  | dateTime (x : DateTime)
  | purl (x : Purl)
  | cpe (x : String)
  | mimeType (x : String)
  | bomRefAttribute (x : BomReference)
  | serialNumber (x : String)
  | hashValue (x : String)
  | attachmentEncoding (x : String)
  | confidence (x : F32)
  | spdxId (x : String)
  | spdxExpression (x : SpdxExpression)
  | refUri (x : RefUri)
  | classification (x : Classification)
  | aggregateType (x : AggregateType)
  | scoreMethod (x : ScoreMethod)
  | scope (x : Scope)
  | hashAlgorithm (x : HashAlgorithm)
  | externalReferenceType (x : ExternalReferenceType)
  | identityField (x : IdentityField)
  | algorithm (x : Algorithm)
  | licenseType (x : LicenseType)
  | approachType (x : ApproachType)
  | componentDataType (x : ComponentDataType)
  | issueClassification (x : IssueClassification)
  | patchClassification (x : PatchClassification)
  | dataFlowType (x : DataFlowType)
  | impactAnalysisState (x : ImpactAnalysisState)
  | impactAnalysisJustification (x : ImpactAnalysisJustification)
  | impactAnalysisResponse (x : ImpactAnalysisResponse)
  | severity (x : Severity)
  | status (x : Status)
  | taskType (x : TaskType)
  | outputType (x : OutputType)
  | triggerType (x : TriggerType)
  | accessMode (x : AccessMode)
  | volumeMode (x : VolumeMode)
  | versionRange (x : VersionRange)
  | attachedText (x : AttachedText)
  | attachment (x : Attachment)
  | organizationalContact (x : OrganizationalContact)
  | organizationalEntity (x : OrganizationalEntity)
  | property (x : Property)
  | hash (x : Hash)
  | externalReference (x : ExternalReference)
  | licensing (x : Licensing)
  | license (x : License)
  | identifiableAction (x : IdentifiableAction)
  | commit (x : Commit)
  | diff (x : Diff)
  | source (x : Source)
  | issue (x : Issue)
  | patch (x : Patch)
  | signer (x : Signer)
  | dataGovernance (x : DataGovernance)
  | graphic (x : Graphic)
  | graphicsCollection (x : GraphicsCollection)
  | dataContents (x : DataContents)
  | componentData (x : ComponentData)
  | modelParametersApproach (x : ModelParametersApproach)
  | modelParameters (x : ModelParameters)
  | quantitativeAnalysis (x : QuantitativeAnalysis)
  | modelCard (x : ModelCard)
  | swid (x : Swid)
  | occurrence (x : Occurrence)
  | frame (x : Frame)
  | callstack (x : Callstack)
  | identity (x : Identity)
  | componentEvidence (x : ComponentEvidence)
  | component (x : Component)
  | pedigree (x : Pedigree)
  | dataClassification (x : DataClassification)
  | serviceData (x : ServiceData)
  | service (x : Service)
  | tool (x : Tool)
  | metadata (x : Metadata)
  | composition (x : Composition)
  | advisory (x : Advisory)
  | vulnerabilitySource (x : VulnerabilitySource)
  | vulnerabilityReference (x : VulnerabilityReference)
  | vulnerabilityRating (x : VulnerabilityRating)
  | vulnerabilityCredits (x : VulnerabilityCredits)
  | vulnerabilityAnalysis (x : VulnerabilityAnalysis)
  | targetVersion (x : TargetVersion)
  | vulnerabilityTarget (x : VulnerabilityTarget)
  | vulnerability (x : Vulnerability)
  | annotation (x : Annotation)
  | input (x : Input)
  | output (x : Output)
  | command (x : Command)
  | step (x : Step)
  | triggerEvent (x : TriggerEvent)
  | condition (x : Condition)
  | trigger (x : Trigger)
  | volume (x : Volume)
  | workspace (x : Workspace)
  | workflowTask (x : WorkflowTask)
  | workflow (x : Workflow)
  | formula (x : Formula)
  | bom (x : Bom)
  | licenseIdentifier (x : LicenseIdentifier)
  | licenseContact (x : LicenseContact)
  | licenseChoice (x : LicenseChoice)
  | licenses (x : Licenses)
  | signature (x : Signature)
  | dataGovernanceResponsibleParty (x : DataGovernanceResponsibleParty)
  | dataset (x : Dataset)
  | serviceDataChoice (x : ServiceDataChoice)
  | tools (x : Tools)
  | annotator (x : Annotator)
  | resourceReference (x : ResourceReference)

/-- The elements given by an optional value. -/
def opt {α : Type} (f : α → Elem) (x : Option α) : List Elem := x.toList.map f

/-- The elements given by an optional list. -/
def many {α : Type} (f : α → Elem) (x : Option (List α)) : List Elem := (x.getD []).map f

/-- The elements of the required field of a workflow input. -/
def inputParts : RequiredInputField → List Elem
  | .resource r => [.resourceReference r]
  | .parameters _ => []
  | .environmentVars _ => []
  | .data a => [.attachment a]

/-- The elements of the required field of a workflow output. -/
def outputParts : RequiredOutputField → List Elem
  | .resource r => [.resourceReference r]
  | .environmentVars _ => []
  | .data a => [.attachment a]

/-- The elements of a lifecycle. -/
def lifecycleParts : Lifecycle → List Elem
  | .phase _ => []
  | .description d => .normalizedString d.name :: opt .normalizedString d.description

/-- The elements directly inside an element that validation looks at. -/
def Elem.checked : Elem → List Elem
  | .attachedText x => opt .normalizedString x.contentType
  | .attachment x => opt .attachmentEncoding x.encoding
  | .organizationalContact x => opt .bomRefAttribute x.bomRef ++ opt .normalizedString x.name ++
      opt .normalizedString x.email ++ opt .normalizedString x.phone
  | .organizationalEntity x => opt .normalizedString x.name ++ many .uri x.url ++ many .organizationalContact x.contact
  | .property x => [.normalizedString x.value]
  | .hash x => [.hashAlgorithm x.alg] ++ [.hashValue x.content]
  | .externalReference x => [.externalReferenceType x.externalReferenceType] ++ [.refUri x.url] ++ many .hash x.hashes
  | .licensing x => many .normalizedString x.altIds ++ opt .licenseContact x.licensor ++
      opt .licenseContact x.licensee ++ opt .licenseContact x.purchaser ++
      many .licenseType x.licenseTypes ++ opt .dateTime x.lastRenewal ++
      opt .dateTime x.expiration
  | .license x => [.licenseIdentifier x.licenseIdentifier] ++ opt .attachedText x.text ++ opt .uri x.url ++
      opt .licensing x.licensing ++ many .property x.properties
  | .identifiableAction x => opt .dateTime x.timestamp ++ opt .normalizedString x.name ++ opt .normalizedString x.email
  | .commit x => opt .normalizedString x.uid ++ opt .uri x.url ++ opt .identifiableAction x.author ++
      opt .identifiableAction x.committer ++ opt .normalizedString x.message
  | .diff x => opt .attachedText x.text ++ opt .uri x.url
  | .source x => opt .normalizedString x.name ++ opt .uri x.url
  | .issue x => [.issueClassification x.issueType] ++ opt .normalizedString x.id ++
      opt .normalizedString x.name ++ opt .normalizedString x.description ++
      opt .source x.source ++ many .uri x.references
  | .patch x => [.patchClassification x.patchType] ++ opt .diff x.diff ++ many .issue x.resolves
  | .signer x => [.algorithm x.algorithm]
  | .dataGovernance x => many .dataGovernanceResponsibleParty x.custodians ++
      many .dataGovernanceResponsibleParty x.stewards ++
      many .dataGovernanceResponsibleParty x.owners
  | .graphic x => opt .attachment x.image
  | .graphicsCollection x => many .graphic x.collection
  | .dataContents x => opt .attachment x.attachment ++ opt .uri x.url ++ many .property x.properties
  | .componentData x => [.componentDataType x.dataType] ++ opt .dataContents x.contents ++
      opt .graphicsCollection x.graphics ++ opt .dataGovernance x.governance
  | .modelParametersApproach x => opt .approachType x.approachType
  | .modelParameters x => opt .modelParametersApproach x.approach ++ many .dataset x.datasets
  | .quantitativeAnalysis x => opt .graphicsCollection x.graphics
  | .modelCard x => opt .modelParameters x.modelParameters ++
      opt .quantitativeAnalysis x.quantitativeAnalysis ++ many .property x.properties
  | .swid x => opt .attachedText x.text ++ opt .uri x.url
  | .occurrence x => opt .bomRefAttribute x.bomRef
  | .frame x => opt .normalizedString x.package ++ [.normalizedString x.module] ++
      opt .normalizedString x.function ++ many .normalizedString x.parameters ++
      opt .normalizedString x.fullFilename
  | .callstack x => x.frames.map .frame
  | .identity x => [.identityField x.field] ++ opt .confidence x.confidence
  | .componentEvidence x => opt .licenses x.licenses ++ many .occurrence x.occurrences ++ opt .callstack x.callstack ++
      opt .identity x.identity
  | .component x => [.classification x.componentType] ++ opt .mimeType x.mimeType ++
      opt .organizationalEntity x.supplier ++ opt .normalizedString x.author ++
      opt .normalizedString x.publisher ++ opt .normalizedString x.group ++
      [.normalizedString x.name] ++ opt .normalizedString x.version ++
      opt .normalizedString x.description ++ opt .scope x.scope ++ many .hash x.hashes ++
      opt .licenses x.licenses ++ opt .normalizedString x.copyright ++ opt .cpe x.cpe ++
      opt .purl x.purl ++ opt .swid x.swid ++ opt .pedigree x.pedigree ++
      many .externalReference x.externalReferences ++ many .property x.properties ++
      many .component x.components ++ opt .componentEvidence x.evidence
  | .pedigree x => many .component x.ancestors ++ many .component x.descendants ++
      many .component x.variants ++ many .commit x.commits ++ many .patch x.patches
  | .dataClassification x => [.dataFlowType x.flow] ++ [.normalizedString x.classification]
  | .serviceData x => opt .normalizedString x.name ++ opt .normalizedString x.description ++
      [.dataClassification x.classification] ++ opt .dataGovernance x.governance ++
      many .uri x.source ++ many .uri x.destination
  | .service x => opt .organizationalEntity x.provider ++ opt .normalizedString x.group ++
      [.normalizedString x.name] ++ opt .normalizedString x.version ++
      opt .normalizedString x.description ++ many .uri x.endpoints ++
      opt .serviceDataChoice x.data ++ opt .licenses x.licenses ++
      many .externalReference x.externalReferences ++ many .property x.properties ++
      many .service x.services ++ opt .normalizedString x.trustZone
  | .tool x => opt .normalizedString x.vendor ++ opt .normalizedString x.name ++
      opt .normalizedString x.version ++ many .hash x.hashes ++
      many .externalReference x.externalReferences
  | .metadata x => opt .dateTime x.timestamp ++ opt .tools x.tools ++ many .organizationalContact x.authors ++
      opt .component x.component ++ opt .organizationalEntity x.manufacture ++
      opt .organizationalEntity x.supplier ++ opt .licenses x.licenses ++
      many .property x.properties
  | .composition x => [.aggregateType x.aggregate] ++ opt .signature x.signature
  | .advisory x => opt .normalizedString x.title ++ [.uri x.url]
  | .vulnerabilitySource x => opt .normalizedString x.name ++ opt .uri x.url
  | .vulnerabilityReference x => [.normalizedString x.id] ++ [.vulnerabilitySource x.vulnerabilitySource]
  | .vulnerabilityRating x => opt .vulnerabilitySource x.vulnerabilitySource ++ opt .severity x.severity ++
      opt .scoreMethod x.scoreMethod ++ opt .normalizedString x.vector
  | .vulnerabilityCredits x => many .organizationalEntity x.organizations ++ many .organizationalContact x.individuals
  | .vulnerabilityAnalysis x => opt .impactAnalysisState x.state ++ opt .impactAnalysisJustification x.justification ++
      many .impactAnalysisResponse x.responses ++ opt .dateTime x.firstIssued
  | .targetVersion x => [.versionRange x.versionRange] ++ [.status x.status]
  | .vulnerabilityTarget x => many .targetVersion x.versions
  | .vulnerability x => opt .normalizedString x.id ++ opt .vulnerabilitySource x.vulnerabilitySource ++
      many .vulnerabilityReference x.vulnerabilityReferences ++
      many .vulnerabilityRating x.vulnerabilityRatings ++ many .advisory x.advisories ++
      opt .dateTime x.created ++ opt .dateTime x.published ++ opt .dateTime x.updated ++
      opt .vulnerabilityCredits x.vulnerabilityCredits ++ opt .tools x.tools ++
      opt .vulnerabilityAnalysis x.vulnerabilityAnalysis ++
      many .vulnerabilityTarget x.vulnerabilityTargets ++ many .property x.properties
  | .annotation x => [.annotator x.annotator] ++ [.dateTime x.timestamp]
  | .input x => inputParts x.required ++ opt .resourceReference x.source ++
      opt .resourceReference x.target ++ many .property x.properties
  | .output x => outputParts x.required ++ opt .outputType x.type ++ opt .resourceReference x.source ++
      opt .resourceReference x.target ++ many .property x.properties
  | .command x => many .property x.properties
  | .step x => many .command x.commands ++ many .property x.properties
  | .triggerEvent x => opt .dateTime x.timeReceived ++ opt .attachment x.data ++
      opt .resourceReference x.source ++ opt .resourceReference x.target ++
      many .property x.properties
  | .condition x => many .property x.properties
  | .trigger x => [.bomRefAttribute x.bomRef] ++ many .resourceReference x.resourceReferences ++
      [.triggerType x.type] ++ opt .triggerEvent x.event ++ many .condition x.conditions ++
      opt .dateTime x.timeActivated ++ many .input x.inputs ++ many .output x.outputs ++
      many .property x.properties
  | .volume x => [.volumeMode x.mode]
  | .workspace x => many .resourceReference x.resourceReferences ++ opt .accessMode x.accessMode
  | .workflowTask x => many .resourceReference x.resourceReferences ++ x.taskTypes.map .taskType ++
      opt .trigger x.trigger ++ many .step x.steps ++ many .input x.inputs ++
      many .output x.outputs ++ opt .dateTime x.timeStart ++ opt .dateTime x.timeEnd ++
      many .workspace x.workspaces
  | .workflow x => many .resourceReference x.resourceReferences ++ many .workflowTask x.tasks ++
      x.taskTypes.map .taskType ++ opt .trigger x.trigger ++ many .step x.steps ++
      many .input x.inputs ++ many .output x.outputs ++ opt .dateTime x.timeStart ++
      opt .dateTime x.timeEnd ++ many .workspace x.workspaces
  | .formula x => many .component x.components ++ many .service x.services ++ many .workflow x.workflows ++
      many .property x.properties
  | .bom x => opt .serialNumber x.serialNumber ++ opt .metadata x.metadata ++
      many .component x.components ++ many .service x.services ++
      many .externalReference x.externalReferences ++ many .composition x.compositions ++
      many .property x.properties ++ many .vulnerability x.vulnerabilities
  | .licenseIdentifier (.spdxId i) => [.spdxId i]
  | .licenseIdentifier (.name n) => [.normalizedString n]
  | .licenseContact (.organization o) => [.organizationalEntity o]
  | .licenseContact (.contact c) => [.organizationalContact c]
  | .licenseChoice (.license l) => [.license l]
  | .licenseChoice (.expression e) => [.spdxExpression e]
  | .licenses l => l.map .licenseChoice
  | .signature (.signers l) => l.map .signer
  | .signature (.chain l) => l.map .signer
  | .signature (.single s) => [.signer s]
  | .dataGovernanceResponsibleParty (.organization o) => [.organizationalEntity o]
  | .dataGovernanceResponsibleParty (.contact c) => [.organizationalContact c]
  | .dataset (.component c) => [.componentData c]
  | .dataset (.reference _) => []
  | .serviceDataChoice (.serviceData l) => l.map .serviceData
  | .serviceDataChoice (.classification l) => l.map .dataClassification
  | .tools (.list l) => l.map .tool
  | .tools (.object services components) => many .service services ++ many .component components
  | .annotator (.organization o) => [.organizationalEntity o]
  | .annotator (.individual c) => [.organizationalContact c]
  | .annotator (.component c) => [.component c]
  | .annotator (.service s) => [.service s]
  | .resourceReference (.ref _) => []
  | .resourceReference (.externalReference e) => [.externalReference e]
  | _ => []

/-- The elements directly inside an element that validation does not look at. -/
def Elem.unchecked : Elem → List Elem
  | .organizationalEntity x => opt .bomRefAttribute x.bomRef
  | .license x => opt .bomRefAttribute x.bomRef
  | .componentData x => opt .bomRefAttribute x.bomRef
  | .modelCard x => opt .bomRefAttribute x.bomRef
  | .identity x => (x.methods.getD []).map (.confidence ·.confidence)
  | .component x => opt .signature x.signature ++ opt .modelCard x.modelCard ++ opt .componentData x.data
  | .service x => opt .signature x.signature
  | .metadata x => (x.lifecycles.getD []).flatMap lifecycleParts
  | .composition x => opt .bomRefAttribute x.bomRef
  | .vulnerabilityAnalysis x => opt .dateTime x.lastUpdated
  | .vulnerability x => many .attachment (x.proofOfConcept.bind (·.supportingMaterial)) ++ opt .dateTime x.rejected
  | .annotation x => opt .signature x.signature
  | .volume x => many .property x.properties
  | .workspace x => [.bomRefAttribute x.bomRef] ++ opt .volume x.volume ++ many .property x.properties
  | .workflowTask x => [.bomRefAttribute x.bomRef] ++ many .property x.properties
  | .workflow x => [.bomRefAttribute x.bomRef] ++ many .property x.properties
  | .formula x => opt .bomRefAttribute x.bomRef
  | .bom x => opt .signature x.signature ++ many .annotation x.annotations ++ many .formula x.formulation
  | .versionRange (.version s) => [.normalizedString s]
  | .versionRange (.range s) => [.normalizedString s]
  | _ => []

/-- All elements of a list are different. -/
def Distinct {α : Type} (l : Option (List α)) : Prop := (l.getD []).Nodup

/-- Component types of a version: the first eight up to 1.4, all named ones in 1.5. -/
def ClassificationIn (v : SpecVersion) (c : Classification) : Prop :=
  c ∈ [.application, .framework, .library, .container, .operatingSystem, .device, .firmware,
    .file] ∨
  v = .v1_5 ∧ c ∈ [.platform, .deviceDriver, .machineLearningModel, .data]

/-- Aggregate types the code accepts in a version. (The 1.3 and 1.4 schemas do not have the
type in the second line; the code accepts it nevertheless.) -/
def AggregateIn (v : SpecVersion) (a : AggregateType) : Prop :=
  a ∈ [.complete, .incomplete, .incompleteFirstPartyOnly, .incompleteThirdPartyOnly, .unknown,
    .notSpecified] ∨
  a = .incompleteFirstPartyProprietaryOnly ∨
  v = .v1_5 ∧ a ∈ [.incompleteFirstPartyOpensourceOnly, .incompleteThirdPartyProprietaryOnly,
    .incompleteThirdPartyOpensourceOnly]

/-- Score methods of a version. -/
def ScoreMethodIn (v : SpecVersion) (m : ScoreMethod) : Prop :=
  m ∈ [.cvssv2, .cvssv3, .cvssv31, .owasp] ∨ v = .v1_5 ∧ m ∈ [.cvssv4, .ssvc]

/-- Both ends of a dependency entry are elements of the BOM. -/
def DependencyKnown (b : Bom) (d : Dependency) : Prop :=
  d.dependencyRef ∈ b.refs ∧ ∀ r ∈ d.dependencies, r ∈ b.refs

/-- The assemblies and dependencies of a composition are elements of the BOM. -/
def CompositionKnown (b : Bom) (c : Composition) : Prop :=
  (∀ r ∈ c.assemblies.getD [], r ∈ b.refs) ∧ ∀ r ∈ c.dependencies.getD [], r ∈ b.refs

/-- The condition on an element itself, apart from the elements inside it. -/
def Elem.rule (E : VEnv) (v : SpecVersion) : Elem → Prop
  | .normalizedString x => NoBreaks x
  | .uri x => E.uriOk x = true
  | .dateTime x => E.dateTimeOk x = true
  | .purl x => E.purlErr x = none
  | .cpe x => patCpe.isMatch x = true
  | .mimeType x => IsMime x
  | .bomRefAttribute x => v = .v1_5
  | .serialNumber x => IsUrnUuid x
  | .hashValue x => StartsOrContainsHex x
  | .attachmentEncoding x => x = "base64"
  | .confidence x => ¬ Negative x
  | .spdxId x => E.spdxIdOk x = true
  | .spdxExpression x => E.spdxExprOk x.expression = true
  | .refUri x => match x with
    | .url u => E.uriOk u = true
    | .bomLink l => v = .v1_5 ∧ IsBomLink l
  | .classification x => ClassificationIn v x
  | .aggregateType x => AggregateIn v x
  | .scoreMethod x => ScoreMethodIn v x
  | .scope x => ∀ s, x ≠ .unknownScope s
  | .hashAlgorithm x => ∀ s, x ≠ .unknownHashAlgorithm s
  | .externalReferenceType x => ∀ s, x ≠ .unknownExternalReferenceType s
  | .identityField x => ∀ s, x ≠ .unknown s
  | .algorithm x => ∀ s, x ≠ .unknown s
  | .licenseType x => ∀ s, x ≠ .unknown s
  | .approachType x => ∀ s, x ≠ .unknown s
  | .componentDataType x => ∀ s, x ≠ .unknown s
  | .issueClassification x => ∀ s, x ≠ .unknownIssueClassification s
  | .patchClassification x => ∀ s, x ≠ .unknownPatchClassification s
  | .dataFlowType x => ∀ s, x ≠ .unknownDataFlow s
  | .impactAnalysisState x => ∀ s, x ≠ .undefinedImpactAnalysisState s
  | .impactAnalysisJustification x => ∀ s, x ≠ .undefinedImpactAnalysisJustification s
  | .impactAnalysisResponse x => ∀ s, x ≠ .undefinedResponse s
  | .severity x => ∀ s, x ≠ .undefinedSeverity s
  | .status x => ∀ s, x ≠ .undefinedStatus s
  | .taskType x => ∀ s, x ≠ .unknown s
  | .outputType x => ∀ s, x ≠ .unknown s
  | .triggerType x => ∀ s, x ≠ .unknownType s
  | .accessMode x => ∀ s, x ≠ .unknownAccessMode s
  | .volumeMode x => ∀ s, x ≠ .unknownMode s
  | .versionRange x => ∀ s, x ≠ .undefinedVersionRange s
  | .attachedText x => ∀ e, x.encoding = some e → e = .base64 ∧ ∃ bytes, IsBase64 bytes x.content.toList
  | .trigger x => Distinct x.conditions ∧ Distinct x.inputs ∧ Distinct x.outputs
  | .workspace x => Distinct x.resourceReferences
  | .workflowTask x => Distinct x.steps ∧ Distinct x.inputs ∧ Distinct x.outputs ∧ Distinct x.workspaces ∧
      Distinct x.runtimeTopology
  | .workflow x => Distinct x.tasks ∧ Distinct x.taskDependencies ∧ Distinct x.steps ∧ Distinct x.inputs ∧
      Distinct x.outputs ∧ Distinct x.workspaces ∧ Distinct x.runtimeTopology
  | .formula x => v = .v1_5 ∧ Distinct x.components ∧ Distinct x.services ∧ Distinct x.workflows
  | .bom x => x.refs.Nodup ∧ (∀ d ∈ x.dependencies.getD [], DependencyKnown x d) ∧
      ∀ c ∈ x.compositions.getD [], CompositionKnown x c
  | .licenses x => v = .v1_5 → (∀ c ∈ x, ∃ l, c = .license l) ∨ x.length ≤ 1
  | .tools x => v = .v1_5 ∨ ∃ l, x = .list l
  | _ => True

/-- The outcome of validating an element on its own. -/
def Elem.outcome (E : VEnv) (v : SpecVersion) : Elem → Res VResult
  | .normalizedString x => .ok (.ofCheck (validateNormalizedString x))
  | .uri x => .ok (.ofCheck (validateUri E x))
  | .dateTime x => .ok (.ofCheck (validateDateTime E x))
  | .purl x => .ok (.ofCheck (validatePurl E x))
  | .cpe x => .ok (.ofCheck (validateCpe x))
  | .mimeType x => .ok (.ofCheck (validateMimeType x))
  | .bomRefAttribute x => .ok (.ofCheck (validateBomRef v x))
  | .serialNumber x => .ok (.ofCheck (validateUrnUuid x))
  | .hashValue x => .ok (.ofCheck (validateHashValue x))
  | .attachmentEncoding x => .ok (.ofCheck (validateAttachmentEncoding x))
  | .confidence x => .ok (.ofCheck (validateConfidence x))
  | .spdxId x => .ok (.ofCheck (validateSpdxIdentifier E x))
  | .spdxExpression x => .ok (.ofCheck (validateSpdxExpression E x))
  | .refUri x => .ok (.ofCheck (validateReferenceUri E v x))
  | .classification x => .ok (.ofCheck (validateClassification v x))
  | .aggregateType x => .ok (.ofCheck (validateAggregateType v x))
  | .scoreMethod x => .ok (.ofCheck (validateScoreMethod v x))
  | .scope x => .ok (.ofCheck (validateScope x))
  | .hashAlgorithm x => .ok (.ofCheck (validateHashAlgorithm x))
  | .externalReferenceType x => .ok (.ofCheck (validateExternalReferenceType x))
  | .identityField x => .ok (.ofCheck (validateIdentityField x))
  | .algorithm x => .ok (.ofCheck (validateAlgorithm x))
  | .licenseType x => .ok (.ofCheck (validateLicenseType x))
  | .approachType x => .ok (.ofCheck (validateApproachType x))
  | .componentDataType x => .ok (.ofCheck (validateDatatype x))
  | .issueClassification x => .ok (.ofCheck (validateIssueClassification x))
  | .patchClassification x => .ok (.ofCheck (validatePatchClassification x))
  | .dataFlowType x => .ok (.ofCheck (validateDataFlowType x))
  | .impactAnalysisState x => .ok (.ofCheck (validateImpactAnalysisState x))
  | .impactAnalysisJustification x => .ok (.ofCheck (validateImpactAnalysisJustification x))
  | .impactAnalysisResponse x => .ok (.ofCheck (validateImpactAnalysisResponse x))
  | .severity x => .ok (.ofCheck (validateSeverity x))
  | .status x => .ok (.ofCheck (validateStatus x))
  | .taskType x => .ok (.ofCheck (validateTaskType x))
  | .outputType x => .ok (.ofCheck (validateOutputType x))
  | .triggerType x => .ok (.ofCheck (validateTriggerType x))
  | .accessMode x => .ok (.ofCheck (validateAccessMode x))
  | .volumeMode x => .ok (.ofCheck (validateVolumeMode x))
  | .versionRange x => .ok (.ofCheck (validateVersionRange x))
  | .attachedText x => AttachedText.validate E v x
  | .attachment x => Attachment.validate E v x
  | .organizationalContact x => OrganizationalContact.validate E v x
  | .organizationalEntity x => OrganizationalEntity.validate E v x
  | .property x => Property.validate E v x
  | .hash x => Hash.validate E v x
  | .externalReference x => ExternalReference.validate E v x
  | .licensing x => Licensing.validate E v x
  | .license x => License.validate E v x
  | .identifiableAction x => IdentifiableAction.validate E v x
  | .commit x => Commit.validate E v x
  | .diff x => Diff.validate E v x
  | .source x => Source.validate E v x
  | .issue x => Issue.validate E v x
  | .patch x => Patch.validate E v x
  | .signer x => Signer.validate E v x
  | .dataGovernance x => DataGovernance.validate E v x
  | .graphic x => Graphic.validate E v x
  | .graphicsCollection x => GraphicsCollection.validate E v x
  | .dataContents x => DataContents.validate E v x
  | .componentData x => ComponentData.validate E v x
  | .modelParametersApproach x => ModelParametersApproach.validate E v x
  | .modelParameters x => ModelParameters.validate E v x
  | .quantitativeAnalysis x => QuantitativeAnalysis.validate E v x
  | .modelCard x => ModelCard.validate E v x
  | .swid x => Swid.validate E v x
  | .occurrence x => Occurrence.validate E v x
  | .frame x => Frame.validate E v x
  | .callstack x => Callstack.validate E v x
  | .identity x => Identity.validate E v x
  | .componentEvidence x => ComponentEvidence.validate E v x
  | .component x => Component.validate E v x
  | .pedigree x => Pedigree.validate E v x
  | .dataClassification x => DataClassification.validate E v x
  | .serviceData x => ServiceData.validate E v x
  | .service x => Service.validate E v x
  | .tool x => Tool.validate E v x
  | .metadata x => Metadata.validate E v x
  | .composition x => Composition.validate E v x
  | .advisory x => Advisory.validate E v x
  | .vulnerabilitySource x => VulnerabilitySource.validate E v x
  | .vulnerabilityReference x => VulnerabilityReference.validate E v x
  | .vulnerabilityRating x => VulnerabilityRating.validate E v x
  | .vulnerabilityCredits x => VulnerabilityCredits.validate E v x
  | .vulnerabilityAnalysis x => VulnerabilityAnalysis.validate E v x
  | .targetVersion x => TargetVersion.validate E v x
  | .vulnerabilityTarget x => VulnerabilityTarget.validate E v x
  | .vulnerability x => Vulnerability.validate E v x
  | .annotation x => Annotation.validate E v x
  | .input x => Input.validate E v x
  | .output x => Output.validate E v x
  | .command x => Command.validate E v x
  | .step x => Step.validate E v x
  | .triggerEvent x => TriggerEvent.validate E v x
  | .condition x => Condition.validate E v x
  | .trigger x => Trigger.validate E v x
  | .volume x => Volume.validate E v x
  | .workspace x => Workspace.validate E v x
  | .workflowTask x => WorkflowTask.validate E v x
  | .workflow x => Workflow.validate E v x
  | .formula x => Formula.validate E v x
  | .bom x => Bom.validateVersion E v x
  | .licenseIdentifier x => LicenseIdentifier.validate E v x
  | .licenseContact x => LicenseContact.validate E v x
  | .licenseChoice x => LicenseChoice.validate E v x
  | .licenses x => Licenses.validate E v x
  | .signature x => Signature.validate E v x
  | .dataGovernanceResponsibleParty x => DataGovernanceResponsibleParty.validate E v x
  | .dataset x => Dataset.validate E v x
  | .serviceDataChoice x => ServiceDataChoice.validate E v x
  | .tools x => Tools.validate E v x
  | .annotator x => Annotator.validate E v x
  | .resourceReference x => ResourceReference.validate E v x

/-- The element is valid on its own. -/
def Elem.Passes (E : VEnv) (v : SpecVersion) (e : Elem) : Prop := e.outcome E v = .ok []

/-- `Inside parts a b`: `b` is `a` itself or inside `a`, where `parts` are the direct parts. -/
inductive Inside (parts : Elem → List Elem) : Elem → Elem → Prop
  | refl (e : Elem) : Inside parts e e
  | step {a b c : Elem} : b ∈ parts a → Inside parts b c → Inside parts a c

/-- All direct parts. -/
def Elem.parts (e : Elem) : List Elem := e.checked ++ e.unchecked

end Cdx.Spec
