import Verif.Spec.Elements

/-!
# Specification: where a validation report says that something is wrong

A report is a tree. A `Place` is a way from the root of the tree to a message: names of fields
and positions in lists. `Noted r p` says that the report `r` has a message at the place `p`.

`Elem.located` says for each element at which places below it its parts are. The names are the
names of the fields of the Rust structures, with these exceptions, which are the names the code
uses: a list that is wrapped in a structure of its own has the additional step `inner`
(`composition` for compositions, `frames` for a call stack); the variants of an enumeration are
named after the variant; `bom-ref`, `type`, `resource_reference` and `contact` are written like
this. Optional structures that the code hands over as a list have the additional position 0
(`soleAt`). `Elem.fault` says at which places below an element its own violations are.
-/

namespace Cdx.Spec

set_option linter.unusedVariables false

/-- One step of a way through a report. -/
inductive Hop where
  | field (name : String)
  | item (i : Nat)
  deriving DecidableEq

/-- A way through a report. -/
abbrev Place := List Hop

/-- The step to a field. A message about an element as a whole has the empty name. -/
def hop (n : String) : Place := if n = "" then [] else [.field n]

mutual

/-- The report has a message at this place. -/
inductive Noted : VResult → Place → Prop
  | entry {r : VResult} {n : String} {k : ErrorsKind} {p : Place} :
      r.error? n = some k → NotedIn k p → Noted r (hop n ++ p)

/-- The entry of a report has a message at this place. -/
inductive NotedIn : ErrorsKind → Place → Prop
  | field {es : List String} {e : String} : e ∈ es → NotedIn (.field es) []
  | enum {e : String} : NotedIn (.enum e) []
  | custom {es : List String} {e : String} : e ∈ es → NotedIn (.custom es) []
  | struct {r : VResult} {p : Place} : Noted r p → NotedIn (.struct r) p
  | list {l : List (Nat × VResult)} {i : Nat} {r : VResult} {p : Place} :
      (i, r) ∈ l → Noted r p → NotedIn (.list l) (.item i :: p)

end

/-- A field. -/
def oneAt (n : String) (e : Elem) : List (Place × Elem) := [(hop n, e)]

/-- An optional field. -/
def optAt {α : Type} (n : String) (f : α → Elem) (x : Option α) : List (Place × Elem) :=
  x.toList.map fun y => (hop n, f y)

/-- The elements of a list, each at its position. -/
def listAt {α : Type} (n : String) (f : α → Elem) (l : List α) : List (Place × Elem) :=
  l.zipIdx.map fun y => (hop n ++ [.item y.2], f y.1)

/-- The elements of an optional list. -/
def manyAt {α : Type} (n : String) (f : α → Elem) (x : Option (List α)) : List (Place × Elem) :=
  listAt n f (x.getD [])

/-- The elements of an optional list, without those that are equal to an earlier one. -/
def firstAt {α : Type} [DecidableEq α] (n : String) (f : α → Elem) (x : Option (List α)) :
    List (Place × Elem) :=
  ((x.getD []).zipIdx.filter fun y => y.1 ∉ (x.getD []).take y.2).map fun y =>
    (hop n ++ [.item y.2], f y.1)

/-- Parts below a field. -/
def below (n : String) (l : List (Place × Elem)) : List (Place × Elem) :=
  l.map fun y => (hop n ++ y.1, y.2)

/-- Parts below position 0 of a field. -/
def soleAt (n : String) (l : List (Place × Elem)) : List (Place × Elem) :=
  l.map fun y => (hop n ++ .item 0 :: y.1, y.2)

/-- The required field of a workflow input. -/
def inputAt : RequiredInputField → List (Place × Elem)
  | .resource r => oneAt "resource" (.resourceReference r)
  | .parameters _ => []
  | .environmentVars _ => []
  | .data a => oneAt "data" (.attachment a)

/-- The required field of a workflow output. -/
def outputAt : RequiredOutputField → List (Place × Elem)
  | .resource r => oneAt "resource" (.resourceReference r)
  | .environmentVars _ => []
  | .data a => oneAt "data" (.attachment a)

/-- The places of the parts of an element that validation for a version looks at. Before 1.5,
validation does not look into formulas and into tools that are given as an object. -/
def Elem.located : SpecVersion → Elem → List (Place × Elem)
  | _, .attachedText x => optAt "content_type" .normalizedString x.contentType
  | _, .attachment x => optAt "encoding" .attachmentEncoding x.encoding
  | _, .organizationalContact x => optAt "bom-ref" .bomRefAttribute x.bomRef ++
      optAt "name" .normalizedString x.name ++ optAt "email" .normalizedString x.email ++
      optAt "phone" .normalizedString x.phone
  | _, .organizationalEntity x => optAt "name" .normalizedString x.name ++
      manyAt "url" .uri x.url ++ manyAt "contact" .organizationalContact x.contact
  | _, .property x => oneAt "value" (.normalizedString x.value)
  | _, .hash x => oneAt "alg" (.hashAlgorithm x.alg) ++ oneAt "content" (.hashValue x.content)
  | _, .externalReference x => oneAt "external_reference_type" (.externalReferenceType x.externalReferenceType) ++
      oneAt "url" (.refUri x.url) ++ soleAt "hashes" (manyAt "inner" .hash x.hashes)
  | _, .licensing x => manyAt "alt_ids" .normalizedString x.altIds ++
      optAt "licensor" .licenseContact x.licensor ++ optAt "licensee" .licenseContact x.licensee ++
      optAt "purchaser" .licenseContact x.purchaser ++
      manyAt "license_types" .licenseType x.licenseTypes ++
      optAt "last_renewal" .dateTime x.lastRenewal ++ optAt "expiration" .dateTime x.expiration
  | _, .license x => oneAt "license_identifier" (.licenseIdentifier x.licenseIdentifier) ++
      optAt "text" .attachedText x.text ++ optAt "url" .uri x.url ++
      optAt "licensing" .licensing x.licensing ++
      below "properties" (manyAt "inner" .property x.properties)
  | _, .identifiableAction x => optAt "timestamp" .dateTime x.timestamp ++
      optAt "name" .normalizedString x.name ++ optAt "email" .normalizedString x.email
  | _, .commit x => optAt "uid" .normalizedString x.uid ++ optAt "url" .uri x.url ++
      optAt "author" .identifiableAction x.author ++
      optAt "committer" .identifiableAction x.committer ++
      optAt "message" .normalizedString x.message
  | _, .diff x => optAt "text" .attachedText x.text ++ optAt "url" .uri x.url
  | _, .source x => optAt "name" .normalizedString x.name ++ optAt "url" .uri x.url
  | _, .issue x => oneAt "issue_type" (.issueClassification x.issueType) ++
      optAt "id" .normalizedString x.id ++ optAt "name" .normalizedString x.name ++
      optAt "description" .normalizedString x.description ++ optAt "source" .source x.source ++
      manyAt "references" .uri x.references
  | _, .patch x => oneAt "patch_type" (.patchClassification x.patchType) ++
      optAt "diff" .diff x.diff ++ manyAt "resolves" .issue x.resolves
  | _, .signer x => oneAt "algorithm" (.algorithm x.algorithm)
  | _, .dataGovernance x => manyAt "custodians" .dataGovernanceResponsibleParty x.custodians ++
      manyAt "stewards" .dataGovernanceResponsibleParty x.stewards ++
      manyAt "owners" .dataGovernanceResponsibleParty x.owners
  | _, .graphic x => optAt "image" .attachment x.image
  | _, .graphicsCollection x => manyAt "collection" .graphic x.collection
  | _, .dataContents x => optAt "attachment" .attachment x.attachment ++ optAt "url" .uri x.url ++
      below "properties" (manyAt "inner" .property x.properties)
  | _, .componentData x => oneAt "type" (.componentDataType x.dataType) ++
      optAt "contents" .dataContents x.contents ++
      optAt "graphics" .graphicsCollection x.graphics ++
      optAt "governance" .dataGovernance x.governance
  | _, .modelParametersApproach x => optAt "type" .approachType x.approachType
  | _, .modelParameters x => optAt "approach" .modelParametersApproach x.approach ++
      below "datasets" (manyAt "inner" .dataset x.datasets)
  | _, .quantitativeAnalysis x => optAt "graphics" .graphicsCollection x.graphics
  | _, .modelCard x => optAt "model_parameters" .modelParameters x.modelParameters ++
      optAt "quantitative_analysis" .quantitativeAnalysis x.quantitativeAnalysis ++
      below "properties" (manyAt "inner" .property x.properties)
  | _, .swid x => optAt "text" .attachedText x.text ++ optAt "url" .uri x.url
  | _, .occurrence x => optAt "bom-ref" .bomRefAttribute x.bomRef
  | _, .frame x => optAt "package" .normalizedString x.package ++
      oneAt "module" (.normalizedString x.module) ++
      optAt "function" .normalizedString x.function ++
      manyAt "parameters" .normalizedString x.parameters ++
      optAt "full_filename" .normalizedString x.fullFilename
  | _, .identity x => oneAt "field" (.identityField x.field) ++
      optAt "confidence" .confidence x.confidence
  | _, .componentEvidence x => optAt "licenses" .licenses x.licenses ++
      below "occurrences" (manyAt "inner" .occurrence x.occurrences) ++
      optAt "callstack" .callstack x.callstack ++ optAt "identity" .identity x.identity
  | _, .component x => oneAt "component_type" (.classification x.componentType) ++
      optAt "mime_type" .mimeType x.mimeType ++
      optAt "supplier" .organizationalEntity x.supplier ++
      optAt "author" .normalizedString x.author ++
      optAt "publisher" .normalizedString x.publisher ++ optAt "group" .normalizedString x.group ++
      oneAt "name" (.normalizedString x.name) ++ optAt "version" .normalizedString x.version ++
      optAt "description" .normalizedString x.description ++ optAt "scope" .scope x.scope ++
      below "hashes" (manyAt "inner" .hash x.hashes) ++ optAt "licenses" .licenses x.licenses ++
      optAt "copyright" .normalizedString x.copyright ++ optAt "cpe" .cpe x.cpe ++
      optAt "purl" .purl x.purl ++ optAt "swid" .swid x.swid ++
      optAt "pedigree" .pedigree x.pedigree ++
      below "external_references" (manyAt "inner" .externalReference x.externalReferences) ++
      below "properties" (manyAt "inner" .property x.properties) ++
      below "components" (manyAt "inner" .component x.components) ++
      optAt "evidence" .componentEvidence x.evidence
  | _, .pedigree x => below "ancestors" (manyAt "inner" .component x.ancestors) ++
      below "descendants" (manyAt "inner" .component x.descendants) ++
      below "variants" (manyAt "inner" .component x.variants) ++
      below "commits" (manyAt "inner" .commit x.commits) ++
      below "patches" (manyAt "inner" .patch x.patches)
  | _, .dataClassification x => oneAt "flow" (.dataFlowType x.flow) ++
      oneAt "classification" (.normalizedString x.classification)
  | _, .serviceData x => optAt "name" .normalizedString x.name ++
      optAt "description" .normalizedString x.description ++
      oneAt "classification" (.dataClassification x.classification) ++
      optAt "governance" .dataGovernance x.governance ++ manyAt "source" .uri x.source ++
      manyAt "destination" .uri x.destination
  | _, .service x => optAt "provider" .organizationalEntity x.provider ++
      optAt "group" .normalizedString x.group ++ oneAt "name" (.normalizedString x.name) ++
      optAt "version" .normalizedString x.version ++
      optAt "description" .normalizedString x.description ++ manyAt "endpoints" .uri x.endpoints ++
      optAt "data" .serviceDataChoice x.data ++ optAt "licenses" .licenses x.licenses ++
      below "external_references" (manyAt "inner" .externalReference x.externalReferences) ++
      below "properties" (manyAt "inner" .property x.properties) ++
      below "services" (manyAt "inner" .service x.services) ++
      optAt "trust_zone" .normalizedString x.trustZone
  | _, .tool x => optAt "vendor" .normalizedString x.vendor ++
      optAt "name" .normalizedString x.name ++ optAt "version" .normalizedString x.version ++
      soleAt "hashes" (manyAt "inner" .hash x.hashes) ++
      below "external_references" (manyAt "inner" .externalReference x.externalReferences)
  | _, .metadata x => optAt "timestamp" .dateTime x.timestamp ++
      soleAt "tools" (optAt "" .tools x.tools) ++
      manyAt "authors" .organizationalContact x.authors ++
      optAt "component" .component x.component ++
      optAt "manufacture" .organizationalEntity x.manufacture ++
      optAt "supplier" .organizationalEntity x.supplier ++
      soleAt "licenses" (optAt "" .licenses x.licenses) ++
      soleAt "properties" (manyAt "inner" .property x.properties)
  | _, .composition x => oneAt "aggregate" (.aggregateType x.aggregate) ++
      optAt "signature" .signature x.signature
  | _, .advisory x => optAt "title" .normalizedString x.title ++ oneAt "url" (.uri x.url)
  | _, .vulnerabilitySource x => optAt "name" .normalizedString x.name ++ optAt "url" .uri x.url
  | _, .vulnerabilityReference x => oneAt "id" (.normalizedString x.id) ++
      oneAt "vulnerability_source" (.vulnerabilitySource x.vulnerabilitySource)
  | _, .vulnerabilityRating x => optAt "vulnerability_source" .vulnerabilitySource x.vulnerabilitySource ++
      optAt "severity" .severity x.severity ++ optAt "score_method" .scoreMethod x.scoreMethod ++
      optAt "vector" .normalizedString x.vector
  | _, .vulnerabilityCredits x => manyAt "organizations" .organizationalEntity x.organizations ++
      manyAt "individuals" .organizationalContact x.individuals
  | _, .vulnerabilityAnalysis x => optAt "state" .impactAnalysisState x.state ++
      optAt "justification" .impactAnalysisJustification x.justification ++
      manyAt "responses" .impactAnalysisResponse x.responses ++
      optAt "first_issued" .dateTime x.firstIssued
  | _, .targetVersion x => oneAt "version_range" (.versionRange x.versionRange) ++
      oneAt "status" (.status x.status)
  | _, .vulnerabilityTarget x => below "versions" (manyAt "inner" .targetVersion x.versions)
  | _, .vulnerability x => optAt "id" .normalizedString x.id ++
      optAt "vulnerability_source" .vulnerabilitySource x.vulnerabilitySource ++
      soleAt "vulnerability_references" (manyAt "inner" .vulnerabilityReference x.vulnerabilityReferences) ++
      soleAt "vulnerability_ratings" (manyAt "inner" .vulnerabilityRating x.vulnerabilityRatings) ++
      soleAt "advisories" (manyAt "inner" .advisory x.advisories) ++
      optAt "created" .dateTime x.created ++ optAt "published" .dateTime x.published ++
      optAt "updated" .dateTime x.updated ++
      optAt "vulnerability_credits" .vulnerabilityCredits x.vulnerabilityCredits ++
      optAt "tools" .tools x.tools ++
      optAt "vulnerability_analysis" .vulnerabilityAnalysis x.vulnerabilityAnalysis ++
      below "vulnerability_targets" (manyAt "inner" .vulnerabilityTarget x.vulnerabilityTargets) ++
      below "properties" (manyAt "inner" .property x.properties)
  | _, .annotation x => oneAt "timestamp" (.dateTime x.timestamp) ++
      oneAt "annotator" (.annotator x.annotator)
  | _, .input x => inputAt x.required ++ optAt "source" .resourceReference x.source ++
      optAt "target" .resourceReference x.target ++
      below "properties" (manyAt "inner" .property x.properties)
  | _, .output x => outputAt x.required ++ optAt "type" .outputType x.type ++
      optAt "source" .resourceReference x.source ++ optAt "target" .resourceReference x.target ++
      below "properties" (manyAt "inner" .property x.properties)
  | _, .command x => below "properties" (manyAt "inner" .property x.properties)
  | _, .step x => manyAt "commands" .command x.commands ++
      below "properties" (manyAt "inner" .property x.properties)
  | _, .triggerEvent x => optAt "time_received" .dateTime x.timeReceived ++
      optAt "data" .attachment x.data ++ optAt "source" .resourceReference x.source ++
      optAt "target" .resourceReference x.target ++
      below "properties" (manyAt "inner" .property x.properties)
  | _, .condition x => below "properties" (manyAt "inner" .property x.properties)
  | _, .trigger x => oneAt "bom_ref" (.bomRefAttribute x.bomRef) ++
      manyAt "resource_reference" .resourceReference x.resourceReferences ++
      oneAt "type" (.triggerType x.type) ++ optAt "event" .triggerEvent x.event ++
      firstAt "conditions" .condition x.conditions ++
      optAt "time_activated" .dateTime x.timeActivated ++ firstAt "inputs" .input x.inputs ++
      firstAt "outputs" .output x.outputs ++
      below "properties" (manyAt "inner" .property x.properties)
  | _, .volume x => oneAt "mode" (.volumeMode x.mode)
  | _, .workspace x => firstAt "resource_references" .resourceReference x.resourceReferences ++
      optAt "access_mode" .accessMode x.accessMode
  | _, .workflowTask x => manyAt "resource_references" .resourceReference x.resourceReferences ++
      listAt "task_types" .taskType x.taskTypes ++ optAt "trigger" .trigger x.trigger ++
      firstAt "steps" .step x.steps ++ firstAt "inputs" .input x.inputs ++
      firstAt "outputs" .output x.outputs ++ optAt "time_start" .dateTime x.timeStart ++
      optAt "time_end" .dateTime x.timeEnd ++ firstAt "workspaces" .workspace x.workspaces
  | _, .workflow x => manyAt "resource_references" .resourceReference x.resourceReferences ++
      firstAt "tasks" .workflowTask x.tasks ++ listAt "task_types" .taskType x.taskTypes ++
      optAt "trigger" .trigger x.trigger ++ firstAt "steps" .step x.steps ++
      firstAt "inputs" .input x.inputs ++ firstAt "outputs" .output x.outputs ++
      optAt "time_start" .dateTime x.timeStart ++ optAt "time_end" .dateTime x.timeEnd ++
      firstAt "workspaces" .workspace x.workspaces
  | _, .callstack x => listAt "frames" .frame x.frames
  | v, .formula x => if v = .v1_5 then
      firstAt "components" .component x.components ++ firstAt "services" .service x.services ++
        firstAt "workflows" .workflow x.workflows ++
        below "properties" (manyAt "inner" .property x.properties)
      else []
  | _, .bom x => optAt "serial_number" .serialNumber x.serialNumber ++
      optAt "metadata" .metadata x.metadata ++
      below "components" (manyAt "inner" .component x.components) ++
      below "services" (manyAt "inner" .service x.services) ++
      below "external_references" (manyAt "inner" .externalReference x.externalReferences) ++
      below "compositions" (manyAt "composition" .composition x.compositions) ++
      below "properties" (manyAt "inner" .property x.properties) ++
      below "vulnerabilities" (manyAt "inner" .vulnerability x.vulnerabilities)
  | _, .licenseIdentifier (.spdxId i) => oneAt "SpdxId" (.spdxId i)
  | _, .licenseIdentifier (.name n) => oneAt "Name" (.normalizedString n)
  | _, .licenseContact (.organization o) => oneAt "" (.organizationalEntity o)
  | _, .licenseContact (.contact c) => oneAt "" (.organizationalContact c)
  | _, .licenseChoice (.license l) => oneAt "license" (.license l)
  | _, .licenseChoice (.expression e) => oneAt "expression" (.spdxExpression e)
  | _, .licenses l => listAt "inner" .licenseChoice l
  | _, .signature (.signers l) => listAt "Signers" .signer l
  | _, .signature (.chain l) => listAt "Chain" .signer l
  | _, .signature (.single s) => oneAt "Single" (.signer s)
  | _, .dataGovernanceResponsibleParty (.organization o) => oneAt "" (.organizationalEntity o)
  | _, .dataGovernanceResponsibleParty (.contact c) => oneAt "" (.organizationalContact c)
  | _, .dataset (.component c) => oneAt "" (.componentData c)
  | _, .dataset (.reference _) => []
  | _, .serviceDataChoice (.serviceData l) => listAt "inner" .serviceData l
  | _, .serviceDataChoice (.classification l) => listAt "inner" .dataClassification l
  | _, .tools (.list l) => listAt "inner" .tool l
  | v, .tools (.object services components) => if v = .v1_5 then
      below "components" (manyAt "inner" .component components) ++
        below "services" (manyAt "inner" .service services)
      else []
  | _, .annotator (.organization o) => oneAt "organization" (.organizationalEntity o)
  | _, .annotator (.individual c) => oneAt "contact" (.organizationalContact c)
  | _, .annotator (.component c) => oneAt "component" (.component c)
  | _, .annotator (.service s) => oneAt "service" (.service s)
  | _, .resourceReference (.ref _) => []
  | _, .resourceReference (.externalReference e) => oneAt "external_reference" (.externalReference e)
  | _, _ => []

/-- The place of an element of a list that is equal to an earlier one. -/
def Again {α : Type} (n : String) (x : Option (List α)) (p : Place) : Prop :=
  ∃ i y, (x.getD [])[i]? = some y ∧ y ∈ (x.getD []).take i ∧ p = hop n ++ [.item i]

/-- The places below an element at which a violation of its own is: for most elements the
element as a whole. -/
def Elem.fault (E : VEnv) (v : SpecVersion) : Elem → Place → Prop
  | .attachedText x, p =>
      x.encoding = some .base64 ∧ (¬ ∃ bytes, IsBase64 bytes x.content.toList) ∧
        p = [.field "content"] ∨
      (∃ s, x.encoding = some (.unknownEncoding s)) ∧ p = [.field "encoding"]
  | .licenses x, p => ¬ (Elem.licenses x).rule E v ∧ p = [.field "licenses"]
  | .tools x, p => ¬ (Elem.tools x).rule E v ∧ p = [.field "inner"]
  | .trigger x, p => Again "conditions" x.conditions p ∨ Again "inputs" x.inputs p ∨
      Again "outputs" x.outputs p
  | .workspace x, p => Again "resource_references" x.resourceReferences p
  | .workflowTask x, p => Again "steps" x.steps p ∨ Again "inputs" x.inputs p ∨
      Again "outputs" x.outputs p ∨ Again "workspaces" x.workspaces p ∨
      Again "runtime_topology" x.runtimeTopology p
  | .workflow x, p => Again "tasks" x.tasks p ∨
      Again "task_dependencies" x.taskDependencies p ∨ Again "steps" x.steps p ∨
      Again "inputs" x.inputs p ∨ Again "outputs" x.outputs p ∨
      Again "workspaces" x.workspaces p ∨ Again "runtime_topology" x.runtimeTopology p
  | .formula x, p => v ≠ .v1_5 ∧ p = [] ∨
      v = .v1_5 ∧ (Again "components" x.components p ∨ Again "services" x.services p ∨
        Again "workflows" x.workflows p)
  | .bom x, p =>
      ¬ x.refs.Nodup ∧ p = [.field "bom_ref"] ∨
      (∃ d ∈ x.dependencies.getD [], d.dependencyRef ∉ x.refs) ∧ p = [.field "dependency_ref"] ∨
      (∃ d ∈ x.dependencies.getD [], ∃ r ∈ d.dependencies, r ∉ x.refs) ∧
        p = [.field "sub dependency_ref"] ∨
      (∃ c ∈ x.compositions.getD [], ¬ CompositionKnown x c) ∧ p = [.field "composition ref"]
  | e, p => ¬ e.rule E v ∧ p = []

/-- `Leads v a q b`: the place `q` below `a` is the place of `b`. -/
inductive Leads (v : SpecVersion) : Elem → Place → Elem → Prop
  | here (e : Elem) : Leads v e [] e
  | part {a b c : Elem} {p q : Place} :
      (p, b) ∈ a.located v → Leads v b q c → Leads v a (p ++ q) c

/-- The place `p` below `a` is the place of a violation: of an element somewhere in `a`, whose
place comes first, and of a place below that element. -/
def Wrong (E : VEnv) (v : SpecVersion) (a : Elem) (p : Place) : Prop :=
  ∃ q b s, Leads v a q b ∧ b.fault E v s ∧ p = q ++ s

end Cdx.Spec
