import Verif.Spec.Tree
import Verif.Model.Xml

/-!
# Where the fields of a document are in XML

`Spec.layouts` is a table with one row for every structure: its fields, in the order in which they are
in a document, and the `Form` in which each of them is written. Fields that are not in the table are not
written. `Spec.variants` says how the variants of choices are written. `Spec.xml` turns a tree of fields
(`Spec.Tree`) into XML with these tables.

The tables say what the code does. Two rows are plainly wrong: the content type of an attachment and the
description of a data flow are written under the name of another attribute (`C90_clash`). Where else the
result differs from the schema of the format is the subject of C86.
-/

namespace Cdx.Spec

/-- How the value of a field is written. -/
inductive Form where
  /-- As an attribute of the element. -/
  | attribute (name : String)
  /-- As the text of the element. -/
  | content
  /-- As the text of the element, in a CDATA section. -/
  | cdata
  /-- As an element. -/
  | child (tag : String)
  /-- As an element, but only if one of these fields has a value. -/
  | childIf (fields : List String) (tag : String)
  /-- As an element that is empty if the field has no value. -/
  | always (tag : String)
  /-- As an empty element with an attribute `ref`. -/
  | ref (tag : String)
  /-- As an element that contains the items. -/
  | list (tag : String) (item : Form)
  /-- As one element for every item. -/
  | each (item : Form)
  deriving DecidableEq

/-- How a variant is written, if it is not written like its content. -/
inductive Variant where
  /-- As an element with another name. -/
  | named (tag : String)
  /-- As an element with the content inside. -/
  | inside (form : Form)
  deriving DecidableEq

/-- The structures. -/
def layouts : List (String × List (String × Form)) :=
  [("AttachedText", [("contentType", .attribute "content-type"),
      ("encoding", .attribute "encoding"),
      ("content", .content)]),
   ("Property", [("name", .attribute "name"),
      ("value", .content)]),
   ("Hash", [("alg", .attribute "alg"),
      ("content", .content)]),
   ("OrganizationalContact", [("bomRef", .attribute "bom-ref"),
      ("name", .child "name"),
      ("email", .child "email"),
      ("phone", .child "phone")]),
   ("OrganizationalEntity", [("bomRef", .attribute "bom-ref"),
      ("name", .child "name"),
      ("url", .each (.child "url")),
      ("contact", .each (.childIf ["name", "email", "phone"] "contact"))]),
   ("ExternalReference", [("externalReferenceType", .attribute "type"),
      ("url", .child "url"),
      ("comment", .child "comment"),
      ("hashes", .list "hashes" (.child "hash"))]),
   ("VulnerabilitySource", [("name", .child "name"),
      ("url", .child "url")]),
   ("VulnerabilityReference", [("id", .child "id"),
      ("vulnerabilitySource", .child "source")]),
   ("Advisory", [("title", .child "title"),
      ("url", .child "url")]),
   ("VulnerabilityCredits", [("organizations", .list "organizations" (.childIf ["name", "url", "contact"] "organization")),
      ("individuals", .list "individuals" (.childIf ["name", "email", "phone"] "individual"))]),
   ("Signer", [("algorithm", .child "algorithm"),
      ("value", .child "value")]),
   ("Dependency", [("dependencyRef", .attribute "ref"),
      ("dependencies", .each (.ref "dependency"))]),
   ("Composition", [("bomRef", .attribute "bom-ref"),
      ("aggregate", .child "aggregate"),
      ("assemblies", .list "assemblies" (.ref "assembly")),
      ("dependencies", .list "dependencies" (.ref "dependency")),
      ("vulnerabilities", .list "vulnerabilities" (.ref "vulnerability")),
      ("signature", .child "signature")]),
   ("IdentifiableAction", [("timestamp", .child "timestamp"),
      ("name", .child "name"),
      ("email", .child "email")]),
   ("Commit", [("uid", .child "uid"),
      ("url", .child "url"),
      ("author", .child "author"),
      ("committer", .child "committer"),
      ("message", .child "message")]),
   ("Diff", [("text", .child "text"),
      ("url", .child "url")]),
   ("Source", [("name", .child "name"),
      ("url", .child "url")]),
   ("Issue", [("issueType", .attribute "type"),
      ("id", .child "id"),
      ("name", .child "name"),
      ("description", .child "description"),
      ("source", .childIf ["name", "url"] "source"),
      ("references", .list "references" (.child "url"))]),
   ("Patch", [("patchType", .attribute "type"),
      ("diff", .childIf ["text", "url"] "diff"),
      ("resolves", .list "resolves" (.child "issue"))]),
   ("VulnerabilityAnalysis", [("state", .child "state"),
      ("justification", .child "justification"),
      ("responses", .list "responses" (.child "response")),
      ("detail", .child "detail"),
      ("firstIssued", .child "firstIssued"),
      ("lastUpdated", .child "lastUpdated")]),
   ("TargetVersion", [("version", .child "version"),
      ("range", .child "range"),
      ("status", .child "status")]),
   ("VulnerabilityTarget", [("bomRef", .child "ref"),
      ("versions", .list "versions" (.child "version"))]),
   ("License", [("bomRef", .attribute "bom-ref"),
      ("spdxId", .child "id"),
      ("name", .child "name"),
      ("text", .child "text"),
      ("url", .child "url"),
      ("properties", .list "properties" (.child "property"))]),
   ("SpdxExpression", [("bomRef", .attribute "bom-ref"),
      ("expression", .content)]),
   ("VulnerabilityRating", [("vulnerabilitySource", .child "source"),
      ("score", .child "score"),
      ("severity", .child "severity"),
      ("scoreMethod", .child "method"),
      ("vector", .child "vector"),
      ("justification", .child "justification")]),
   ("ComponentEvidence", [("licenses", .list "licenses" (.child "license")),
      ("copyright", .list "copyright" (.child "text"))]),
   ("DataGovernance", [("owners", .list "owners" (.child "owner")),
      ("custodians", .list "custodians" (.child "custodian")),
      ("stewards", .list "stewards" (.child "steward"))]),
   ("Attachment", [("encoding", .attribute "encoding"),
      ("contentType", .attribute "encoding"),
      ("content", .content)]),
   ("Graphic", [("name", .child "name"),
      ("image", .child "image")]),
   ("GraphicsCollection", [("description", .child "description"),
      ("collection", .list "collection" (.child "graphic"))]),
   ("DataContents", [("attachment", .child "attachment"),
      ("url", .child "url"),
      ("properties", .list "properties" (.child "property"))]),
   ("ComponentData", [("bomRef", .attribute "bom-ref"),
      ("dataType", .child "type"),
      ("name", .child "name"),
      ("contents", .child "contents"),
      ("classification", .child "classification"),
      ("sensitiveData", .child "sensitiveData"),
      ("graphics", .child "graphics"),
      ("description", .child "description"),
      ("governance", .child "governance")]),
   ("ModelParametersApproach", [("approachType", .child "type")]),
   ("MLParameter", [("format", .child "format")]),
   ("ModelParameters", [("approach", .child "approach"),
      ("task", .child "task"),
      ("architectureFamily", .child "architectureFamily"),
      ("modelArchitecture", .child "modelArchitecture"),
      ("datasets", .list "datasets" (.child "dataset")),
      ("inputs", .list "inputs" (.child "input")),
      ("outputs", .list "outputs" (.child "output"))]),
   ("ConfidenceInterval", [("lowerBound", .child "lowerBound"),
      ("upperBound", .child "upperBound")]),
   ("PerformanceMetric", [("metricType", .child "type"),
      ("value", .child "value"),
      ("slice", .child "slice"),
      ("confidenceInterval", .child "confidenceInterval")]),
   ("QuantitativeAnalysis", [("performanceMetrics", .list "performanceMetrics" (.child "performanceMetric")),
      ("graphics", .child "graphics")]),
   ("Considerations", []),
   ("ModelCard", [("bomRef", .attribute "bom-ref"),
      ("modelParameters", .child "modelParameters"),
      ("quantitativeAnalysis", .child "quantitativeAnalysis"),
      ("considerations", .child "considerations"),
      ("properties", .list "properties" (.child "property"))]),
   ("DataClassification", [("flow", .attribute "flow"),
      ("classification", .content)]),
   ("ServiceData", [("name", .attribute "name"),
      ("description", .attribute "name"),
      ("classification", .child "classification"),
      ("governance", .child "governance"),
      ("source", .list "source" (.child "url")),
      ("destination", .list "destination" (.child "url"))]),
   ("Swid", [("tagId", .attribute "tagId"),
      ("name", .attribute "name"),
      ("version", .attribute "version"),
      ("tagVersion", .attribute "tagVersion"),
      ("patch", .attribute "patch"),
      ("text", .child "text"),
      ("url", .child "url")]),
   ("Pedigree", [("ancestors", .list "ancestors" (.child "component")),
      ("descendants", .list "descendants" (.child "component")),
      ("variants", .list "variants" (.child "component")),
      ("commits", .list "commits" (.child "commit")),
      ("patches", .list "patches" (.child "patch")),
      ("notes", .child "notes")]),
   ("Component", [("componentType", .attribute "type"),
      ("mimeType", .attribute "mime-type"),
      ("bomRef", .attribute "bom-ref"),
      ("supplier", .childIf ["name", "url", "contact"] "supplier"),
      ("author", .child "author"),
      ("publisher", .child "publisher"),
      ("group", .child "group"),
      ("name", .child "name"),
      ("version", .child "version"),
      ("description", .child "description"),
      ("scope", .child "scope"),
      ("hashes", .list "hashes" (.child "hash")),
      ("licenses", .list "licenses" (.child "license")),
      ("copyright", .child "copyright"),
      ("cpe", .child "cpe"),
      ("purl", .child "purl"),
      ("swid", .child "swid"),
      ("modified", .child "modified"),
      ("pedigree", .child "pedigree"),
      ("externalReferences", .list "externalReferences" (.child "reference")),
      ("properties", .list "properties" (.child "property")),
      ("components", .list "components" (.child "component")),
      ("evidence", .childIf ["licenses", "copyright"] "evidence"),
      ("signature", .child "signature"),
      ("modelCard", .child "modelCard"),
      ("data", .child "data")]),
   ("Service", [("bomRef", .attribute "bom-ref"),
      ("provider", .child "provider"),
      ("group", .child "group"),
      ("name", .child "name"),
      ("version", .child "version"),
      ("description", .child "description"),
      ("endpoints", .list "endpoints" (.child "endpoint")),
      ("authenticated", .child "authenticated"),
      ("xTrustBoundary", .child "x-trust-boundary"),
      ("data", .child "data"),
      ("licenses", .list "licenses" (.child "license")),
      ("externalReferences", .list "externalReferences" (.child "reference")),
      ("properties", .list "properties" (.child "property")),
      ("services", .list "services" (.child "service")),
      ("signature", .child "signature"),
      ("trustZone", .child "trustZone")]),
   ("Tool", [("vendor", .child "vendor"),
      ("name", .child "name"),
      ("version", .child "version"),
      ("hashes", .list "hashes" (.child "hash")),
      ("externalReferences", .list "externalReferences" (.child "reference"))]),
   ("Tools", [("services", .list "services" (.child "service")),
      ("components", .list "components" (.child "component"))]),
   ("Metadata", [("timestamp", .child "timestamp"),
      ("tools", .child "tools"),
      ("authors", .list "authors" (.childIf ["name", "email", "phone"] "author")),
      ("component", .child "component"),
      ("manufacture", .child "manufacture"),
      ("supplier", .child "supplier"),
      ("licenses", .list "licenses" (.child "license")),
      ("properties", .list "properties" (.child "property")),
      ("lifecycles", .list "lifecycles" (.child "lifecycle"))]),
   ("Vulnerability", [("bomRef", .attribute "bom-ref"),
      ("id", .child "id"),
      ("vulnerabilitySource", .child "source"),
      ("vulnerabilityReferences", .list "references" (.child "reference")),
      ("vulnerabilityRatings", .list "ratings" (.child "rating")),
      ("cwes", .list "cwes" (.child "cwe")),
      ("description", .child "description"),
      ("detail", .always "detail"),
      ("recommendation", .child "recommendation"),
      ("advisories", .list "advisories" (.child "advisory")),
      ("created", .child "created"),
      ("published", .child "published"),
      ("updated", .child "updated"),
      ("rejected", .child "rejected"),
      ("vulnerabilityCredits", .child "credits"),
      ("tools", .child "tools"),
      ("vulnerabilityAnalysis", .child "analysis"),
      ("vulnerabilityTargets", .list "affects" (.child "target")),
      ("properties", .list "properties" (.child "property")),
      ("workaround", .child "workaround")]),
   ("EnvironmentVar", [("name", .attribute "name"),
      ("value", .content)]),
   ("Parameter", [("name", .child "name"),
      ("value", .child "value"),
      ("dataType", .child "dataType")]),
   ("Input", [("resource", .child "resource"),
      ("parameters", .list "parameters" (.child "parameter")),
      ("environmentVars", .list "environmentVars" (.child "environmentVar")),
      ("data", .child "data"),
      ("source", .child "source"),
      ("target", .child "target"),
      ("properties", .list "properties" (.child "property"))]),
   ("Output", [("resource", .child "resource"),
      ("environmentVars", .list "environmentVars" (.child "environmentVar")),
      ("data", .child "data"),
      ("type", .child "type"),
      ("source", .child "source"),
      ("target", .child "target"),
      ("properties", .list "properties" (.child "property"))]),
   ("Command", [("executed", .child "executed"),
      ("properties", .list "properties" (.child "property"))]),
   ("Step", [("commands", .list "commands" (.child "command")),
      ("description", .child "description"),
      ("name", .child "name"),
      ("properties", .list "properties" (.child "property"))]),
   ("TriggerEvent", [("uid", .child "uid"),
      ("description", .child "description"),
      ("timeReceived", .child "timeReceived"),
      ("data", .child "data"),
      ("source", .child "source"),
      ("target", .child "target"),
      ("properties", .list "properties" (.child "property"))]),
   ("Condition", [("description", .child "description"),
      ("expression", .child "expression"),
      ("properties", .list "properties" (.child "property"))]),
   ("Trigger", [("bomRef", .attribute "bom-ref"),
      ("uid", .child "uid"),
      ("name", .child "name"),
      ("description", .child "description"),
      ("resourceReferences", .list "resourceReferences" (.child "resourceReference")),
      ("type", .child "type"),
      ("event", .child "event"),
      ("conditions", .list "conditions" (.child "condition")),
      ("timeActivated", .child "timeActivated"),
      ("inputs", .list "inputs" (.child "input")),
      ("outputs", .list "outputs" (.child "output")),
      ("properties", .list "properties" (.child "property"))]),
   ("Volume", [("uid", .child "uid"),
      ("name", .child "name"),
      ("mode", .child "mode"),
      ("path", .child "path"),
      ("sizeAllocated", .child "sizeAllocated"),
      ("persistent", .child "persistent"),
      ("remote", .child "remote"),
      ("properties", .list "properties" (.child "property"))]),
   ("Workspace", [("bomRef", .attribute "bom-ref"),
      ("uid", .child "uid"),
      ("name", .child "name"),
      ("aliases", .list "aliases" (.child "alias")),
      ("description", .child "description"),
      ("resourceReferences", .list "resourceReferences" (.child "resourceReference")),
      ("accessMode", .child "accessMode"),
      ("mountPath", .child "mountPath"),
      ("managedDataType", .child "managedDataType"),
      ("volumeRequest", .child "volumeRequest"),
      ("volume", .child "volume"),
      ("properties", .list "properties" (.child "property"))]),
   ("WorkflowTask", [("bomRef", .attribute "bom-ref"),
      ("uid", .child "uid"),
      ("name", .child "name"),
      ("description", .child "description"),
      ("resourceReferences", .list "resourceReferences" (.child "resourceReference")),
      ("trigger", .child "trigger"),
      ("steps", .list "steps" (.child "step")),
      ("inputs", .list "inputs" (.child "input")),
      ("outputs", .list "outputs" (.child "output")),
      ("timeStart", .child "timeStart"),
      ("timeEnd", .child "timeEnd"),
      ("workspaces", .list "workspaces" (.child "workspace")),
      ("runtimeTopology", .list "runtimeTopology" (.child "dependency")),
      ("properties", .list "properties" (.child "property"))]),
   ("Workflow", [("bomRef", .attribute "bom-ref"),
      ("uid", .child "uid"),
      ("name", .child "name"),
      ("description", .child "description"),
      ("resourceReferences", .list "resourceReferences" (.child "resourceReference")),
      ("tasks", .list "tasks" (.child "task")),
      ("taskDependencies", .list "taskDependencies" (.child "dependency")),
      ("taskTypes", .list "taskTypes" (.child "taskType")),
      ("trigger", .child "trigger"),
      ("steps", .list "steps" (.child "step")),
      ("inputs", .list "inputs" (.child "input")),
      ("outputs", .list "outputs" (.child "output")),
      ("timeStart", .child "timeStart"),
      ("timeEnd", .child "timeEnd"),
      ("workspaces", .list "workspaces" (.child "workspace")),
      ("runtimeTopology", .list "runtimeTopology" (.child "dependency")),
      ("properties", .list "properties" (.child "property"))]),
   ("Formula", [("bomRef", .attribute "bom-ref"),
      ("components", .list "components" (.child "component")),
      ("services", .list "services" (.child "service")),
      ("workflows", .list "workflows" (.child "workflow")),
      ("properties", .list "properties" (.child "property"))]),
   ("Bom", [("serialNumber", .attribute "serialNumber"),
      ("version", .attribute "version"),
      ("metadata", .child "metadata"),
      ("components", .list "components" (.child "component")),
      ("services", .list "services" (.child "service")),
      ("externalReferences", .list "externalReferences" (.child "reference")),
      ("dependencies", .list "dependencies" (.child "dependency")),
      ("compositions", .list "compositions" (.child "composition")),
      ("properties", .list "properties" (.child "property")),
      ("vulnerabilities", .list "vulnerabilities" (.child "vulnerability")),
      ("formulation", .list "formulation" (.child "formula"))]),
   ("LifecycleDescription", [("name", .child "name"),
      ("description", .child "description")]),
   ("Copyright", [("text", .cdata)])]

/-- The variants of choices. -/
def variants : List ((String × String) × Variant) :=
  [(("Signature", "signers"), .inside (.list "signers" (.child "signer"))),
   (("Signature", "chain"), .inside (.list "chain" (.child "chain"))),
   (("LicenseChoice", "expression"), .named "expression"),
   (("DataGovernanceResponsibleParty", "organization"), .inside (.child "organization")),
   (("DataGovernanceResponsibleParty", "contact"), .inside (.child "contact")),
   (("Dataset", "reference"), .inside (.child "ref")),
   (("ServiceDataChoice", "serviceData"), .inside (.each (.child "dataflow"))),
   (("ServiceDataChoice", "classification"), .inside (.each (.child "classification"))),
   (("Lifecycle", "phase"), .inside (.child "phase")),
   (("Tools", "list"), .inside (.each (.child "tool"))),
   (("ResourceReference", "ref"), .inside (.child "ref")),
   (("ResourceReference", "externalReference"), .inside (.child "reference")),
   (("EnvironmentVar", "value"), .named "value")]

/-- The fields of a structure in a document. -/
def layout (type : String) : List (String × Form) := (layouts.lookup type).getD []

variable [F32Format]

/-- A value without parts as a text. -/
def Tree.asText : Tree → Option String
  | .text s => some s
  | .number n => some (toString n)
  | .decimal x => some (F32Format.display x)
  | .truth b => some (if b then "true" else "false")
  | .choice _ _ (.text s) => some s
  | _ => none

/-- The attributes of an element. -/
def attributes (slots : List (String × Form)) (fields : List (String × Tree)) : List (String × String) :=
  slots.filterMap fun p => match p.2 with
    | .attribute name => ((fields.lookup p.1).bind Tree.asText).map fun s => (name, s)
    | _ => none

/-- An element around something. -/
def around (tag : String) (content : List WEvent) : List WEvent := .start tag [] :: (content ++ [.stop])

/-- A value without parts. -/
def leaf (s : String) : Form → List WEvent
  | .content => [.chars s]
  | .cdata => [.cdata s]
  | .child tag => [.start tag [], .chars s, .stop]
  | .always tag => [.start tag [], .chars s, .stop]
  | .ref tag => [.start tag [("ref", s)], .stop]
  | _ => []

mutual

/-- A tree as XML. -/
def xml : Tree → Form → List WEvent
  | .text s, form => leaf s form
  | .number n, form => leaf (toString n) form
  | .decimal x, form => leaf (F32Format.display x) form
  | .truth b, form => leaf (if b then "true" else "false") form
  | .absent, _ => []
  | .items l, form =>
    match form with
    | .list tag item => around tag (xmlItems l item)
    | .each item => xmlItems l item
    | _ => []
  | .record type fields, form =>
    let element := fun tag => WEvent.start tag (attributes (layout type) fields) ::
      ((layout type).flatMap (fun slot => xmlField fields slot.1 slot.2) ++ [.stop])
    match form with
    | .child tag => element tag
    | .childIf names tag => if fields.any fun p => names.contains p.1 then element tag else []
    | _ => []
  | .choice type variant content, form =>
    match variants.lookup (type, variant) with
    | none => xml content form
    | some (.named tag) => xml content (.child tag)
    | some (.inside inner) =>
      match form with
      | .child tag => around tag (xml content inner)
      | _ => []

/-- Items one after the other. -/
def xmlItems : List Tree → Form → List WEvent
  | [], _ => []
  | t :: l, form => xml t form ++ xmlItems l form

/-- The field of this name, if it has a value. -/
def xmlField : List (String × Tree) → String → Form → List WEvent
  | [], _, form =>
    match form with
    | .always tag => [.start tag [], .chars "", .stop]
    | _ => []
  | (name, t) :: l, field, form => if name = field then xml t form else xmlField l field form

end

end Cdx.Spec
