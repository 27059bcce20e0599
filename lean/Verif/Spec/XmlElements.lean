import Verif.Model.Xml

/-!
# Specification: the elements of an XML document

Which child elements an element of a CycloneDX document may have and in which order, and which
attributes, for each version of the format.  Elements with one name and several meanings (`source`,
`data`, `reference`, `version`, ...) are one entry.  The table is written from the published format;
`scripts/elements.py` checks that every valid XML document under `cyclonedx-bom/tests/spec` follows it.

A second table lists what this library writes in another way.
-/

namespace Cdx.Spec

/-- A name that every version has. -/
abbrev one (n : String) : List (String × SpecVersion) := [(n, .v1_3)]

/-- A name since version 1.4. -/
abbrev one14 (n : String) : List (String × SpecVersion) := [(n, .v1_4)]

/-- A name since version 1.5. -/
abbrev one15 (n : String) : List (String × SpecVersion) := [(n, .v1_5)]

/-- The child elements of each element, in the order of the format; names in one group are alternatives
or may be in any order. -/
def formatChildren : List (String × List (List (String × SpecVersion))) :=
  [("bom", [one "metadata", one "components", one "services", one "externalReferences", one
     "dependencies", one "compositions", one15 "properties", one14 "vulnerabilities", one15
     "annotations", one15 "formulation"]),
   ("metadata", [one "timestamp", one15 "lifecycles", one "tools", one "authors", one "component",
     one "manufacture", one "supplier", one "licenses", one "properties"]),
   ("lifecycles", [one15 "lifecycle"]),
   ("lifecycle", [one15 "phase", one15 "name", one15 "description"]),
   ("tools", [one "tool", one15 "components", one15 "services"]),
   ("tool", [one "vendor", one "name", one "version", one "hashes", one14 "externalReferences"]),
   ("authors", [one "author"]),
   ("author", [one "timestamp", one "name", one "email", one "phone"]),
   ("committer", [one "timestamp", one "name", one "email"]),
   ("contact", [one "name", one "email", one "phone"]),
   ("individual", [one "name", one "email", one "phone"]),
   ("supplier", [one "name", one "url", one "contact"]),
   ("manufacture", [one "name", one "url", one "contact"]),
   ("provider", [one "name", one "url", one "contact"]),
   ("organization", [one "name", one "url", one "contact"]),
   ("component", [one "supplier", one "author", one "publisher", one "group", one "name", one
     "version", one "description", one "scope", one "hashes", one "licenses", one "copyright", one
     "cpe", one "purl", one "swid", one "modified", one "pedigree", one "externalReferences", one
     "properties", one "components", one "evidence", one14 "releaseNotes", one15 "modelCard",
     one15 "data"]),
   ("hashes", [one "hash"]),
   ("licenses", [[("license", .v1_3), ("expression", .v1_3)]]),
   ("license", [[("id", .v1_3), ("name", .v1_3)], one "text", one "url", one15 "licensing", one15
     "properties"]),
   ("licensing", [one15 "altIds", one15 "licensor", one15 "licensee", one15 "purchaser", one15
     "purchaseOrder", one15 "licenseTypes", one15 "lastRenewal", one15 "expiration"]),
   ("altIds", [one15 "altId"]),
   ("licenseTypes", [one15 "licenseType"]),
   ("licensor", [[("organization", .v1_5), ("individual", .v1_5)]]),
   ("licensee", [[("organization", .v1_5), ("individual", .v1_5)]]),
   ("purchaser", [[("organization", .v1_5), ("individual", .v1_5)]]),
   ("swid", [one "text", one "url"]),
   ("pedigree", [one "ancestors", one "descendants", one "variants", one "commits", one "patches",
     one "notes"]),
   ("ancestors", [one "component"]),
   ("descendants", [one "component"]),
   ("variants", [one "component"]),
   ("components", [one "component"]),
   ("commits", [one "commit"]),
   ("commit", [one "uid", one "url", one "author", one "committer", one "message"]),
   ("patches", [one "patch"]),
   ("patch", [one "diff", one "resolves"]),
   ("diff", [one "text", one "url"]),
   ("resolves", [one "issue"]),
   ("issue", [one "id", one "name", one "description", one "source", one "references"]),
   ("references", [[("url", .v1_3), ("reference", .v1_3)]]),
   ("externalReferences", [one "reference"]),
   ("reference", [one "url", one "comment", one "hashes", one "id", one "source"]),
   ("properties", [one "property"]),
   ("evidence", [one15 "identity", one15 "occurrences", one15 "callstack", one "licenses", one
     "copyright"]),
   ("identity", [one15 "field", one15 "confidence", one15 "methods", one15 "tools"]),
   ("methods", [one15 "method"]),
   ("method", [one15 "technique", one15 "confidence", one15 "value"]),
   ("occurrences", [one15 "occurrence"]),
   ("occurrence", [one15 "location"]),
   ("callstack", [one15 "frames"]),
   ("frames", [one15 "frame"]),
   ("frame", [one15 "package", one15 "module", one15 "function", one15 "parameters", one15 "line",
     one15 "column", one15 "fullFilename"]),
   ("copyright", [one "text"]),
   ("modelCard", [one15 "modelParameters", one15 "quantitativeAnalysis", one15 "considerations",
     one15 "properties"]),
   ("modelParameters", [one15 "approach", one15 "task", one15 "architectureFamily", one15
     "modelArchitecture", one15 "datasets", one15 "inputs", one15 "outputs"]),
   ("approach", [one15 "type"]),
   ("datasets", [[("dataset", .v1_5), ("ref", .v1_5)]]),
   ("dataset", [one15 "type", one15 "name", one15 "contents", one15 "classification", one15
     "sensitiveData", one15 "graphics", one15 "description", one15 "governance"]),
   ("inputs", [one15 "input"]),
   ("outputs", [one15 "output"]),
   ("input", [[("format", .v1_5), ("resource", .v1_5), ("parameters", .v1_5), ("environmentVars",
     .v1_5), ("data", .v1_5)], one15 "source", one15 "target", one15 "properties"]),
   ("output", [[("format", .v1_5), ("resource", .v1_5), ("environmentVars", .v1_5), ("data",
     .v1_5)], one15 "type", one15 "source", one15 "target", one15 "properties"]),
   ("quantitativeAnalysis", [one15 "performanceMetrics", one15 "graphics"]),
   ("performanceMetrics", [one15 "performanceMetric"]),
   ("performanceMetric", [one15 "type", one15 "value", one15 "slice", one15
     "confidenceInterval"]),
   ("confidenceInterval", [one15 "lowerBound", one15 "upperBound"]),
   ("graphics", [one15 "description", one15 "collection"]),
   ("collection", [one15 "graphic"]),
   ("graphic", [one15 "name", one15 "image"]),
   ("contents", [one15 "attachment", one15 "url", one15 "properties"]),
   ("governance", [[("custodians", .v1_5), ("stewards", .v1_5), ("owners", .v1_5)]]),
   ("custodians", [one15 "custodian"]),
   ("stewards", [one15 "steward"]),
   ("owners", [one15 "owner"]),
   ("custodian", [[("organization", .v1_5), ("contact", .v1_5)]]),
   ("steward", [[("organization", .v1_5), ("contact", .v1_5)]]),
   ("owner", [[("organization", .v1_5), ("contact", .v1_5)]]),
   ("services", [one "service"]),
   ("service", [one "provider", one "group", one "name", one "version", one "description", one
     "endpoints", one "authenticated", one "x-trust-boundary", one15 "trustZone", one "data", one
     "licenses", one "externalReferences", one "properties", one "services", one14
     "releaseNotes"]),
   ("endpoints", [one "endpoint"]),
   ("data", [one15 "type", one15 "name", one15 "contents", [("classification", .v1_3),
     ("dataflow", .v1_5)], one15 "sensitiveData", one15 "graphics", one15 "description", one15
     "governance"]),
   ("dataflow", [one15 "classification", one15 "governance", one15 "source", one15
     "destination"]),
   ("source", [[("ref", .v1_5), ("externalReference", .v1_5)], one "name", one "url"]),
   ("destination", [one15 "url"]),
   ("target", [[("ref", .v1_4), ("externalReference", .v1_5)], one14 "versions"]),
   ("resource", [[("ref", .v1_5), ("externalReference", .v1_5)]]),
   ("resourceReference", [[("ref", .v1_5), ("externalReference", .v1_5)]]),
   ("externalReference", [one15 "url", one15 "comment", one15 "hashes"]),
   ("dependencies", [one "dependency"]),
   ("dependency", [one "dependency"]),
   ("compositions", [one "composition"]),
   ("composition", [one "aggregate", one "assemblies", one "dependencies", one15
     "vulnerabilities"]),
   ("assemblies", [one "assembly"]),
   ("vulnerabilities", [one14 "vulnerability"]),
   ("vulnerability", [one14 "id", one14 "source", one14 "references", one14 "ratings", one14
     "cwes", one14 "description", one14 "detail", one14 "recommendation", one15 "workaround",
     one15 "proofOfConcept", one14 "advisories", one14 "created", one14 "published", one14
     "updated", one15 "rejected", one14 "credits", one14 "tools", one14 "analysis", one14
     "affects", one14 "properties"]),
   ("proofOfConcept", [one15 "reproductionSteps", one15 "environment", one15
     "supportingMaterial"]),
   ("supportingMaterial", [one15 "attachment"]),
   ("ratings", [one14 "rating"]),
   ("rating", [one14 "source", one14 "score", one14 "severity", one14 "method", one14 "vector",
     one14 "justification"]),
   ("cwes", [one14 "cwe"]),
   ("advisories", [one14 "advisory"]),
   ("advisory", [one14 "title", one14 "url"]),
   ("credits", [one14 "organizations", one14 "individuals"]),
   ("organizations", [one14 "organization"]),
   ("individuals", [one14 "individual"]),
   ("analysis", [one14 "state", one14 "justification", one14 "responses", one14 "detail", one15
     "firstIssued", one15 "lastUpdated"]),
   ("responses", [one14 "response"]),
   ("affects", [one14 "target"]),
   ("versions", [one14 "version"]),
   ("version", [[("version", .v1_4), ("range", .v1_4)], one14 "status"]),
   ("annotations", [one15 "annotation"]),
   ("annotation", [one15 "subjects", one15 "annotator", one15 "timestamp", one15 "text"]),
   ("subjects", [one15 "subject"]),
   ("annotator", [[("organization", .v1_5), ("individual", .v1_5), ("component", .v1_5),
     ("service", .v1_5)]]),
   ("formulation", [one15 "formula"]),
   ("formula", [one15 "components", one15 "services", one15 "workflows", one15 "properties"]),
   ("workflows", [one15 "workflow"]),
   ("workflow", [one15 "uid", one15 "name", one15 "description", one15 "resourceReferences", one15
     "tasks", one15 "taskDependencies", one15 "taskTypes", one15 "trigger", one15 "steps", one15
     "inputs", one15 "outputs", one15 "timeStart", one15 "timeEnd", one15 "workspaces", one15
     "runtimeTopology", one15 "properties"]),
   ("task", [one15 "uid", one15 "name", one15 "description", one15 "resourceReferences", one15
     "taskTypes", one15 "trigger", one15 "steps", one15 "inputs", one15 "outputs", one15
     "timeStart", one15 "timeEnd", one15 "workspaces", one15 "runtimeTopology", one15
     "properties"]),
   ("tasks", [one15 "task"]),
   ("taskDependencies", [one15 "dependency"]),
   ("runtimeTopology", [one15 "dependency"]),
   ("taskTypes", [one15 "taskType"]),
   ("resourceReferences", [one15 "resourceReference"]),
   ("steps", [one15 "step"]),
   ("workspaces", [one15 "workspace"]),
   ("step", [one15 "name", one15 "description", one15 "commands", one15 "properties"]),
   ("commands", [one15 "command"]),
   ("command", [one15 "executed", one15 "properties"]),
   ("trigger", [one15 "uid", one15 "name", one15 "description", one15 "resourceReferences", one15
     "type", one15 "event", one15 "conditions", one15 "timeActivated", one15 "inputs", one15
     "outputs", one15 "properties"]),
   ("event", [one15 "uid", one15 "description", one15 "timeReceived", one15 "data", one15
     "source", one15 "target", one15 "properties"]),
   ("conditions", [one15 "condition"]),
   ("condition", [one15 "description", one15 "expression", one15 "properties"]),
   ("workspace", [one15 "uid", one15 "name", one15 "aliases", one15 "description", one15
     "resourceReferences", one15 "accessMode", one15 "mountPath", one15 "managedDataType", one15
     "volumeRequest", one15 "volume", one15 "properties"]),
   ("aliases", [one14 "alias"]),
   ("volume", [one15 "uid", one15 "name", one15 "mode", one15 "path", one15 "sizeAllocated", one15
     "persistent", one15 "remote", one15 "properties"]),
   ("parameters", [one15 "parameter"]),
   ("parameter", [one15 "name", one15 "value", one15 "dataType"]),
   ("environmentVars", [[("environmentVar", .v1_5), ("value", .v1_5)]]),
   ("releaseNotes", [one14 "type", one14 "title", one14 "featuredImage", one14 "socialImage",
     one14 "description", one14 "timestamp", one14 "aliases", one14 "tags", one14 "resolves",
     one14 "notes", one14 "properties"]),
   ("notes", [one14 "note"]),
   ("note", [one14 "locale", one14 "text"]),
   ("tags", [one14 "tag"]),
   ("considerations", [one15 "users", one15 "useCases", one15 "technicalLimitations", one15
     "performanceTradeoffs", one15 "ethicalConsiderations", one15 "fairnessAssessments"]),
   ("users", [one15 "user"]),
   ("useCases", [one15 "useCase"]),
   ("technicalLimitations", [one15 "technicalLimitation"]),
   ("performanceTradeoffs", [one15 "performanceTradeoff"]),
   ("ethicalConsiderations", [one15 "ethicalConsideration"]),
   ("ethicalConsideration", [one15 "name", one15 "mitigationStrategy"]),
   ("fairnessAssessments", [one15 "fairnessAssessment"]),
   ("fairnessAssessment", [one15 "groupAtRisk", one15 "benefits", one15 "harms", one15
     "mitigationStrategy"])]

/-- The attributes of each element that has some. -/
def formatAttributes : List (String × List (List (String × SpecVersion))) :=
  [("bom", [one "serialNumber", one "version"]),
   ("component", [one "type", one "mime-type", one "bom-ref"]),
   ("service", [one "bom-ref"]),
   ("hash", [one "alg"]),
   ("text", [one "content-type", one "encoding"]),
   ("image", [one "content-type", one "encoding"]),
   ("attachment", [one "content-type", one "encoding"]),
   ("featuredImage", [one "content-type", one "encoding"]),
   ("property", [one "name"]),
   ("reference", [one "type"]),
   ("externalReference", [one "type"]),
   ("supplier", [one15 "bom-ref"]),
   ("manufacture", [one15 "bom-ref"]),
   ("provider", [one15 "bom-ref"]),
   ("organization", [one15 "bom-ref"]),
   ("contact", [one15 "bom-ref"]),
   ("individual", [one15 "bom-ref"]),
   ("author", [one15 "bom-ref"]),
   ("license", [one15 "bom-ref"]),
   ("expression", [one15 "bom-ref"]),
   ("swid", [one "tagId", one "name", one "version", one "tagVersion", one "patch"]),
   ("issue", [one "type"]),
   ("patch", [one "type"]),
   ("modelCard", [one15 "bom-ref"]),
   ("dataset", [one15 "bom-ref"]),
   ("occurrence", [one15 "bom-ref"]),
   ("annotation", [one15 "bom-ref"]),
   ("formula", [one15 "bom-ref"]),
   ("data", [one15 "bom-ref", one15 "content-type", one15 "encoding"]),
   ("classification", [one "flow"]),
   ("dataflow", [one15 "name", one15 "description"]),
   ("dependency", [one "ref"]),
   ("assembly", [one "ref"]),
   ("tool", [one15 "ref"]),
   ("composition", [one15 "bom-ref"]),
   ("vulnerability", [one14 "bom-ref", one15 "ref"]),
   ("workflow", [one15 "bom-ref"]),
   ("task", [one15 "bom-ref"]),
   ("trigger", [one15 "bom-ref"]),
   ("workspace", [one15 "bom-ref"]),
   ("environmentVar", [one15 "name"]),
   ("subject", [one15 "ref"])]

/-- The child elements of the elements this library writes in its own way. -/
def ownChildren : List (String × List (List (String × SpecVersion))) :=
  [("metadata", [one "timestamp", one "tools", one "authors", one "component", one "manufacture",
     one "supplier", one "licenses", one "properties", one15 "lifecycles"]),
   ("tools", [one "tool", one15 "services", one15 "components"]),
   ("component", [one "supplier", one "author", one "publisher", one "group", one "name", one
     "version", one "description", one "scope", one "hashes", one "licenses", one "copyright", one
     "cpe", one "purl", one "swid", one "modified", one "pedigree", one "externalReferences", one
     "properties", one "components", one "evidence", one14 "signature", one14 "releaseNotes",
     one15 "modelCard", one15 "data"]),
   ("service", [one "provider", one "group", one "name", one "version", one "description", one
     "endpoints", one "authenticated", one "x-trust-boundary", one "data", one "licenses", one
     "externalReferences", one "properties", one "services", one14 "releaseNotes", one14
     "signature", one15 "trustZone"]),
   ("composition", [one "aggregate", one "assemblies", one "dependencies", one15
     "vulnerabilities", one14 "signature"]),
   ("signature", [[("signers", .v1_4), ("chain", .v1_4), ("algorithm", .v1_4)], one14 "value"]),
   ("signers", [one14 "signer"]),
   ("signer", [one14 "algorithm", one14 "value"]),
   ("chain", [[("chain", .v1_4), ("algorithm", .v1_4)], one14 "value"]),
   ("dataset", [one15 "ref", one15 "type", one15 "name", one15 "contents", one15 "classification",
     one15 "sensitiveData", one15 "graphics", one15 "description", one15 "governance"]),
   ("step", [one15 "commands", one15 "description", one15 "name", one15 "properties"]),
   ("vulnerability", [one14 "id", one14 "source", one14 "references", one14 "ratings", one14
     "cwes", one14 "description", one14 "detail", one14 "recommendation", one15 "proofOfConcept",
     one14 "advisories", one14 "created", one14 "published", one14 "updated", one15 "rejected",
     one14 "credits", one14 "tools", one14 "analysis", one14 "affects", one14 "properties", one15
     "workaround"]),
   ("source", [[("ref", .v1_5), ("reference", .v1_5)], one "name", one "url"]),
   ("target", [[("ref", .v1_4), ("reference", .v1_5)], one14 "versions"]),
   ("resource", [[("ref", .v1_5), ("reference", .v1_5)]]),
   ("resourceReference", [[("ref", .v1_5), ("reference", .v1_5)]])]

/-- The attributes of the elements that this library gives attributes the format does not have. -/
def ownAttributes : List (String × List (List (String × SpecVersion))) :=
  [("supplier", [one "bom-ref"]),
   ("manufacture", [one "bom-ref"]),
   ("provider", [one "bom-ref"]),
   ("organization", [one "bom-ref"]),
   ("contact", [one "bom-ref"]),
   ("individual", [one "bom-ref"]),
   ("author", [one "bom-ref"]),
   ("expression", [one "bom-ref"])]

/-- Whether a name that came with one version is in another. -/
def sinceIn (v since : SpecVersion) : Bool :=
  match since, v with
  | .v1_3, _ => true
  | .v1_4, .v1_3 => false
  | .v1_4, _ => true
  | .v1_5, .v1_5 => true
  | .v1_5, _ => false

/-- The groups of names that a version has. -/
def groupsIn (v : SpecVersion) (l : List (List (String × SpecVersion))) : List (List String) :=
  (l.map fun g => (g.filter fun n => sinceIn v n.2).map (·.1)).filter fun g => !g.isEmpty

/-- What may be in an element: the child elements in their order, and the attributes. -/
structure Element where
  children : List (List String)
  attributes : List String

/-- The elements of the format. -/
def formatElement (v : SpecVersion) (tag : String) : Element where
  children := groupsIn v ((formatChildren.lookup tag).getD [])
  attributes := (groupsIn v ((formatAttributes.lookup tag).getD [])).flatten

/-- The elements as the library writes them. -/
def writtenElement (v : SpecVersion) (tag : String) : Element where
  children := groupsIn v ((ownChildren.lookup tag).getD ((formatChildren.lookup tag).getD []))
  attributes :=
    (groupsIn v ((ownAttributes.lookup tag).getD ((formatAttributes.lookup tag).getD []))).flatten

/-- The content of the element `parent` is arranged: its child elements come in the order of the
groups that are left, each has only attributes it may have, and its own content is arranged. -/
inductive Arranged (E : String → Element) : (parent : String) → List (List String) → List WEvent → Prop
  | nil {parent left} : Arranged E parent left []
  | chars {parent left s w} : Arranged E parent left w → Arranged E parent left (.chars s :: w)
  | cdata {parent left s w} : Arranged E parent left w → Arranged E parent left (.cdata s :: w)
  | elem {parent before group after tag attrs body w} :
      tag ∈ group →
      (∀ a ∈ attrs, a.1 ∈ (E tag).attributes) →
      Arranged E tag (E tag).children body →
      Arranged E parent (group :: after) w →
      Arranged E parent (before ++ group :: after) (.start tag attrs :: (body ++ .stop :: w))

/-- A document: one element `bom` whose content is arranged. -/
def ArrangedDocument (E : String → Element) (w : List WEvent) : Prop :=
  ∃ attrs body, w = .start "bom" attrs :: (body ++ [.stop]) ∧
    (∀ a ∈ attrs, a.1 ∈ (E "bom").attributes) ∧ Arranged E "bom" (E "bom").children body

/-- The names of the child elements with the names of the elements they are in, in document order;
`stack` holds the names of the elements that are open. -/
def nestings : (stack : List String) → List WEvent → List (String × String)
  | _, [] => []
  | stack, .start tag _ :: w => (stack.headD "", tag) :: nestings (tag :: stack) w
  | stack, .stop :: w => nestings stack.tail w
  | stack, .chars _ :: w => nestings stack w
  | stack, .cdata _ :: w => nestings stack w

/-- The names of the attributes with the names of the elements they are on. -/
def attributeUses : List WEvent → List (String × String)
  | [] => []
  | .start tag attrs :: w => attrs.map (fun a => (tag, a.1)) ++ attributeUses w
  | .stop :: w => attributeUses w
  | .chars _ :: w => attributeUses w
  | .cdata _ :: w => attributeUses w

/-- The child elements because of which a document may differ from the format: elements the format
does not have there (`signature` and everything in it, `ref` in `dataset`, `reference` for
`externalReference`), and elements that are not at the place the format has them. -/
def ownNestings : List (String × String) :=
  [("metadata", "lifecycles"), ("tools", "services"), ("service", "trustZone"),
   ("step", "commands"), ("step", "description"), ("vulnerability", "workaround"),
   ("dataset", "ref"), ("source", "reference"), ("target", "reference"), ("resource", "reference"),
   ("resourceReference", "reference"),
   ("component", "signature"), ("service", "signature"), ("composition", "signature"),
   ("signature", "signers"), ("signature", "chain"), ("signature", "algorithm"), ("signature", "value"),
   ("signers", "signer"), ("signer", "algorithm"), ("signer", "value"),
   ("chain", "chain"), ("chain", "algorithm"), ("chain", "value")]

/-- The attributes the format does not have: only version 1.5 has `bom-ref` on organizations,
contacts and expressions. -/
def ownAttributeUses (v : SpecVersion) : List (String × String) :=
  match v with
  | .v1_5 => []
  | .v1_3 | .v1_4 =>
    [("supplier", "bom-ref"), ("manufacture", "bom-ref"), ("provider", "bom-ref"),
     ("organization", "bom-ref"), ("contact", "bom-ref"), ("individual", "bom-ref"),
     ("author", "bom-ref"), ("expression", "bom-ref")]

end Cdx.Spec
