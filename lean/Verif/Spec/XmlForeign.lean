import Verif.Spec.XmlSchema

/-!
# Specification: foreign elements in XML documents

The format allows elements of other namespaces at the end of many elements, so that others can extend
it. This file says what it means that a document is another one with such elements put in: anywhere
among the children of an element, at any depth, as long as none of the local names in them is a name of
the format, and as long as they are in elements that this library reads leniently.
-/

namespace Cdx.Spec

/-- The local names of the elements of the format, in all versions. -/
def vocabulary : List String :=
  ["accessMode", "advisories", "advisory", "affects", "aggregate", "algorithm", "alias", "aliases",
   "altId", "altIds", "analysis", "ancestors", "annotation", "annotations", "annotator", "approach",
   "architectureFamily", "assemblies", "assembly", "attachment", "authenticated", "author",
   "authors", "benefits", "bom", "callstack", "chain", "classification", "collection", "column",
   "command", "commands", "comment", "commit", "commits", "committer", "component", "components",
   "composition", "compositions", "condition", "conditions", "confidence", "confidenceInterval",
   "considerations", "contact", "contents", "copyright", "cpe", "created", "credits", "custodian",
   "custodians", "cwe", "cwes", "data", "dataType", "dataflow", "dataset", "datasets",
   "dependencies", "dependency", "descendants", "description", "destination", "detail", "diff",
   "email", "endpoint", "endpoints", "environment", "environmentVar", "environmentVars",
   "ethicalConsideration", "ethicalConsiderations", "event", "evidence", "executed", "expiration",
   "expression", "externalReference", "externalReferences", "fairnessAssessment",
   "fairnessAssessments", "featuredImage", "field", "firstIssued", "format", "formula",
   "formulation", "frame", "frames", "fullFilename", "function", "governance", "graphic",
   "graphics", "group", "groupAtRisk", "harms", "hash", "hashes", "id", "identity", "image",
   "individual", "individuals", "input", "inputs", "issue", "justification", "lastRenewal",
   "lastUpdated", "license", "licenseType", "licenseTypes", "licensee", "licenses", "licensing",
   "licensor", "lifecycle", "lifecycles", "line", "locale", "location", "lowerBound",
   "managedDataType", "manufacture", "message", "metadata", "method", "methods",
   "mitigationStrategy", "mode", "modelArchitecture", "modelCard", "modelParameters", "modified",
   "module", "mountPath", "name", "note", "notes", "occurrence", "occurrences", "organization",
   "organizations", "output", "outputs", "owner", "owners", "package", "parameter", "parameters",
   "patch", "patches", "path", "pedigree", "performanceMetric", "performanceMetrics",
   "performanceTradeoff", "performanceTradeoffs", "persistent", "phase", "phone", "proofOfConcept",
   "properties", "property", "provider", "published", "publisher", "purchaseOrder", "purchaser",
   "purl", "quantitativeAnalysis", "range", "rating", "ratings", "recommendation", "ref",
   "reference", "references", "rejected", "releaseNotes", "remote", "reproductionSteps", "resolves",
   "resource", "resourceReference", "resourceReferences", "response", "responses",
   "runtimeTopology", "scope", "score", "sensitiveData", "service", "services", "severity",
   "signature", "signer", "signers", "sizeAllocated", "slice", "socialImage", "source", "state",
   "status", "step", "steps", "steward", "stewards", "subject", "subjects", "supplier",
   "supportingMaterial", "swid", "tag", "tags", "target", "task", "taskDependencies", "taskType",
   "taskTypes", "tasks", "technicalLimitation", "technicalLimitations", "technique", "text",
   "timeActivated", "timeEnd", "timeReceived", "timeStart", "timestamp", "title", "tool", "tools",
   "trigger", "trustZone", "type", "uid", "updated", "upperBound", "url", "useCase", "useCases",
   "user", "users", "value", "variants", "vector", "vendor", "version", "versions", "volume",
   "volumeRequest", "vulnerabilities", "vulnerability", "workaround", "workflow", "workflows",
   "workspace", "workspaces", "x-trust-boundary"]

/-- The types of elements that this library reads leniently: it passes over child elements that it does
not know. The readers of the other types reject such elements, except for `namedUrl`, which has two
readers, one of each kind. -/
def lenient : List ElementType :=
  [.bom, .metadata, .tool, .organizationalContact, .organizationalEntity, .components, .component,
   .license, .swid, .pedigree, .commits, .commit, .identifiableAction, .patches, .patch, .diff,
   .issue, .properties, .evidence, .identity, .method, .callstack, .frames, .frame, .modelCard,
   .modelParameters, .approach, .mlInputs, .mlOutputs, .mlParameter, .componentData, .dataContents,
   .graphics, .graphicCollection, .graphic, .governance, .quantitativeAnalysis, .performanceMetrics,
   .performanceMetric, .confidenceInterval, .considerations, .users, .useCases,
   .technicalLimitations, .performanceTradeoffs, .ethicalConsiderations, .ethicalConsideration,
   .fairnessAssessments, .fairnessAssessment, .services, .service, .serviceData, .dataflow,
   .compositions, .assemblies, .referencedDependencies, .referencedVulnerabilities,
   .vulnerabilities, .vulnerability, .vulnerabilityReferences, .vulnerabilityReference, .ratings,
   .rating, .advisories, .advisory, .credits, .analysis, .affects, .target, .versions,
   .affectedVersion, .proofOfConcept, .workflow, .task, .resourceReferences, .trigger, .event,
   .environmentVars, .step, .workspace, .volume, .releaseNotes, .tags, .notes, .note]

/-- `c'` is `c`, the content of an element of type `t`, with foreign elements put in, in it or anywhere
below it. The local names of a foreign element and of all that it contains are not in the vocabulary;
its namespace, its attributes and its texts are arbitrary. Child elements that the table of the format
does not have, and elements that are not put in, are as before. -/
inductive WithForeign (v : SpecVersion) : ElementType → List XNode → List XNode → Prop
  | nil {t} : WithForeign v t [] []
  | same {t x c c'} : WithForeign v t c c' → WithForeign v t (x :: c) (x :: c')
  | foreign {t n attrs ns content c c'} : t ∈ lenient →
      (∀ name ∈ (XNode.elem n attrs ns content).names, name ∉ vocabulary) →
      WithForeign v t c c' → WithForeign v t c (.elem n attrs ns content :: c')
  | inside {t t' n attrs ns k k' c c'} : t.child v n.localName = some t' →
      WithForeign v t' k k' → WithForeign v t c c' →
      WithForeign v t (.elem n attrs ns k :: c) (.elem n attrs ns k' :: c')

end Cdx.Spec
