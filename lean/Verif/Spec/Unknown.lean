import Verif.Model.Json

/-!
# Specification: JSON documents with members that the format does not have
-/

namespace Cdx.Spec

/-- The names of members that some object of the format has, in one of the versions, and the names of
the algorithms, which can be written as objects. -/
def knownMembers : List String :=
  ["Contact", "ES256", "ES384", "ES512", "Ed25519", "Ed448", "HS256", "HS384", "HS512",
   "Organization", "PS256", "PS384", "PS512", "RS256", "RS384", "RS512", "Unknown", "accessMode",
   "advisories", "affects", "aggregate", "alg", "algorithm", "aliases", "altIds", "analysis",
   "ancestors", "annotations", "annotator", "approach", "architectureFamily", "assemblies",
   "attachment", "authenticated", "author", "authors", "bom-ref", "bomFormat", "bomRef",
   "callstack", "classification", "collection", "column", "commands", "comment", "commits",
   "committer", "component", "components", "compositions", "conditions", "confidence",
   "confidence_interval", "considerations", "contact", "content", "contentType", "contents",
   "copyright", "cpe", "created", "credits", "custodians", "cwes", "data", "dataType", "datasets",
   "dependencies", "dependsOn", "descendants", "description", "destination", "detail", "diff",
   "email", "encoding", "endpoints", "environment", "environmentVars", "event", "evidence",
   "executed", "expiration", "expression", "externalReference", "externalReferences", "field",
   "firstIssued", "flow", "format", "formulation", "frames", "fullFilename", "function",
   "governance", "graphics", "group", "hashes", "id", "identity", "image", "individual",
   "individuals", "inputs", "justification", "lastRenewal", "lastUpdated", "license",
   "licenseTypes", "licensee", "licenses", "licensing", "licensor", "lifecycles", "line",
   "location", "lowerBound", "managedDataType", "manufacture", "message", "metadata", "method",
   "methods", "mime-type", "mode", "modelArchitecture", "modelCard", "modelParameters", "modified",
   "module", "mountPath", "name", "notes", "occurrences", "organization", "organizations",
   "outputs", "owners", "package", "parameters", "patch", "patches", "path", "pedigree",
   "performanceMetrics", "persistent", "phase", "phone", "proofOfConcept", "properties",
   "provider", "published", "publisher", "purchaseOrder", "purchaser", "purl",
   "quantitativeAnalysis", "range", "ratings", "recommendation", "ref", "references", "rejected",
   "remote", "reproductionSteps", "resolves", "resource", "resourceReferences", "responses",
   "runtimeTopology", "scope", "score", "sensitiveData", "serialNumber", "service", "services",
   "severity", "signature", "size_allocated", "slice", "source", "specVersion", "state", "status",
   "steps", "stewards", "subjects", "supplier", "supportingMaterial", "swid", "tagId",
   "tagVersion", "target", "task", "taskDependencies", "taskTypes", "tasks", "technique", "text",
   "timeActivated", "timeEnd", "timeReceived", "timeStart", "timestamp", "title", "tools",
   "trigger", "trustZone", "type", "uid", "undefinedVersionRange", "updated", "upperBound", "url",
   "value", "variants", "vector", "vendor", "version", "versions", "volume", "volumeRequest",
   "vulnerabilities", "workaround", "workflows", "workspaces", "x-trust-boundary"]

/-- The names of members that must be the only ones in an object of some kind: the kind of a contact
or an annotator, the phase of a lifecycle, a license in a list of licenses and algorithms. -/
def tagMembers : List String :=
  ["Contact", "Organization", "component", "individual", "license", "organization", "phase",
   "service", "RS256", "RS384", "RS512", "PS256", "PS384", "PS512", "ES256", "ES384", "ES512",
   "Ed25519", "Ed448", "HS256", "HS384", "HS512", "Unknown"]

/-- An object has members of one name only, and this is a name in `tagMembers`. -/
def Alone (o : List (String × Json)) : Prop :=
  ∃ k ∈ tagMembers, o ≠ [] ∧ ∀ m ∈ o, m.1 = k

/-- In one object, at any depth, a member with a name that the format does not have is added, with
whatever value, or is given another value. It is not added to an object that consists of one of
`tagMembers`. -/
inductive Extended : Json → Json → Prop
  | added {before after : List (String × Json)} {k : String} {x : Json} : k ∉ knownMembers →
    ¬ Alone (before ++ after) →
    Extended (.obj (before ++ after)) (.obj (before ++ (k, x) :: after))
  | changed {before after : List (String × Json)} {k : String} {x y : Json} : k ∉ knownMembers →
    Extended (.obj (before ++ (k, x) :: after)) (.obj (before ++ (k, y) :: after))
  | item {before after : List Json} {x y : Json} : Extended x y →
    Extended (.arr (before ++ x :: after)) (.arr (before ++ y :: after))
  | member {before after : List (String × Json)} {k : String} {x y : Json} : Extended x y →
    Extended (.obj (before ++ (k, x) :: after)) (.obj (before ++ (k, y) :: after))

/-- Any number of such additions and changes, one after the other. -/
inductive ExtendedAll : Json → Json → Prop
  | none {a : Json} : ExtendedAll a a
  | more {a b c : Json} : ExtendedAll a b → Extended b c → ExtendedAll a c

end Cdx.Spec
