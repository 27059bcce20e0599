import Verif.Model.Types

/-!
# Specification: the vocabularies of the CycloneDX schemas

The `enum` lists of the JSON schemas of CycloneDX 1.3, 1.4 and 1.5 (copies of the schemas are
in `cyclonedx-bom/test-utils/schema`; they are not part of the code under test), and what it
means for an enumeration of the library to implement such a list.
-/

namespace Cdx.Spec

/-- An enumeration implements the vocabulary `names`: `print` and `parse` are its two
conversions and `other x` is the text of `x` if `x` is the catch-all value. The values other
than the catch-all ones are exactly the names and survive printing and parsing; a text that is
no name is kept verbatim as catch-all value; a catch-all value is printed as its text. -/
structure Implements {α : Type} (names : List String) (print : α → String) (parse : String → α)
    (other : α → Option String) : Prop where
  named : ∀ x, other x = none → print x ∈ names ∧ parse (print x) = x
  known : ∀ s ∈ names, other (parse s) = none
  verbatim : ∀ s, print (parse s) = s
  unknown : ∀ s, s ∉ names → other (parse s) = some s
  catchAll : ∀ x s, other x = some s → print x = s

/-- `definitions/component/properties/type` of `bom-1.5.schema.json`. -/
def classificationNames : List String :=
  ["application", "framework", "library", "container", "platform", "operating-system", "device",
   "device-driver", "firmware", "file", "machine-learning-model", "data"]

/-- `definitions/component/properties/scope` of `bom-1.5.schema.json`. -/
def scopeNames : List String :=
  ["required", "optional", "excluded"]

/-- `definitions/componentEvidence/properties/identity/properties/field` of `bom-1.5.schema.json`. -/
def identityFieldNames : List String :=
  ["group", "name", "version", "purl", "cpe", "swid", "hash"]

/-- `definitions/attachment/properties/encoding` of `bom-1.5.schema.json`. -/
def encodingNames : List String :=
  ["base64"]

/-- `definitions/issue/properties/type` of `bom-1.5.schema.json`. -/
def issueClassificationNames : List String :=
  ["defect", "enhancement", "security"]

/-- `definitions/patch/properties/type` of `bom-1.5.schema.json`. -/
def patchClassificationNames : List String :=
  ["unofficial", "monkey", "backport", "cherry-pick"]

/-- `definitions/componentData/properties/type` of `bom-1.5.schema.json`. -/
def componentDataTypeNames : List String :=
  ["source-code", "configuration", "dataset", "definition", "other"]

/-- `definitions/aggregateType` of `bom-1.5.schema.json`. -/
def aggregateTypeNames : List String :=
  ["complete", "incomplete", "incomplete_first_party_only",
   "incomplete_first_party_proprietary_only", "incomplete_first_party_opensource_only",
   "incomplete_third_party_only", "incomplete_third_party_proprietary_only",
   "incomplete_third_party_opensource_only", "unknown", "not_specified"]

/-- `definitions/externalReference/properties/type` of `bom-1.5.schema.json`. -/
def externalReferenceTypeNames : List String :=
  ["vcs", "issue-tracker", "website", "advisories", "bom", "mailing-list", "social", "chat",
   "documentation", "support", "distribution", "distribution-intake", "license", "build-meta",
   "build-system", "release-notes", "security-contact", "model-card", "log", "configuration",
   "evidence", "formulation", "attestation", "threat-model", "adversary-model",
   "risk-assessment", "vulnerability-assertion", "exploitability-statement", "pentest-report",
   "static-analysis-report", "dynamic-analysis-report", "runtime-analysis-report",
   "component-analysis-report", "maturity-report", "certification-report",
   "codified-infrastructure", "quality-metrics", "poam", "other"]

/-- `definitions/hash-alg` of `bom-1.5.schema.json`. -/
def hashAlgorithmNames : List String :=
  ["MD5", "SHA-1", "SHA-256", "SHA-384", "SHA-512", "SHA3-256", "SHA3-384", "SHA3-512",
   "BLAKE2b-256", "BLAKE2b-384", "BLAKE2b-512", "BLAKE3"]

/-- `definitions/license/properties/licensing/properties/licenseTypes/items` of `bom-1.5.schema.json`. -/
def licenseTypeNames : List String :=
  ["academic", "appliance", "client-access", "concurrent-user", "core-points", "custom-metric",
   "device", "evaluation", "named-user", "node-locked", "oem", "perpetual", "processor-points",
   "subscription", "user", "other"]

/-- `definitions/metadata/properties/lifecycles/items/oneOf/0/properties/phase` of `bom-1.5.schema.json`. -/
def phaseNames : List String :=
  ["design", "pre-build", "build", "post-build", "operations", "discovery", "decommission"]

/-- `definitions/modelCard/properties/modelParameters/properties/approach/properties/type` of `bom-1.5.schema.json`. -/
def approachTypeNames : List String :=
  ["supervised", "unsupervised", "reinforcement-learning", "semi-supervised", "self-supervised"]

/-- `definitions/dataFlowDirection` of `bom-1.5.schema.json`. -/
def dataFlowTypeNames : List String :=
  ["inbound", "outbound", "bi-directional", "unknown"]

/-- `definitions/signer/properties/algorithm/oneOf/0` of `jsf-0.82.schema.json`. -/
def algorithmNames : List String :=
  ["RS256", "RS384", "RS512", "PS256", "PS384", "PS512", "ES256", "ES384", "ES512", "Ed25519",
   "Ed448", "HS256", "HS384", "HS512"]

/-- `definitions/impactAnalysisState` of `bom-1.5.schema.json`. -/
def impactAnalysisStateNames : List String :=
  ["resolved", "resolved_with_pedigree", "exploitable", "in_triage", "false_positive",
   "not_affected"]

/-- `definitions/impactAnalysisJustification` of `bom-1.5.schema.json`. -/
def impactAnalysisJustificationNames : List String :=
  ["code_not_present", "code_not_reachable", "requires_configuration", "requires_dependency",
   "requires_environment", "protected_by_compiler", "protected_at_runtime",
   "protected_at_perimeter", "protected_by_mitigating_control"]

/-- `definitions/vulnerability/properties/analysis/properties/response/items` of `bom-1.5.schema.json`. -/
def impactAnalysisResponseNames : List String :=
  ["can_not_fix", "will_not_fix", "update", "rollback", "workaround_available"]

/-- `definitions/severity` of `bom-1.5.schema.json`. -/
def severityNames : List String :=
  ["critical", "high", "medium", "low", "info", "none", "unknown"]

/-- `definitions/scoreMethod` of `bom-1.5.schema.json`. -/
def scoreMethodNames : List String :=
  ["CVSSv2", "CVSSv3", "CVSSv31", "CVSSv4", "OWASP", "SSVC", "other"]

/-- `definitions/affectedStatus` of `bom-1.5.schema.json`. -/
def statusNames : List String :=
  ["affected", "unaffected", "unknown"]

/-- `definitions/taskType` of `bom-1.5.schema.json`. -/
def taskTypeNames : List String :=
  ["copy", "clone", "lint", "scan", "merge", "build", "test", "deliver", "deploy", "release",
   "clean", "other"]

/-- `definitions/outputType/properties/type` of `bom-1.5.schema.json`. -/
def outputTypeNames : List String :=
  ["artifact", "attestation", "log", "evidence", "metrics", "other"]

/-- `definitions/trigger/properties/type` of `bom-1.5.schema.json`. -/
def triggerTypeNames : List String :=
  ["manual", "api", "webhook", "scheduled"]

/-- `definitions/workspace/properties/accessMode` of `bom-1.5.schema.json`. -/
def accessModeNames : List String :=
  ["read-only", "read-write", "read-write-once", "write-once", "write-only"]

/-- `definitions/volume/properties/mode` of `bom-1.5.schema.json`. -/
def volumeModeNames : List String :=
  ["filesystem", "block"]

/-- `definitions/component/properties/type` of `bom-1.3.schema.json`. -/
def classificationNames1_3 : List String :=
  ["application", "framework", "library", "container", "operating-system", "device", "firmware",
   "file"]

/-- `definitions/component/properties/type` of `bom-1.4.schema.json`. -/
def classificationNames1_4 : List String :=
  ["application", "framework", "library", "container", "operating-system", "device", "firmware",
   "file"]

/-- `definitions/aggregateType` of `bom-1.3.schema.json`. -/
def aggregateTypeNames1_3 : List String :=
  ["complete", "incomplete", "incomplete_first_party_only", "incomplete_third_party_only",
   "unknown", "not_specified"]

/-- `definitions/aggregateType` of `bom-1.4.schema.json`. -/
def aggregateTypeNames1_4 : List String :=
  ["complete", "incomplete", "incomplete_first_party_only", "incomplete_third_party_only",
   "unknown", "not_specified"]

/-- `definitions/externalReference/properties/type` of `bom-1.3.schema.json`. -/
def externalReferenceTypeNames1_3 : List String :=
  ["vcs", "issue-tracker", "website", "advisories", "bom", "mailing-list", "social", "chat",
   "documentation", "support", "distribution", "license", "build-meta", "build-system", "other"]

/-- `definitions/externalReference/properties/type` of `bom-1.4.schema.json`. -/
def externalReferenceTypeNames1_4 : List String :=
  ["vcs", "issue-tracker", "website", "advisories", "bom", "mailing-list", "social", "chat",
   "documentation", "support", "distribution", "license", "build-meta", "build-system",
   "release-notes", "other"]

/-- `definitions/scoreMethod` of `bom-1.4.schema.json`. -/
def scoreMethodNames1_4 : List String :=
  ["CVSSv2", "CVSSv3", "CVSSv31", "OWASP", "other"]

/-- The component types of a version. -/
def classificationNamesOf : SpecVersion → List String
  | .v1_3 => classificationNames1_3
  | .v1_4 => classificationNames1_4
  | .v1_5 => classificationNames

/-- The external reference types of a version. -/
def externalReferenceTypeNamesOf : SpecVersion → List String
  | .v1_3 => externalReferenceTypeNames1_3
  | .v1_4 => externalReferenceTypeNames1_4
  | .v1_5 => externalReferenceTypeNames

/-- The aggregate types of a version. -/
def aggregateTypeNamesOf : SpecVersion → List String
  | .v1_3 => aggregateTypeNames1_3
  | .v1_4 => aggregateTypeNames1_4
  | .v1_5 => aggregateTypeNames

end Cdx.Spec
