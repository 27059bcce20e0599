import Verif.Spec.Schema
import Verif.Spec.Elements
import Verif.Model.Format.Bom

/-!
# Specification: what the JSON schema of a version asks of the elements of a BOM

`schemaRule` is the condition on each element on its own under which the theorems of
`Props/Schema.lean` prove that the written document conforms to the schema. Where the code writes
a member that no schema has, the rule asks for that member to be absent.
-/

namespace Cdx.Spec

set_option linter.unusedVariables false

/-- No two entries of a list are written as the same JSON value. -/
def WrittenDistinct {α : Type} (f : α → Json) (l : Option (List α)) : Prop :=
  ∀ m, l = some m → m.Pairwise fun x y => ¬ Same (f x) (f y)

/-- What can be written as the identifier of an element or as a reference to one: not the empty
string in 1.5. -/
def RefOk (v : SpecVersion) (r : String) : Prop := v = .v1_5 → r ≠ ""

/-- What can be written as a dependency. -/
def DependencyOk (v : SpecVersion) (d : Dependency) : Prop :=
  RefOk v d.dependencyRef ∧ d.dependencies.Nodup ∧ ∀ r ∈ d.dependencies, RefOk v r

/-- The types of external references that the schema of a version has and that are written with
their right names. -/
def ReferenceTypeIn (v : SpecVersion) (t : ExternalReferenceType) : Prop :=
  t ∈ [.vcs, .issueTracker, .website, .advisories, .bom, .mailingList, .social, .chat,
    .documentation, .support, .distribution, .license, .buildMeta, .buildSystem, .other] ∨
  v ≠ .v1_3 ∧ t = .releaseNotes ∨
  v = .v1_5 ∧ t ≠ .condifiedInfrastructure ∧ ∀ s, t ≠ .unknownExternalReferenceType s

/-- The aggregate types that the schema of a version has. -/
def AggregateNamed (v : SpecVersion) (a : AggregateType) : Prop :=
  a ∈ [.complete, .incomplete, .incompleteFirstPartyOnly, .incompleteThirdPartyOnly, .unknown,
    .notSpecified] ∨
  v = .v1_5 ∧ ∀ s, a ≠ .unknownAggregateType s

/-- The techniques of identifying a component. -/
def techniques : List String :=
  ["source-code-analysis", "binary-analysis", "manifest-analysis", "ast-fingerprint",
    "hash-comparison", "instrumentation", "dynamic-analysis", "filename", "attestation", "other"]

/-- What the schema of a version asks of an element on its own. -/
def Elem.schemaRule (F : Formats) (v : SpecVersion) : Elem → Prop
  | .uri x => F "iri-reference" x
  | .dateTime x => F "date-time" x
  | .mimeType x => patternMime.isMatch x = true
  | .serialNumber x => patternSerial.isMatch x = true
  | .hashValue x => patternHash.isMatch x = true
  | .attachmentEncoding x => x = "base64"
  | .confidence x => x.isFinite = true ∧ 0 ≤ numberOf x ∧ numberOf x ≤ 1
  | .spdxId x => x ∈ SchemaSpdx.ids
  | .spdxExpression x => v ≠ .v1_3 → x.bomRef = none
  | .refUri x => F "iri-reference" x.display
  | .classification x => ClassificationIn v x
  | .aggregateType x => AggregateNamed v x
  | .scoreMethod x => ScoreMethodIn v x
  | .scope x => ∀ s, x ≠ .unknownScope s
  | .hashAlgorithm x => ∀ s, x ≠ .unknownHashAlgorithm s
  | .externalReferenceType x => ReferenceTypeIn v x
  | .identityField x => ∀ s, x ≠ .unknown s
  | .algorithm x => (∀ s, x ≠ .unknown s) ∧ ¬ F "uri" x.display
  | .licenseType x => ∀ s, x ≠ .unknown s
  | .approachType x => ∀ s, x ≠ .unknown s
  | .componentDataType x => ∀ s, x ≠ .unknown s
  | .issueClassification x => ∀ s, x ≠ .unknownIssueClassification s
  | .patchClassification x => ∀ s, x ≠ .unknownPatchClassification s
  | .dataFlowType x => ∀ s, x ≠ .unknownDataFlow s
  | .impactAnalysisState x => ∀ s, x ≠ .undefinedImpactAnalysisState s
  | .impactAnalysisJustification x => ∀ s, x ≠ .undefinedImpactAnalysisJustification s
  | .severity x => ∀ s, x ≠ .undefinedSeverity s
  | .status x => ∀ s, x ≠ .undefinedStatus s
  | .taskType x => ∀ s, x ≠ .unknown s
  | .outputType x => ∀ s, x ≠ .unknown s
  | .triggerType x => ∀ s, x ≠ .unknownType s
  | .accessMode x => ∀ s, x ≠ .unknownAccessMode s
  | .volumeMode x => ∀ s, x ≠ .unknownMode s
  | .versionRange x => match x with
    | .version s => s ≠ "" ∧ s.length ≤ 1024
    | .range s => s ≠ "" ∧ s.length ≤ 1024
    | .undefinedVersionRange _ => False
  | .attachedText x => ∀ e, x.encoding = some e → e = .base64
  | .organizationalContact x => v ≠ .v1_3 → x.bomRef = none ∧ ∀ e, x.email = some e → F "idn-email" e
  | .organizationalEntity x => v ≠ .v1_3 → x.bomRef = none
  | .licensing x => x.altIds ≠ none ∧ x.licensor ≠ none ∧ x.licensee ≠ none ∧ x.purchaser ≠ none ∧
      x.purchaseOrder ≠ none ∧ x.licenseTypes ≠ none ∧ x.lastRenewal ≠ none ∧ x.expiration ≠ none
  | .license x => v = .v1_5 → x.bomRef = none
  | .licenses x => v = .v1_5 → (∀ c ∈ x, ∃ l, c = .license l) ∨ ∃ e, x = [.expression e]
  | .identifiableAction x => ∀ e, x.email = some e → F "idn-email" e
  | .signature x => ∃ s, x = .single s
  | .dataGovernanceResponsibleParty _ => False
  | .componentData x => x.bomRef = none ∧ x.sensitiveData = none
  | .dataset x => ∃ c, x = .component c
  | .quantitativeAnalysis x => ∀ l, x.performanceMetrics = some l → ∀ m ∈ l, m.confidenceInterval = none
  | .modelCard x => x.bomRef = none
  | .occurrence x => x.bomRef = none
  | .identity x => (∀ l, x.methods = some l → ∀ m ∈ l, m.technique ∈ techniques) ∧
      ∀ l, x.tools = some l → l.Nodup ∧ ∀ r ∈ l, RefOk v r
  | .component x => (v = .v1_3 → x.version ≠ none) ∧ (v = .v1_5 → x.data = none) ∧
      (∀ r, x.bomRef = some r → RefOk v r) ∧ WrittenDistinct (Component.toJson v) x.components
  | .service x => (∀ r, x.bomRef = some r → RefOk v r) ∧ WrittenDistinct (Service.toJson v) x.services
  | .tools x => match x with
    | .list _ => True
    | .object s c => WrittenDistinct (Service.toJson v) s ∧ WrittenDistinct (Component.toJson v) c
  | .metadata x => ∀ l, x.lifecycles = some l → ∀ p s, .phase p ∈ l → p ≠ .unknown s
  | .composition x => (v = .v1_5 → x.bomRef = none) ∧
      (∀ l, x.assemblies = some l → l.Nodup ∧ ∀ r ∈ l, RefOk v r) ∧
      (∀ l, x.dependencies = some l → l.Nodup) ∧ ∀ l, x.vulnerabilities = some l → l.Nodup
  | .vulnerabilityRating x => ∀ s, x.score = some s → s.isFinite = true
  | .vulnerabilityAnalysis x => x.responses = none
  | .vulnerabilityTarget x => RefOk v x.bomRef
  | .vulnerability x => (∀ r, x.bomRef = some r → RefOk v r) ∧
      (∀ l, x.cwes = some l → ∀ n ∈ l, 1 ≤ n) ∧
      WrittenDistinct VulnerabilityTarget.toJson x.vulnerabilityTargets
  | .annotation x => (∀ r, x.bomRef = some r → RefOk v r) ∧ x.subjects.Nodup ∧ ∀ r ∈ x.subjects, RefOk v r
  | .resourceReference x => ∀ r, x = .ref r → RefOk v r
  | .input x => match x.required with
    | .parameters l => WrittenDistinct Parameter.toJson (some l)
    | .environmentVars l => WrittenDistinct EnvironmentVar.toJson (some l)
    | _ => True
  | .output x => match x.required with
    | .environmentVars l => WrittenDistinct EnvironmentVar.toJson (some l)
    | _ => True
  | .trigger x => RefOk v x.bomRef ∧ WrittenDistinct ResourceReference.toJson x.resourceReferences ∧
      WrittenDistinct Condition.toJson x.conditions ∧ WrittenDistinct Input.toJson x.inputs ∧
      WrittenDistinct Output.toJson x.outputs
  | .volume x => x.sizeAllocated = none
  | .workspace x => RefOk v x.bomRef ∧ WrittenDistinct ResourceReference.toJson x.resourceReferences
  | .workflowTask x => RefOk v x.bomRef ∧ WrittenDistinct ResourceReference.toJson x.resourceReferences ∧
      WrittenDistinct Step.toJson x.steps ∧ WrittenDistinct Input.toJson x.inputs ∧
      WrittenDistinct Output.toJson x.outputs ∧ WrittenDistinct Workspace.toJson x.workspaces ∧
      WrittenDistinct Dependency.toJson x.runtimeTopology ∧
      ∀ l, x.runtimeTopology = some l → ∀ d ∈ l, DependencyOk v d
  | .workflow x => RefOk v x.bomRef ∧ WrittenDistinct ResourceReference.toJson x.resourceReferences ∧
      WrittenDistinct WorkflowTask.toJson x.tasks ∧ WrittenDistinct Dependency.toJson x.taskDependencies ∧
      WrittenDistinct Step.toJson x.steps ∧ WrittenDistinct Input.toJson x.inputs ∧
      WrittenDistinct Output.toJson x.outputs ∧ WrittenDistinct Workspace.toJson x.workspaces ∧
      WrittenDistinct Dependency.toJson x.runtimeTopology ∧
      (∀ l, x.taskDependencies = some l → ∀ d ∈ l, DependencyOk v d) ∧
      ∀ l, x.runtimeTopology = some l → ∀ d ∈ l, DependencyOk v d
  | .formula x => (∀ r, x.bomRef = some r → RefOk v r) ∧ WrittenDistinct (Component.toJson v) x.components ∧
      WrittenDistinct (Service.toJson v) x.services ∧ WrittenDistinct Workflow.toJson x.workflows
  | .bom x => (v = .v1_5 → 1 ≤ x.version) ∧ WrittenDistinct (Component.toJson v) x.components ∧
      WrittenDistinct (Service.toJson v) x.services ∧ WrittenDistinct Dependency.toJson x.dependencies ∧
      (∀ l, x.dependencies = some l → ∀ d ∈ l, DependencyOk v d) ∧
      WrittenDistinct (Composition.toJson v) x.compositions ∧
      WrittenDistinct (Vulnerability.toJson v) x.vulnerabilities ∧
      WrittenDistinct (Annotation.toJson v) x.annotations ∧
      WrittenDistinct (Formula.toJson v) x.formulation
  | _ => True

/-- The element and all elements inside it are as the schema of the version asks. -/
def Elem.Sound (F : Formats) (v : SpecVersion) (e : Elem) : Prop :=
  ∀ p, Inside Elem.parts e p → p.schemaRule F v

end Cdx.Spec
