import Verif.Spec.Xml
import Verif.Model.Format.Parts
import Verif.Spec.Format.License

set_option linter.unusedVariables false

/-!
# What the file formats keep: signatures, dependencies, compositions, code changes, parts of vulnerabilities
-/

namespace Cdx

/-- `Signer`s that JSON keeps: enumeration values are read back from their names, numbers are in
range. -/
structure Signer.JsonOk (x : Signer) : Prop where
  algorithm : Stable Algorithm.display Algorithm.new x.algorithm

/-- `Signer`s that XML keeps: texts do not begin or end with white space, enumeration values are
read back from their names, numbers are in range, lists of repeated elements are not empty. -/
structure Signer.XmlOk (x : Signer) : Prop where
  algorithm : Stable Algorithm.specName Algorithm.ofSpecName x.algorithm ∧ Trimmed (Algorithm.specName x.algorithm)
  value : Trimmed x.value

/-- `Signature`s that JSON keeps: a chain becomes a list of signers. -/
def Signature.JsonOk : Signature → Prop
  | .signers l => ∀ x ∈ l, Signer.JsonOk x
  | .chain _ => False
  | .single s => s.JsonOk

/-- `Signature`s that XML keeps. -/
def Signature.XmlOk : Signature → Prop
  | .signers l => ∀ x ∈ l, Signer.XmlOk x
  | .chain l => ∀ x ∈ l, Signer.XmlOk x
  | .single s => s.XmlOk

/-- What version `v` of the format has of a `Composition`. -/
def Composition.at (v : SpecVersion) (x : Composition) : Composition :=
  { x with bomRef := since15 v x.bomRef none,
           vulnerabilities := since15 v x.vulnerabilities none,
           signature := since14 v x.signature none }

/-- `Composition`s that JSON keeps: enumeration values are read back from their names, numbers are in
range. -/
structure Composition.JsonOk (v : SpecVersion) (x : Composition) : Prop where
  aggregate : Stable AggregateType.display AggregateType.new x.aggregate
  signature : v ≠ .v1_3 → ∀ y, x.signature = some y → Signature.JsonOk y

/-- `Composition`s that XML keeps: texts do not begin or end with white space, enumeration values are
read back from their names, numbers are in range, lists of repeated elements are not empty. -/
structure Composition.XmlOk (v : SpecVersion) (x : Composition) : Prop where
  aggregate : Stable AggregateType.display AggregateType.new x.aggregate ∧ Trimmed (AggregateType.display x.aggregate)
  signature : v ≠ .v1_3 → ∀ y, x.signature = some y → Signature.XmlOk y

/-- `IdentifiableAction`s that XML keeps: texts do not begin or end with white space, enumeration values are
read back from their names, numbers are in range, lists of repeated elements are not empty. -/
structure IdentifiableAction.XmlOk (x : IdentifiableAction) : Prop where
  timestamp : ∀ y, x.timestamp = some y → Trimmed y
  name : ∀ y, x.name = some y → Trimmed y
  email : ∀ y, x.email = some y → Trimmed y

/-- `Commit`s that XML keeps: texts do not begin or end with white space, enumeration values are
read back from their names, numbers are in range, lists of repeated elements are not empty. -/
structure Commit.XmlOk (x : Commit) : Prop where
  uid : ∀ y, x.uid = some y → Trimmed y
  url : ∀ y, x.url = some y → Trimmed y
  author : ∀ y, x.author = some y → IdentifiableAction.XmlOk y
  committer : ∀ y, x.committer = some y → IdentifiableAction.XmlOk y
  message : ∀ y, x.message = some y → Trimmed y

/-- `Diff`s that JSON keeps: enumeration values are read back from their names, numbers are in
range. -/
structure Diff.JsonOk (x : Diff) : Prop where
  text : ∀ y, x.text = some y → AttachedText.JsonOk y

/-- `Diff`s that XML keeps: texts do not begin or end with white space, enumeration values are
read back from their names, numbers are in range, lists of repeated elements are not empty. -/
structure Diff.XmlOk (x : Diff) : Prop where
  text : ∀ y, x.text = some y → AttachedText.XmlOk y
  url : ∀ y, x.url = some y → Trimmed y

/-- `Source`s that XML keeps: texts do not begin or end with white space, enumeration values are
read back from their names, numbers are in range, lists of repeated elements are not empty. -/
structure Source.XmlOk (x : Source) : Prop where
  name : ∀ y, x.name = some y → Trimmed y
  url : ∀ y, x.url = some y → Trimmed y

/-- `Issue`s that JSON keeps: enumeration values are read back from their names, numbers are in
range. -/
structure Issue.JsonOk (x : Issue) : Prop where
  issueType : Stable IssueClassification.display IssueClassification.new x.issueType

/-- `Issue`s that XML keeps: texts do not begin or end with white space, enumeration values are
read back from their names, numbers are in range, lists of repeated elements are not empty. -/
structure Issue.XmlOk (x : Issue) : Prop where
  issueType : Stable IssueClassification.display IssueClassification.new x.issueType
  id : ∀ y, x.id = some y → Trimmed y
  name : ∀ y, x.name = some y → Trimmed y
  description : ∀ y, x.description = some y → Trimmed y
  source : ∀ y, x.source = some y → Source.XmlOk y ∧ Source.willWrite y = true
  references : ∀ y, x.references = some y → ∀ z ∈ y, Trimmed z

/-- `Patch`s that JSON keeps: enumeration values are read back from their names, numbers are in
range. -/
structure Patch.JsonOk (x : Patch) : Prop where
  patchType : Stable PatchClassification.display PatchClassification.new x.patchType
  diff : ∀ y, x.diff = some y → Diff.JsonOk y
  resolves : ∀ y, x.resolves = some y → ∀ z ∈ y, Issue.JsonOk z

/-- `Patch`s that XML keeps: texts do not begin or end with white space, enumeration values are
read back from their names, numbers are in range, lists of repeated elements are not empty. -/
structure Patch.XmlOk (x : Patch) : Prop where
  patchType : Stable PatchClassification.display PatchClassification.new x.patchType
  diff : ∀ y, x.diff = some y → Diff.XmlOk y ∧ Diff.willWrite y = true
  resolves : ∀ y, x.resolves = some y → ∀ z ∈ y, Issue.XmlOk z

/-- What version `v` of the format has of a `VulnerabilityAnalysis`. -/
def VulnerabilityAnalysis.at (v : SpecVersion) (x : VulnerabilityAnalysis) : VulnerabilityAnalysis :=
  { x with firstIssued := since15 v x.firstIssued none,
           lastUpdated := since15 v x.lastUpdated none }

/-- `VulnerabilityAnalysis`s that JSON keeps: enumeration values are read back from their names, numbers are in
range. -/
structure VulnerabilityAnalysis.JsonOk (x : VulnerabilityAnalysis) : Prop where
  state : ∀ y, x.state = some y → Stable ImpactAnalysisState.display ImpactAnalysisState.new y
  justification : ∀ y, x.justification = some y → Stable ImpactAnalysisJustification.display ImpactAnalysisJustification.new y
  responses : ∀ y, x.responses = some y → ∀ z ∈ y, Stable ImpactAnalysisResponse.display ImpactAnalysisResponse.new z

/-- `VulnerabilityAnalysis`s that XML keeps: texts do not begin or end with white space, enumeration values are
read back from their names, numbers are in range, lists of repeated elements are not empty. -/
structure VulnerabilityAnalysis.XmlOk (v : SpecVersion) (x : VulnerabilityAnalysis) : Prop where
  state : ∀ y, x.state = some y → Stable ImpactAnalysisState.display ImpactAnalysisState.new y ∧ Trimmed (ImpactAnalysisState.display y)
  justification : ∀ y, x.justification = some y → Stable ImpactAnalysisJustification.display ImpactAnalysisJustification.new y ∧ Trimmed (ImpactAnalysisJustification.display y)
  responses : ∀ y, x.responses = some y → ∀ z ∈ y, Stable ImpactAnalysisResponse.display ImpactAnalysisResponse.new z ∧ Trimmed (ImpactAnalysisResponse.display z)
  detail : ∀ y, x.detail = some y → Trimmed y
  firstIssued : v = .v1_5 → ∀ y, x.firstIssued = some y → Trimmed y
  lastUpdated : v = .v1_5 → ∀ y, x.lastUpdated = some y → Trimmed y

/-- `VersionRange`s that XML keeps. -/
def VersionRange.XmlOk : VersionRange → Prop
  | .version x => Trimmed x
  | .range x => Trimmed x
  | .undefinedVersionRange _ => False

/-- `TargetVersion`s that JSON keeps: enumeration values are read back from their names, numbers are in
range. -/
structure TargetVersion.JsonOk (x : TargetVersion) : Prop where
  status : Stable Status.display Status.new x.status

/-- `TargetVersion`s that XML keeps: texts do not begin or end with white space, enumeration values are
read back from their names, numbers are in range, lists of repeated elements are not empty. -/
structure TargetVersion.XmlOk (x : TargetVersion) : Prop where
  versionRange : VersionRange.XmlOk x.versionRange
  status : Stable Status.display Status.new x.status ∧ Trimmed (Status.display x.status)

/-- `VulnerabilityTarget`s that JSON keeps: enumeration values are read back from their names, numbers are in
range. -/
structure VulnerabilityTarget.JsonOk (x : VulnerabilityTarget) : Prop where
  versions : ∀ y, x.versions = some y → ∀ z ∈ y, TargetVersion.JsonOk z

/-- `VulnerabilityTarget`s that XML keeps: texts do not begin or end with white space, enumeration values are
read back from their names, numbers are in range, lists of repeated elements are not empty. -/
structure VulnerabilityTarget.XmlOk (x : VulnerabilityTarget) : Prop where
  bomRef : Trimmed x.bomRef
  versions : ∀ y, x.versions = some y → ∀ z ∈ y, TargetVersion.XmlOk z

end Cdx
