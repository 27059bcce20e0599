import Verif.Model.Types
import Verif.Model.Json
import Verif.Model.Enums

/-!
# Where the fields of a document are in JSON

`Spec.Tree` is a document without its types: the fields of every structure under the names that they
have in the public API (`cyclonedx-bom/src/models`, in camel case). `X.tree` lists the fields of the
structure `X`; it does not know any format. `Spec.json` is the rule that turns such a tree into JSON: a
field becomes a member with the name of the field, except for the names in `Spec.memberNames`, which are
other names in the format, and in `Spec.misnamed`, which the code writes under a name that is not in the
format.
-/

namespace Cdx

namespace Spec

/-- A value of the public structures. -/
inductive Tree where
  /-- A text, or the name of a value of an enumeration. -/
  | text (s : String)
  | number (n : Nat)
  | decimal (x : F32)
  | truth (b : Bool)
  /-- A field without a value. -/
  | absent
  | items (l : List Tree)
  /-- A structure: its type, and its fields. -/
  | record (type : String) (fields : List (String × Tree))
  /-- A value of a choice: the type, the name of the variant, and its content. -/
  | choice (type variant : String) (content : Tree)

/-- A structure with the fields that have a value. -/
def Tree.mk (type : String) (fields : List (String × Option Tree)) : Tree :=
  .record type (fields.filterMap fun p => p.2.map fun t => (p.1, t))

/-- A list. -/
def Tree.list {α : Type} (f : α → Tree) (l : List α) : Tree := .items (l.map f)

/-- A value of an enumeration. -/
def Tree.name {α : Type} (display : α → String) (x : α) : Tree := .text (display x)

/-- The names of members in the format that are not the names of the fields. -/
def memberNames : List ((String × String) × String) :=
  [(("ExternalReference", "externalReferenceType"), "type"),
   (("VulnerabilityReference", "vulnerabilitySource"), "source"),
   (("Issue", "issueType"), "type"),
   (("Patch", "patchType"), "type"),
   (("VulnerabilityTarget", "bomRef"), "ref"),
   (("VulnerabilityRating", "vulnerabilitySource"), "source"),
   (("VulnerabilityRating", "scoreMethod"), "method"),
   (("ComponentData", "dataType"), "type"),
   (("ModelParametersApproach", "approachType"), "type"),
   (("PerformanceMetric", "metricType"), "type"),
   (("Component", "componentType"), "type"),
   (("Component", "mimeType"), "mime-type"),
   (("Service", "xTrustBoundary"), "x-trust-boundary"),
   (("Vulnerability", "vulnerabilitySource"), "source"),
   (("Vulnerability", "vulnerabilityReferences"), "references"),
   (("Vulnerability", "vulnerabilityRatings"), "ratings"),
   (("Vulnerability", "vulnerabilityCredits"), "credits"),
   (("Vulnerability", "vulnerabilityAnalysis"), "analysis"),
   (("Vulnerability", "vulnerabilityTargets"), "affects"),
   (("Dependency", "dependencyRef"), "ref"),
   (("Dependency", "dependencies"), "dependsOn"),
   (("License", "spdxId"), "id")]

/-- The member of the format for a field: the reference by which other parts of the document refer to
something is `bom-ref` everywhere. -/
def formatName (type field : String) : String :=
  (memberNames.lookup (type, field)).getD (if field = "bomRef" then "bom-ref" else field)

/-- The members that the code writes and reads under a name that the format does not have. -/
def misnamed : List ((String × String) × String) :=
  [(("OrganizationalContact", "bomRef"), "bomRef"),
   (("OrganizationalEntity", "bomRef"), "bomRef"),
   (("Composition", "bomRef"), "bomRef"),
   (("License", "bomRef"), "bomRef"),
   (("SpdxExpression", "bomRef"), "bomRef"),
   (("Occurrence", "bomRef"), "bomRef"),
   (("ComponentData", "bomRef"), "bomRef"),
   (("ModelCard", "bomRef"), "bomRef"),
   (("PerformanceMetric", "confidenceInterval"), "confidence_interval"),
   (("Volume", "sizeAllocated"), "size_allocated")]

/-- The member that the code uses for a field. -/
def memberName (type field : String) : String :=
  (misnamed.lookup (type, field)).getD (formatName type field)

/-- The variants of choices that are objects with one member, and the name of that member. All other
variants are written as their content. -/
def tags : List ((String × String) × String) :=
  [(("LicenseContact", "organization"), "organization"),
   (("LicenseContact", "contact"), "individual"),
   (("LicenseChoice", "license"), "license"),
   (("DataGovernanceResponsibleParty", "organization"), "Organization"),
   (("DataGovernanceResponsibleParty", "contact"), "Contact"),
   (("Lifecycle", "phase"), "phase"),
   (("Annotator", "organization"), "organization"),
   (("Annotator", "individual"), "individual"),
   (("Annotator", "component"), "component"),
   (("Annotator", "service"), "service"),
   (("ResourceReference", "ref"), "ref"),
   (("ResourceReference", "externalReference"), "externalReference"),
   (("Algorithm", "unknown"), "Unknown")]

mutual

/-- A tree as JSON. -/
def json : Tree → Json
  | .text s => .str s
  | .number n => .nat n
  | .decimal x => if x.isFinite then .float x else .null
  | .truth b => .bool b
  | .absent => .null
  | .items l => .arr (jsonItems l)
  | .record type fields => .obj (jsonMembers type fields)
  | .choice type variant content =>
    match tags.lookup (type, variant) with
    | some tag => .obj [(tag, json content)]
    | none => json content

/-- The items of an array. -/
def jsonItems : List Tree → List Json
  | [] => []
  | t :: l => json t :: jsonItems l

/-- The members of an object. The classification of a data flow is not an object of its own: its fields
are fields of the data flow. -/
def jsonMembers (type : String) : List (String × Tree) → List (String × Json)
  | [] => []
  | (field, t) :: l =>
    if type = "ServiceData" ∧ field = "classification" then
      match json t with
      | .obj members => members ++ jsonMembers type l
      | _ => jsonMembers type l
    else (memberName type field, json t) :: jsonMembers type l

end

/-- A document as JSON: the format and its version come first. -/
def jsonDocument (v : SpecVersion) (document : Tree) : Json :=
  match json document with
  | .obj members => .obj (("bomFormat", .str "CycloneDX") :: ("specVersion", .str v.display) :: members)
  | j => j

end Spec

open Spec (Tree)

/-- The fields of `AttachedText`. -/
def AttachedText.tree (x : AttachedText) : Tree :=
  .mk "AttachedText" [("contentType", x.contentType.map Tree.text),
    ("encoding", x.encoding.map (Tree.name Encoding.display)),
    ("content", some (Tree.text x.content))]

/-- The fields of `Property`. -/
def Property.tree (x : Property) : Tree :=
  .mk "Property" [("name", some (Tree.text x.name)),
    ("value", some (Tree.text x.value))]

/-- The fields of `Hash`. -/
def Hash.tree (x : Hash) : Tree :=
  .mk "Hash" [("alg", some (Tree.name HashAlgorithm.display x.alg)),
    ("content", some (Tree.text x.content))]

/-- The fields of `OrganizationalContact`. -/
def OrganizationalContact.tree (x : OrganizationalContact) : Tree :=
  .mk "OrganizationalContact" [("bomRef", x.bomRef.map Tree.text),
    ("name", x.name.map Tree.text),
    ("email", x.email.map Tree.text),
    ("phone", x.phone.map Tree.text)]

/-- The fields of `OrganizationalEntity`. -/
def OrganizationalEntity.tree (x : OrganizationalEntity) : Tree :=
  .mk "OrganizationalEntity" [("bomRef", x.bomRef.map Tree.text),
    ("name", x.name.map Tree.text),
    ("url", x.url.map (Tree.list Tree.text)),
    ("contact", x.contact.map (Tree.list OrganizationalContact.tree))]

/-- The fields of `ExternalReference`. -/
def ExternalReference.tree (x : ExternalReference) : Tree :=
  .mk "ExternalReference" [("externalReferenceType", some (Tree.name ExternalReferenceType.display x.externalReferenceType)),
    ("url", some (Tree.name RefUri.display x.url)),
    ("comment", x.comment.map Tree.text),
    ("hashes", x.hashes.map (Tree.list Hash.tree))]

/-- The fields of `VulnerabilitySource`. -/
def VulnerabilitySource.tree (x : VulnerabilitySource) : Tree :=
  .mk "VulnerabilitySource" [("name", x.name.map Tree.text),
    ("url", x.url.map Tree.text)]

/-- The fields of `VulnerabilityReference`. -/
def VulnerabilityReference.tree (x : VulnerabilityReference) : Tree :=
  .mk "VulnerabilityReference" [("id", some (Tree.text x.id)),
    ("vulnerabilitySource", some (VulnerabilitySource.tree x.vulnerabilitySource))]

/-- The fields of `Advisory`. -/
def Advisory.tree (x : Advisory) : Tree :=
  .mk "Advisory" [("title", x.title.map Tree.text),
    ("url", some (Tree.text x.url))]

/-- The fields of `VulnerabilityCredits`. -/
def VulnerabilityCredits.tree (x : VulnerabilityCredits) : Tree :=
  .mk "VulnerabilityCredits" [("organizations", x.organizations.map (Tree.list OrganizationalEntity.tree)),
    ("individuals", x.individuals.map (Tree.list OrganizationalContact.tree))]

/-- An algorithm: one that is none of the known ones is marked. -/
def Algorithm.tree (a : Algorithm) : Tree :=
  match Algorithm.new a.display with
  | .unknown s => .choice "Algorithm" "unknown" (.text s)
  | b => .text b.display

/-- The fields of `Signer`. -/
def Signer.tree (x : Signer) : Tree :=
  .mk "Signer" [("algorithm", some (Algorithm.tree x.algorithm)),
    ("value", some (Tree.text x.value))]

/-- A signature. -/
def Signature.tree : Signature → Tree
  | .signers l => .choice "Signature" "signers" (.list Signer.tree l)
  | .chain l => .choice "Signature" "chain" (.list Signer.tree l)
  | .single s => .choice "Signature" "single" (Signer.tree s)

/-- The fields of a dependency; it has no list if there is nothing it depends on. -/
def Dependency.tree (x : Dependency) : Tree :=
  .mk "Dependency" [("dependencyRef", some (.text x.dependencyRef)),
    ("dependencies", if x.dependencies = [] then none else some (.list .text x.dependencies))]

/-- The fields of `Composition`. -/
def Composition.tree (x : Composition) : Tree :=
  .mk "Composition" [("aggregate", some (Tree.name AggregateType.display x.aggregate)),
    ("assemblies", x.assemblies.map (Tree.list Tree.text)),
    ("dependencies", x.dependencies.map (Tree.list Tree.text)),
    ("signature", x.signature.map Signature.tree),
    ("bomRef", x.bomRef.map Tree.text),
    ("vulnerabilities", x.vulnerabilities.map (Tree.list Tree.text))]

/-- The fields of `IdentifiableAction`. -/
def IdentifiableAction.tree (x : IdentifiableAction) : Tree :=
  .mk "IdentifiableAction" [("timestamp", x.timestamp.map Tree.text),
    ("name", x.name.map Tree.text),
    ("email", x.email.map Tree.text)]

/-- The fields of `Commit`. -/
def Commit.tree (x : Commit) : Tree :=
  .mk "Commit" [("uid", x.uid.map Tree.text),
    ("url", x.url.map Tree.text),
    ("author", x.author.map IdentifiableAction.tree),
    ("committer", x.committer.map IdentifiableAction.tree),
    ("message", x.message.map Tree.text)]

/-- The fields of `Diff`. -/
def Diff.tree (x : Diff) : Tree :=
  .mk "Diff" [("text", x.text.map AttachedText.tree),
    ("url", x.url.map Tree.text)]

/-- The fields of `Source`. -/
def Source.tree (x : Source) : Tree :=
  .mk "Source" [("name", x.name.map Tree.text),
    ("url", x.url.map Tree.text)]

/-- The fields of `Issue`. -/
def Issue.tree (x : Issue) : Tree :=
  .mk "Issue" [("issueType", some (Tree.name IssueClassification.display x.issueType)),
    ("id", x.id.map Tree.text),
    ("name", x.name.map Tree.text),
    ("description", x.description.map Tree.text),
    ("source", x.source.map Source.tree),
    ("references", x.references.map (Tree.list Tree.text))]

/-- The fields of `Patch`. -/
def Patch.tree (x : Patch) : Tree :=
  .mk "Patch" [("patchType", some (Tree.name PatchClassification.display x.patchType)),
    ("diff", x.diff.map Diff.tree),
    ("resolves", x.resolves.map (Tree.list Issue.tree))]

/-- The fields of `VulnerabilityAnalysis`. -/
def VulnerabilityAnalysis.tree (x : VulnerabilityAnalysis) : Tree :=
  .mk "VulnerabilityAnalysis" [("state", x.state.map (Tree.name ImpactAnalysisState.display)),
    ("justification", x.justification.map (Tree.name ImpactAnalysisJustification.display)),
    ("responses", x.responses.map (Tree.list (Tree.name ImpactAnalysisResponse.display))),
    ("detail", x.detail.map Tree.text),
    ("firstIssued", x.firstIssued.map Tree.text),
    ("lastUpdated", x.lastUpdated.map Tree.text)]

/-- The version or the range is a field of the version of a target itself. -/
def VersionRange.field : VersionRange → String × Option Tree
  | .version s => ("version", some (.text s))
  | .range s => ("range", some (.text s))
  | .undefinedVersionRange s => ("undefinedVersionRange", some (.text s))

/-- The fields of the version of a target. -/
def TargetVersion.tree (x : TargetVersion) : Tree :=
  .mk "TargetVersion" [x.versionRange.field, ("status", some (.name Status.display x.status))]

/-- The fields of `VulnerabilityTarget`. -/
def VulnerabilityTarget.tree (x : VulnerabilityTarget) : Tree :=
  .mk "VulnerabilityTarget" [("bomRef", some (Tree.text x.bomRef)),
    ("versions", x.versions.map (Tree.list TargetVersion.tree))]

/-- A party to a license. -/
def LicenseContact.tree : LicenseContact → Tree
  | .organization y => .choice "LicenseContact" "organization" y.tree
  | .contact y => .choice "LicenseContact" "contact" y.tree

/-- The fields of licensing details; fields without a value are there, too. -/
def Licensing.tree (x : Licensing) : Tree :=
  .mk "Licensing" [("altIds", some ((x.altIds.map (.list .text)).getD .absent)),
    ("licensor", some ((x.licensor.map LicenseContact.tree).getD .absent)),
    ("licensee", some ((x.licensee.map LicenseContact.tree).getD .absent)),
    ("purchaser", some ((x.purchaser.map LicenseContact.tree).getD .absent)),
    ("purchaseOrder", some ((x.purchaseOrder.map .text).getD .absent)),
    ("licenseTypes", some ((x.licenseTypes.map (.list (.name LicenseType.display))).getD .absent)),
    ("lastRenewal", some ((x.lastRenewal.map .text).getD .absent)),
    ("expiration", some ((x.expiration.map .text).getD .absent))]

/-- The identifier or the name is a field of the license itself. -/
def LicenseIdentifier.field : LicenseIdentifier → String × Option Tree
  | .spdxId s => ("spdxId", some (.text s))
  | .name s => ("name", some (.text s))

/-- The fields of a license. -/
def License.tree (x : License) : Tree :=
  .mk "License" [x.licenseIdentifier.field, ("text", x.text.map AttachedText.tree), ("url", x.url.map .text),
    ("bomRef", x.bomRef.map .text), ("licensing", x.licensing.map Licensing.tree),
    ("properties", x.properties.map (.list Property.tree))]

/-- The fields of `SpdxExpression`. -/
def SpdxExpression.tree (x : SpdxExpression) : Tree :=
  .mk "SpdxExpression" [("bomRef", x.bomRef.map Tree.text),
    ("expression", some (Tree.text x.expression))]

/-- A license or an expression. -/
def LicenseChoice.tree : LicenseChoice → Tree
  | .license l => .choice "LicenseChoice" "license" l.tree
  | .expression e => .choice "LicenseChoice" "expression" e.tree

/-- Licenses. -/
def Licenses.tree (l : Licenses) : Tree := .list LicenseChoice.tree l

/-- The fields of `VulnerabilityRating`. -/
def VulnerabilityRating.tree (x : VulnerabilityRating) : Tree :=
  .mk "VulnerabilityRating" [("vulnerabilitySource", x.vulnerabilitySource.map VulnerabilitySource.tree),
    ("score", x.score.map Tree.decimal),
    ("severity", x.severity.map (Tree.name Severity.display)),
    ("scoreMethod", x.scoreMethod.map (Tree.name ScoreMethod.display)),
    ("vector", x.vector.map Tree.text),
    ("justification", x.justification.map Tree.text)]

/-- A copyright text. -/
def Copyright.tree (s : String) : Tree := .record "Copyright" [("text", .text s)]

/-- The fields of `Occurrence`. -/
def Occurrence.tree (x : Occurrence) : Tree :=
  .mk "Occurrence" [("bomRef", x.bomRef.map Tree.text),
    ("location", some (Tree.text x.location))]

/-- The fields of `Frame`. -/
def Frame.tree (x : Frame) : Tree :=
  .mk "Frame" [("package", x.package.map Tree.text),
    ("module", some (Tree.text x.module)),
    ("function", x.function.map Tree.text),
    ("parameters", x.parameters.map (Tree.list Tree.text)),
    ("line", x.line.map Tree.number),
    ("column", x.column.map Tree.number),
    ("fullFilename", x.fullFilename.map Tree.text)]

/-- The fields of `Callstack`. -/
def Callstack.tree (x : Callstack) : Tree :=
  .mk "Callstack" [("frames", some (Tree.list Frame.tree x.frames))]

/-- The fields of `Method`. -/
def Method.tree (x : Method) : Tree :=
  .mk "Method" [("technique", some (Tree.text x.technique)),
    ("confidence", some (Tree.decimal x.confidence)),
    ("value", x.value.map Tree.text)]

/-- The fields of `Identity`. -/
def Identity.tree (x : Identity) : Tree :=
  .mk "Identity" [("field", some (Tree.name IdentityField.display x.field)),
    ("confidence", x.confidence.map Tree.decimal),
    ("methods", x.methods.map (Tree.list Method.tree)),
    ("tools", x.tools.map (Tree.list Tree.text))]

/-- The fields of `ComponentEvidence`. -/
def ComponentEvidence.tree (x : ComponentEvidence) : Tree :=
  .mk "ComponentEvidence" [("licenses", x.licenses.map Licenses.tree),
    ("copyright", x.copyright.map (Tree.list Copyright.tree)),
    ("occurrences", x.occurrences.map (Tree.list Occurrence.tree)),
    ("callstack", x.callstack.map Callstack.tree),
    ("identity", x.identity.map Identity.tree)]

/-- A party that is responsible for data. -/
def DataGovernanceResponsibleParty.tree : DataGovernanceResponsibleParty → Tree
  | .organization y => .choice "DataGovernanceResponsibleParty" "organization" y.tree
  | .contact y => .choice "DataGovernanceResponsibleParty" "contact" y.tree

/-- The fields of `DataGovernance`. -/
def DataGovernance.tree (x : DataGovernance) : Tree :=
  .mk "DataGovernance" [("custodians", x.custodians.map (Tree.list DataGovernanceResponsibleParty.tree)),
    ("stewards", x.stewards.map (Tree.list DataGovernanceResponsibleParty.tree)),
    ("owners", x.owners.map (Tree.list DataGovernanceResponsibleParty.tree))]

/-- The fields of `Attachment`. -/
def Attachment.tree (x : Attachment) : Tree :=
  .mk "Attachment" [("content", some (Tree.text x.content)),
    ("contentType", x.contentType.map Tree.text),
    ("encoding", x.encoding.map Tree.text)]

/-- The fields of `Graphic`. -/
def Graphic.tree (x : Graphic) : Tree :=
  .mk "Graphic" [("name", x.name.map Tree.text),
    ("image", x.image.map Attachment.tree)]

/-- The fields of `GraphicsCollection`. -/
def GraphicsCollection.tree (x : GraphicsCollection) : Tree :=
  .mk "GraphicsCollection" [("description", x.description.map Tree.text),
    ("collection", x.collection.map (Tree.list Graphic.tree))]

/-- The fields of `DataContents`. -/
def DataContents.tree (x : DataContents) : Tree :=
  .mk "DataContents" [("attachment", x.attachment.map Attachment.tree),
    ("url", x.url.map Tree.text),
    ("properties", x.properties.map (Tree.list Property.tree))]

/-- The fields of `ComponentData`. -/
def ComponentData.tree (x : ComponentData) : Tree :=
  .mk "ComponentData" [("bomRef", x.bomRef.map Tree.text),
    ("dataType", some (Tree.name ComponentDataType.display x.dataType)),
    ("name", x.name.map Tree.text),
    ("contents", x.contents.map DataContents.tree),
    ("classification", x.classification.map Tree.text),
    ("sensitiveData", x.sensitiveData.map Tree.text),
    ("graphics", x.graphics.map GraphicsCollection.tree),
    ("description", x.description.map Tree.text),
    ("governance", x.governance.map DataGovernance.tree)]

/-- The fields of `ModelParametersApproach`. -/
def ModelParametersApproach.tree (x : ModelParametersApproach) : Tree :=
  .mk "ModelParametersApproach" [("approachType", x.approachType.map (Tree.name ApproachType.display))]

/-- A dataset. -/
def Dataset.tree : Dataset → Tree
  | .component y => .choice "Dataset" "component" y.tree
  | .reference r => .choice "Dataset" "reference" (.text r)

/-- The fields of `MLParameter`. -/
def MLParameter.tree (x : MLParameter) : Tree :=
  .mk "MLParameter" [("format", x.format.map Tree.text)]

/-- The fields of `ModelParameters`. -/
def ModelParameters.tree (x : ModelParameters) : Tree :=
  .mk "ModelParameters" [("approach", x.approach.map ModelParametersApproach.tree),
    ("task", x.task.map Tree.text),
    ("architectureFamily", x.architectureFamily.map Tree.text),
    ("modelArchitecture", x.modelArchitecture.map Tree.text),
    ("datasets", x.datasets.map (Tree.list Dataset.tree)),
    ("inputs", x.inputs.map (Tree.list MLParameter.tree)),
    ("outputs", x.outputs.map (Tree.list MLParameter.tree))]

/-- The fields of `ConfidenceInterval`. -/
def ConfidenceInterval.tree (x : ConfidenceInterval) : Tree :=
  .mk "ConfidenceInterval" [("lowerBound", x.lowerBound.map Tree.text),
    ("upperBound", x.upperBound.map Tree.text)]

/-- The fields of `PerformanceMetric`. -/
def PerformanceMetric.tree (x : PerformanceMetric) : Tree :=
  .mk "PerformanceMetric" [("metricType", x.metricType.map Tree.text),
    ("value", x.value.map Tree.text),
    ("slice", x.slice.map Tree.text),
    ("confidenceInterval", x.confidenceInterval.map ConfidenceInterval.tree)]

/-- The fields of `QuantitativeAnalysis`. -/
def QuantitativeAnalysis.tree (x : QuantitativeAnalysis) : Tree :=
  .mk "QuantitativeAnalysis" [("performanceMetrics", x.performanceMetrics.map (Tree.list PerformanceMetric.tree)),
    ("graphics", x.graphics.map GraphicsCollection.tree)]

/-- Considerations have no fields. -/
def Considerations.tree (_ : Considerations) : Tree := .record "Considerations" []

/-- The fields of `ModelCard`. -/
def ModelCard.tree (x : ModelCard) : Tree :=
  .mk "ModelCard" [("bomRef", x.bomRef.map Tree.text),
    ("modelParameters", x.modelParameters.map ModelParameters.tree),
    ("quantitativeAnalysis", x.quantitativeAnalysis.map QuantitativeAnalysis.tree),
    ("considerations", x.considerations.map Considerations.tree),
    ("properties", x.properties.map (Tree.list Property.tree))]

/-- The fields of `VulnerabilityProofOfConcept`. -/
def VulnerabilityProofOfConcept.tree (x : VulnerabilityProofOfConcept) : Tree :=
  .mk "VulnerabilityProofOfConcept" [("reproductionSteps", x.reproductionSteps.map Tree.text),
    ("environment", x.environment.map Tree.text),
    ("supportingMaterial", x.supportingMaterial.map (Tree.list Attachment.tree))]

/-- The fields of `DataClassification`. -/
def DataClassification.tree (x : DataClassification) : Tree :=
  .mk "DataClassification" [("flow", some (Tree.name DataFlowType.display x.flow)),
    ("classification", some (Tree.text x.classification))]

/-- The fields of a data flow. -/
def ServiceData.tree (x : ServiceData) : Tree :=
  .mk "ServiceData" [("name", x.name.map .text), ("description", x.description.map .text),
    ("classification", some x.classification.tree),
    ("governance", x.governance.map DataGovernance.tree), ("source", x.source.map (.list .text)),
    ("destination", x.destination.map (.list .text))]

/-- The data of a service. -/
def ServiceDataChoice.tree : ServiceDataChoice → Tree
  | .serviceData l => .choice "ServiceDataChoice" "serviceData" (.list ServiceData.tree l)
  | .classification l => .choice "ServiceDataChoice" "classification" (.list DataClassification.tree l)

/-- The fields of `Swid`. -/
def Swid.tree (x : Swid) : Tree :=
  .mk "Swid" [("tagId", some (Tree.text x.tagId)),
    ("name", some (Tree.text x.name)),
    ("version", x.version.map Tree.text),
    ("tagVersion", x.tagVersion.map Tree.number),
    ("patch", x.patch.map Tree.truth),
    ("text", x.text.map AttachedText.tree),
    ("url", x.url.map Tree.text)]

/-- The fields of `LifecycleDescription`. -/
def LifecycleDescription.tree (x : LifecycleDescription) : Tree :=
  .mk "LifecycleDescription" [("name", some (Tree.text x.name)),
    ("description", x.description.map Tree.text)]

/-- A phase or a description of a phase. -/
def Lifecycle.tree : Lifecycle → Tree
  | .phase p => .choice "Lifecycle" "phase" (.name Phase.display p)
  | .description d => .choice "Lifecycle" "description" d.tree

mutual

/-- A list of `Component`s. -/
def Component.treeOpt : Option (List Component) → Option Tree
  | none => none
  | some l => some (.items (Component.treeAll l))
termination_by structural l => l

/-- The items of a list of `Component`s. -/
def Component.treeAll : List Component → List Tree
  | [] => []
  | x :: l => Component.tree x :: Component.treeAll l
termination_by structural l => l

/-- The fields of a `Component`. -/
def Component.tree : Component → Tree
  | ⟨componentType, mimeType, bomRef, supplier, author, publisher, group, name, version, description, scope, hashes, licenses, copyright, cpe, purl, swid, modified, pedigree, externalReferences, properties, components, evidence, signature, modelCard, data⟩ =>
  .mk "Component" [("componentType", some (Tree.name Classification.display componentType)),
    ("mimeType", mimeType.map Tree.text),
    ("bomRef", bomRef.map Tree.text),
    ("supplier", supplier.map OrganizationalEntity.tree),
    ("author", author.map Tree.text),
    ("publisher", publisher.map Tree.text),
    ("group", group.map Tree.text),
    ("name", some (Tree.text name)),
    ("version", version.map Tree.text),
    ("description", description.map Tree.text),
    ("scope", scope.map (Tree.name Scope.display)),
    ("hashes", hashes.map (Tree.list Hash.tree)),
    ("licenses", licenses.map Licenses.tree),
    ("copyright", copyright.map Tree.text),
    ("cpe", cpe.map Tree.text),
    ("purl", purl.map Tree.text),
    ("swid", swid.map Swid.tree),
    ("modified", modified.map Tree.truth),
    ("pedigree", Pedigree.treeOpt pedigree),
    ("externalReferences", externalReferences.map (Tree.list ExternalReference.tree)),
    ("properties", properties.map (Tree.list Property.tree)),
    ("components", Component.treeOpt components),
    ("evidence", evidence.map ComponentEvidence.tree),
    ("signature", signature.map Signature.tree),
    ("modelCard", modelCard.map ModelCard.tree),
    ("data", data.map ComponentData.tree)]
termination_by structural x => x

/-- An optional `Pedigree`. -/
def Pedigree.treeOpt : Option Pedigree → Option Tree
  | none => none
  | some x => some (Pedigree.tree x)
termination_by structural x => x

/-- The fields of a `Pedigree`. -/
def Pedigree.tree : Pedigree → Tree
  | ⟨ancestors, descendants, variants, commits, patches, notes⟩ =>
  .mk "Pedigree" [("ancestors", Component.treeOpt ancestors),
    ("descendants", Component.treeOpt descendants),
    ("variants", Component.treeOpt variants),
    ("commits", commits.map (Tree.list Commit.tree)),
    ("patches", patches.map (Tree.list Patch.tree)),
    ("notes", notes.map Tree.text)]
termination_by structural x => x

end

mutual

/-- A list of `Service`s. -/
def Service.treeOpt : Option (List Service) → Option Tree
  | none => none
  | some l => some (.items (Service.treeAll l))
termination_by structural l => l

/-- The items of a list of `Service`s. -/
def Service.treeAll : List Service → List Tree
  | [] => []
  | x :: l => Service.tree x :: Service.treeAll l
termination_by structural l => l

/-- The fields of a `Service`. -/
def Service.tree : Service → Tree
  | ⟨bomRef, provider, group, name, version, description, endpoints, authenticated, xTrustBoundary, data, licenses, externalReferences, properties, services, signature, trustZone⟩ =>
  .mk "Service" [("bomRef", bomRef.map Tree.text),
    ("provider", provider.map OrganizationalEntity.tree),
    ("group", group.map Tree.text),
    ("name", some (Tree.text name)),
    ("version", version.map Tree.text),
    ("description", description.map Tree.text),
    ("endpoints", endpoints.map (Tree.list Tree.text)),
    ("authenticated", authenticated.map Tree.truth),
    ("xTrustBoundary", xTrustBoundary.map Tree.truth),
    ("data", data.map ServiceDataChoice.tree),
    ("licenses", licenses.map Licenses.tree),
    ("externalReferences", externalReferences.map (Tree.list ExternalReference.tree)),
    ("properties", properties.map (Tree.list Property.tree)),
    ("services", Service.treeOpt services),
    ("signature", signature.map Signature.tree),
    ("trustZone", trustZone.map Tree.text)]
termination_by structural x => x

end

/-- The fields of `Tool`. -/
def Tool.tree (x : Tool) : Tree :=
  .mk "Tool" [("vendor", x.vendor.map Tree.text),
    ("name", x.name.map Tree.text),
    ("version", x.version.map Tree.text),
    ("hashes", x.hashes.map (Tree.list Hash.tree)),
    ("externalReferences", x.externalReferences.map (Tree.list ExternalReference.tree))]

/-- Tools. -/
def Tools.tree : Tools → Tree
  | .list l => .choice "Tools" "list" (.list Tool.tree l)
  | .object s c => .choice "Tools" "object"
      (.mk "Tools" [("services", s.map (.list Service.tree)), ("components", c.map (.list Component.tree))])

/-- The fields of `Metadata`. -/
def Metadata.tree (x : Metadata) : Tree :=
  .mk "Metadata" [("timestamp", x.timestamp.map Tree.text),
    ("tools", x.tools.map Tools.tree),
    ("authors", x.authors.map (Tree.list OrganizationalContact.tree)),
    ("component", x.component.map Component.tree),
    ("manufacture", x.manufacture.map OrganizationalEntity.tree),
    ("supplier", x.supplier.map OrganizationalEntity.tree),
    ("licenses", x.licenses.map Licenses.tree),
    ("properties", x.properties.map (Tree.list Property.tree)),
    ("lifecycles", x.lifecycles.map (Tree.list Lifecycle.tree))]

/-- The fields of `Vulnerability`. -/
def Vulnerability.tree (x : Vulnerability) : Tree :=
  .mk "Vulnerability" [("bomRef", x.bomRef.map Tree.text),
    ("id", x.id.map Tree.text),
    ("vulnerabilitySource", x.vulnerabilitySource.map VulnerabilitySource.tree),
    ("vulnerabilityReferences", x.vulnerabilityReferences.map (Tree.list VulnerabilityReference.tree)),
    ("vulnerabilityRatings", x.vulnerabilityRatings.map (Tree.list VulnerabilityRating.tree)),
    ("cwes", x.cwes.map (Tree.list Tree.number)),
    ("description", x.description.map Tree.text),
    ("detail", x.detail.map Tree.text),
    ("recommendation", x.recommendation.map Tree.text),
    ("advisories", x.advisories.map (Tree.list Advisory.tree)),
    ("created", x.created.map Tree.text),
    ("published", x.published.map Tree.text),
    ("updated", x.updated.map Tree.text),
    ("vulnerabilityCredits", x.vulnerabilityCredits.map VulnerabilityCredits.tree),
    ("tools", x.tools.map Tools.tree),
    ("vulnerabilityAnalysis", x.vulnerabilityAnalysis.map VulnerabilityAnalysis.tree),
    ("vulnerabilityTargets", x.vulnerabilityTargets.map (Tree.list VulnerabilityTarget.tree)),
    ("properties", x.properties.map (Tree.list Property.tree)),
    ("workaround", x.workaround.map Tree.text),
    ("proofOfConcept", x.proofOfConcept.map VulnerabilityProofOfConcept.tree),
    ("rejected", x.rejected.map Tree.text)]

/-- An annotator. -/
def Annotator.tree : Annotator → Tree
  | .organization y => .choice "Annotator" "organization" y.tree
  | .individual y => .choice "Annotator" "individual" y.tree
  | .component y => .choice "Annotator" "component" y.tree
  | .service y => .choice "Annotator" "service" y.tree

/-- The fields of `Annotation`. -/
def Annotation.tree (x : Annotation) : Tree :=
  .mk "Annotation" [("bomRef", x.bomRef.map Tree.text),
    ("subjects", some (Tree.list Tree.text x.subjects)),
    ("annotator", some (Annotator.tree x.annotator)),
    ("timestamp", some (Tree.text x.timestamp)),
    ("text", some (Tree.text x.text)),
    ("signature", x.signature.map Signature.tree)]

/-- A reference to a resource. -/
def ResourceReference.tree : ResourceReference → Tree
  | .ref r => .choice "ResourceReference" "ref" (.text r)
  | .externalReference y => .choice "ResourceReference" "externalReference" y.tree

/-- A variable of the environment. -/
def EnvironmentVar.tree : EnvironmentVar → Tree
  | .property n s => .choice "EnvironmentVar" "property"
      (.record "EnvironmentVar" [("name", .text n), ("value", .text s)])
  | .value s => .choice "EnvironmentVar" "value" (.text s)

/-- The fields of `Parameter`. -/
def Parameter.tree (x : Parameter) : Tree :=
  .mk "Parameter" [("name", x.name.map Tree.text),
    ("value", x.value.map Tree.text),
    ("dataType", x.dataType.map Tree.text)]

/-- What is put in is a field of the input itself. -/
def RequiredInputField.field : RequiredInputField → String × Option Tree
  | .resource y => ("resource", some y.tree)
  | .parameters y => ("parameters", some (.list Parameter.tree y))
  | .environmentVars y => ("environmentVars", some (.list EnvironmentVar.tree y))
  | .data y => ("data", some y.tree)

/-- The fields of an input. -/
def Input.tree (x : Input) : Tree :=
  .mk "Input" [x.required.field, ("source", x.source.map ResourceReference.tree),
    ("target", x.target.map ResourceReference.tree), ("properties", x.properties.map (.list Property.tree))]

/-- What comes out is a field of the output itself. -/
def RequiredOutputField.field : RequiredOutputField → String × Option Tree
  | .resource y => ("resource", some y.tree)
  | .environmentVars y => ("environmentVars", some (.list EnvironmentVar.tree y))
  | .data y => ("data", some y.tree)

/-- The fields of an output. -/
def Output.tree (x : Output) : Tree :=
  .mk "Output" [x.required.field, ("type", x.type.map (.name OutputType.display)),
    ("source", x.source.map ResourceReference.tree), ("target", x.target.map ResourceReference.tree),
    ("properties", x.properties.map (.list Property.tree))]

/-- The fields of `Command`. -/
def Command.tree (x : Command) : Tree :=
  .mk "Command" [("executed", x.executed.map Tree.text),
    ("properties", x.properties.map (Tree.list Property.tree))]

/-- The fields of `Step`. -/
def Step.tree (x : Step) : Tree :=
  .mk "Step" [("commands", x.commands.map (Tree.list Command.tree)),
    ("description", x.description.map Tree.text),
    ("name", x.name.map Tree.text),
    ("properties", x.properties.map (Tree.list Property.tree))]

/-- The fields of `TriggerEvent`. -/
def TriggerEvent.tree (x : TriggerEvent) : Tree :=
  .mk "TriggerEvent" [("uid", x.uid.map Tree.text),
    ("description", x.description.map Tree.text),
    ("timeReceived", x.timeReceived.map Tree.text),
    ("data", x.data.map Attachment.tree),
    ("source", x.source.map ResourceReference.tree),
    ("target", x.target.map ResourceReference.tree),
    ("properties", x.properties.map (Tree.list Property.tree))]

/-- The fields of `Condition`. -/
def Condition.tree (x : Condition) : Tree :=
  .mk "Condition" [("description", x.description.map Tree.text),
    ("expression", x.expression.map Tree.text),
    ("properties", x.properties.map (Tree.list Property.tree))]

/-- The fields of `Trigger`. -/
def Trigger.tree (x : Trigger) : Tree :=
  .mk "Trigger" [("bomRef", some (Tree.text x.bomRef)),
    ("uid", some (Tree.text x.uid)),
    ("name", x.name.map Tree.text),
    ("description", x.description.map Tree.text),
    ("resourceReferences", x.resourceReferences.map (Tree.list ResourceReference.tree)),
    ("type", some (Tree.name TriggerType.display x.type)),
    ("event", x.event.map TriggerEvent.tree),
    ("conditions", x.conditions.map (Tree.list Condition.tree)),
    ("timeActivated", x.timeActivated.map Tree.text),
    ("inputs", x.inputs.map (Tree.list Input.tree)),
    ("outputs", x.outputs.map (Tree.list Output.tree)),
    ("properties", x.properties.map (Tree.list Property.tree))]

/-- The fields of `Volume`. -/
def Volume.tree (x : Volume) : Tree :=
  .mk "Volume" [("uid", x.uid.map Tree.text),
    ("name", x.name.map Tree.text),
    ("mode", some (Tree.name VolumeMode.display x.mode)),
    ("path", x.path.map Tree.text),
    ("sizeAllocated", x.sizeAllocated.map Tree.text),
    ("persistent", x.persistent.map Tree.truth),
    ("remote", x.remote.map Tree.truth),
    ("properties", x.properties.map (Tree.list Property.tree))]

/-- The fields of `Workspace`. -/
def Workspace.tree (x : Workspace) : Tree :=
  .mk "Workspace" [("bomRef", some (Tree.text x.bomRef)),
    ("uid", some (Tree.text x.uid)),
    ("name", x.name.map Tree.text),
    ("aliases", x.aliases.map (Tree.list Tree.text)),
    ("description", x.description.map Tree.text),
    ("resourceReferences", x.resourceReferences.map (Tree.list ResourceReference.tree)),
    ("accessMode", x.accessMode.map (Tree.name AccessMode.display)),
    ("mountPath", x.mountPath.map Tree.text),
    ("managedDataType", x.managedDataType.map Tree.text),
    ("volumeRequest", x.volumeRequest.map Tree.text),
    ("volume", x.volume.map Volume.tree),
    ("properties", x.properties.map (Tree.list Property.tree))]

/-- The fields of `WorkflowTask`. -/
def WorkflowTask.tree (x : WorkflowTask) : Tree :=
  .mk "WorkflowTask" [("bomRef", some (Tree.text x.bomRef)),
    ("uid", some (Tree.text x.uid)),
    ("name", x.name.map Tree.text),
    ("description", x.description.map Tree.text),
    ("resourceReferences", x.resourceReferences.map (Tree.list ResourceReference.tree)),
    ("taskTypes", some (Tree.list (Tree.name TaskType.display) x.taskTypes)),
    ("trigger", x.trigger.map Trigger.tree),
    ("steps", x.steps.map (Tree.list Step.tree)),
    ("inputs", x.inputs.map (Tree.list Input.tree)),
    ("outputs", x.outputs.map (Tree.list Output.tree)),
    ("timeStart", x.timeStart.map Tree.text),
    ("timeEnd", x.timeEnd.map Tree.text),
    ("workspaces", x.workspaces.map (Tree.list Workspace.tree)),
    ("runtimeTopology", x.runtimeTopology.map (Tree.list Dependency.tree)),
    ("properties", x.properties.map (Tree.list Property.tree))]

/-- The fields of `Workflow`. -/
def Workflow.tree (x : Workflow) : Tree :=
  .mk "Workflow" [("bomRef", some (Tree.text x.bomRef)),
    ("uid", some (Tree.text x.uid)),
    ("name", x.name.map Tree.text),
    ("description", x.description.map Tree.text),
    ("resourceReferences", x.resourceReferences.map (Tree.list ResourceReference.tree)),
    ("tasks", x.tasks.map (Tree.list WorkflowTask.tree)),
    ("taskDependencies", x.taskDependencies.map (Tree.list Dependency.tree)),
    ("taskTypes", some (Tree.list (Tree.name TaskType.display) x.taskTypes)),
    ("trigger", x.trigger.map Trigger.tree),
    ("steps", x.steps.map (Tree.list Step.tree)),
    ("inputs", x.inputs.map (Tree.list Input.tree)),
    ("outputs", x.outputs.map (Tree.list Output.tree)),
    ("timeStart", x.timeStart.map Tree.text),
    ("timeEnd", x.timeEnd.map Tree.text),
    ("workspaces", x.workspaces.map (Tree.list Workspace.tree)),
    ("runtimeTopology", x.runtimeTopology.map (Tree.list Dependency.tree)),
    ("properties", x.properties.map (Tree.list Property.tree))]

/-- The fields of `Formula`. -/
def Formula.tree (x : Formula) : Tree :=
  .mk "Formula" [("bomRef", x.bomRef.map Tree.text),
    ("components", x.components.map (Tree.list Component.tree)),
    ("services", x.services.map (Tree.list Service.tree)),
    ("workflows", x.workflows.map (Tree.list Workflow.tree)),
    ("properties", x.properties.map (Tree.list Property.tree))]

/-- The fields of a document. -/
def Bom.tree (x : Bom) : Tree :=
  .mk "Bom" [("version", some (.number x.version)),
    ("serialNumber", x.serialNumber.map .text),
    ("metadata", x.metadata.map Metadata.tree),
    ("components", x.components.map (.list Component.tree)),
    ("services", x.services.map (.list Service.tree)),
    ("externalReferences", x.externalReferences.map (.list ExternalReference.tree)),
    ("dependencies", x.dependencies.map (.list Dependency.tree)),
    ("compositions", x.compositions.map (.list Composition.tree)),
    ("vulnerabilities", x.vulnerabilities.map (.list Vulnerability.tree)),
    ("signature", x.signature.map Signature.tree),
    ("annotations", x.annotations.map (.list Annotation.tree)),
    ("properties", x.properties.map (.list Property.tree)),
    ("formulation", x.formulation.map (.list Formula.tree))]

end Cdx
