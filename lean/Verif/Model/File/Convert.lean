import Verif.Model.File.Types
import Verif.Model.Format.Bom

set_option linter.unusedVariables false

/-!
# From the program's structures to those of the files and back

The `From` and `TryFrom` implementations in `cyclonedx-bom/src/specs`, one by one.
-/

namespace Cdx

/-- The value of a field that only versions 1.4 and 1.5 have, where a structure is built. -/
def Since14.put (v : SpecVersion) {α : Type} (a : α) : Since14 v α :=
  match v with
  | .v1_3 => ()
  | .v1_4 => a
  | .v1_5 => a

/-- The value of a field that only version 1.5 has, where a structure is built. -/
def Since15.put (v : SpecVersion) {α : Type} (a : α) : Since15 v α :=
  match v with
  | .v1_3 => ()
  | .v1_4 => ()
  | .v1_5 => a

/-- The same where the value is the result of a conversion that may fail. -/
def Since14.tryPut (v : SpecVersion) {α : Type} (a : Except String α) : Except String (Since14 v α) :=
  match v with
  | .v1_3 => .ok ()
  | .v1_4 => a
  | .v1_5 => a

/-- The same where the value is the result of a conversion that may fail. -/
def Since15.tryPut (v : SpecVersion) {α : Type} (a : Except String α) : Except String (Since15 v α) :=
  match v with
  | .v1_3 => .ok ()
  | .v1_4 => .ok ()
  | .v1_5 => a

/-- A field that only versions 1.4 and 1.5 have, `None` in the other. -/
def Since14.get (v : SpecVersion) {α : Type} (x : Since14 v (Option α)) : Option α :=
  match v, x with
  | .v1_3, _ => none
  | .v1_4, x => x
  | .v1_5, x => x

/-- A field that only version 1.5 has, `None` in the others. -/
def Since15.get (v : SpecVersion) {α : Type} (x : Since15 v (Option α)) : Option α :=
  match v, x with
  | .v1_3, _ => none
  | .v1_4, _ => none
  | .v1_5, x => x

/-- `try_convert_optional` (`utilities.rs` 21-28). -/
def tryOptional {α β : Type} (f : α → Except String β) : Option α → Except String (Option β)
  | none => .ok none
  | some a => (f a).map some

/-- `try_convert_vec` (`utilities.rs` 34-41). -/
def tryVec {α β : Type} (f : α → Except String β) : List α → Except String (List β)
  | [] => .ok []
  | a :: l => do
    let b ← f a
    let bs ← tryVec f l
    .ok (b :: bs)

/-- `Algorithm` into the enumeration of the files, which has the same variants and the same
`Display` and `new_unchecked` (`specs/common/signature.rs` 196-236), so that the same type stands for
both (238-242). -/
def Algorithm.toFile (a : Algorithm) : Algorithm := Algorithm.new a.display

/-- `Algorithm` from the enumeration of the files (`specs/common/signature.rs` 244-248). -/
def Algorithm.toModel (a : Algorithm) : Algorithm := Algorithm.new a.display

/-- `SpdxExpression` into the structure of the files (`specs/common/license.rs` 531-538). -/
def SpdxExpression.toFile (x : SpdxExpression) : File.SpdxExpression :=
  { bomRef := x.bomRef,
    expression := x.expression }

/-- `SpdxExpression` from the structure of the files (`specs/common/license.rs` 522-529). -/
def File.SpdxExpression.toModel (x : File.SpdxExpression) : Cdx.SpdxExpression :=
  { bomRef := x.bomRef,
    expression := x.expression }

/-- `AttachedText` into the structure of the files (`specs/common/attached_text.rs` 38-46). -/
def AttachedText.toFile (x : AttachedText) : File.AttachedText :=
  { contentType := x.contentType,
    encoding := x.encoding.map Encoding.display,
    content := x.content }

/-- `AttachedText` from the structure of the files (`specs/common/attached_text.rs` 48-58). -/
def File.AttachedText.toModel (x : File.AttachedText) : Cdx.AttachedText :=
  { contentType := x.contentType,
    encoding := x.encoding.map Encoding.new,
    content := x.content }

/-- `Attachment` into the structure of the files (`specs/v1_5/attachment.rs` 47-55). -/
def Attachment.toFile (x : Attachment) : File.Attachment :=
  { content := x.content,
    contentType := x.contentType,
    encoding := x.encoding }

/-- `Attachment` from the structure of the files (`specs/v1_5/attachment.rs` 57-65). -/
def File.Attachment.toModel (x : File.Attachment) : Cdx.Attachment :=
  { content := x.content,
    contentType := x.contentType,
    encoding := x.encoding }

/-- `OrganizationalContact` into the structure of the files (`specs/common/organization.rs` 46-55). -/
def OrganizationalContact.toFile (x : OrganizationalContact) : File.OrganizationalContact :=
  { bomRef := x.bomRef,
    name := x.name,
    email := x.email,
    phone := x.phone }

/-- `OrganizationalContact` from the structure of the files (`specs/common/organization.rs` 57-66). -/
def File.OrganizationalContact.toModel (x : File.OrganizationalContact) : Cdx.OrganizationalContact :=
  { bomRef := x.bomRef,
    name := x.name,
    email := x.email,
    phone := x.phone }

/-- `OrganizationalEntity` into the structure of the files (`specs/common/organization.rs` 184-195). -/
def OrganizationalEntity.toFile (x : OrganizationalEntity) : File.OrganizationalEntity :=
  { bomRef := x.bomRef,
    name := x.name,
    url := x.url,
    contact := x.contact.map (List.map OrganizationalContact.toFile) }

/-- `OrganizationalEntity` from the structure of the files (`specs/common/organization.rs` 197-206). -/
def File.OrganizationalEntity.toModel (x : File.OrganizationalEntity) : Cdx.OrganizationalEntity :=
  { bomRef := x.bomRef,
    name := x.name,
    url := x.url,
    contact := x.contact.map (List.map File.OrganizationalContact.toModel) }

/-- `Property` into the structure of the files (`specs/common/property.rs` 86-93). -/
def Property.toFile (x : Property) : File.Property :=
  { name := x.name,
    value := x.value }

/-- `Property` from the structure of the files (`specs/common/property.rs` 95-102). -/
def File.Property.toModel (x : File.Property) : Cdx.Property :=
  { name := x.name,
    value := x.value }

/-- `Hash` into the structure of the files (`specs/common/hash.rs` 86-93). -/
def Hash.toFile (x : Hash) : File.Hash :=
  { alg := HashAlgorithm.display x.alg,
    content := x.content }

/-- `Hash` from the structure of the files (`specs/common/hash.rs` 95-102). -/
def File.Hash.toModel (x : File.Hash) : Cdx.Hash :=
  { alg := HashAlgorithm.new x.alg,
    content := x.content }

/-- `ExternalReference` into the structure of the files (`specs/common/external_reference.rs` 97-106). -/
def ExternalReference.toFile (x : ExternalReference) : File.ExternalReference :=
  { externalReferenceType := ExternalReferenceType.display x.externalReferenceType,
    url := RefUri.display x.url,
    comment := x.comment,
    hashes := x.hashes.map (List.map Hash.toFile) }

/-- `ExternalReference` from the structure of the files (`specs/common/external_reference.rs` 108-120). -/
def File.ExternalReference.toModel (x : File.ExternalReference) : Cdx.ExternalReference :=
  { externalReferenceType := ExternalReferenceType.new x.externalReferenceType,
    url := RefUri.ofUrl x.url,
    comment := x.comment,
    hashes := x.hashes.map (List.map File.Hash.toModel) }

/-- `LicenseIdentifier` into the structure of the files (`specs/common/license.rs` 421-428). -/
def LicenseIdentifier.toFile : LicenseIdentifier → File.LicenseIdentifier
  | .spdxId id => .spdxId id
  | .name n => .name n

/-- `LicenseIdentifier` from the structure of the files (`specs/common/license.rs` 430-437). -/
def File.LicenseIdentifier.toModel : File.LicenseIdentifier → Cdx.LicenseIdentifier
  | .spdxId id => .spdxId id
  | .name n => .name n

/-- `LicenseContact` into the structure of the files (`specs/v1_5/licensing.rs` 108-115). -/
def LicenseContact.toFile : LicenseContact → File.LicenseContact
  | .organization o => .organization (OrganizationalEntity.toFile o)
  | .contact c => .individual (OrganizationalContact.toFile c)

/-- `LicenseContact` from the structure of the files (`specs/v1_5/licensing.rs` 99-106). -/
def File.LicenseContact.toModel : File.LicenseContact → Cdx.LicenseContact
  | .organization o => .organization (File.OrganizationalEntity.toModel o)
  | .individual c => .contact (File.OrganizationalContact.toModel c)

/-- `Licensing` into the structure of the files (`specs/v1_5/licensing.rs` 73-90). -/
def Licensing.toFile (x : Licensing) : File.Licensing :=
  { altIds := x.altIds,
    licensor := x.licensor.map LicenseContact.toFile,
    licensee := x.licensee.map LicenseContact.toFile,
    purchaser := x.purchaser.map LicenseContact.toFile,
    purchaseOrder := x.purchaseOrder,
    licenseTypes := x.licenseTypes.map (List.map LicenseType.display),
    lastRenewal := x.lastRenewal,
    expiration := x.expiration }

/-- `Licensing` from the structure of the files (`specs/v1_5/licensing.rs` 49-71). -/
def File.Licensing.toModel (x : File.Licensing) : Cdx.Licensing :=
  { altIds := x.altIds,
    licensor := x.licensor.map File.LicenseContact.toModel,
    licensee := x.licensee.map File.LicenseContact.toModel,
    purchaser := x.purchaser.map File.LicenseContact.toModel,
    purchaseOrder := x.purchaseOrder,
    licenseTypes := x.licenseTypes.map (List.map LicenseType.new),
    lastRenewal := x.lastRenewal,
    expiration := x.expiration }

/-- `License` into the structure of the files (`specs/common/license.rs` 217-231). -/
def License.toFile (v : SpecVersion) (x : License) : File.License v :=
  { bomRef := Since15.put v x.bomRef,
    licenseIdentifier := LicenseIdentifier.toFile x.licenseIdentifier,
    text := x.text.map AttachedText.toFile,
    url := x.url,
    licensing := Since15.put v (x.licensing.map Licensing.toFile),
    properties := Since15.put v (x.properties.map (List.map Property.toFile)) }

/-- `License` from the structure of the files (`specs/common/license.rs` 233-253). -/
def File.License.toModel {v : SpecVersion} (x : File.License v) : Cdx.License :=
  { bomRef := (Since15.get v x.bomRef),
    licenseIdentifier := File.LicenseIdentifier.toModel x.licenseIdentifier,
    text := x.text.map File.AttachedText.toModel,
    url := x.url,
    licensing := (Since15.get v x.licensing).map File.Licensing.toModel,
    properties := (Since15.get v x.properties).map (List.map File.Property.toModel) }

/-- `LicenseChoice` into the structure of the files (`specs/common/license.rs` 130-137). -/
def LicenseChoice.toFile (v : SpecVersion) : LicenseChoice → File.LicenseChoice v
  | .license l => .license ((License.toFile v) l)
  | .expression e => .expression (SpdxExpression.toFile e)

/-- `LicenseChoice` from the structure of the files (`specs/common/license.rs` 139-146). -/
def File.LicenseChoice.toModel {v : SpecVersion} : File.LicenseChoice v → Cdx.LicenseChoice
  | .license l => .license (File.License.toModel l)
  | .expression e => .expression (File.SpdxExpression.toModel e)

/-- `IdentifiableAction` into the structure of the files (`specs/common/code.rs` 245-253). -/
def IdentifiableAction.toFile (x : IdentifiableAction) : File.IdentifiableAction :=
  { timestamp := x.timestamp,
    name := x.name,
    email := x.email }

/-- `IdentifiableAction` from the structure of the files (`specs/common/code.rs` 255-263). -/
def File.IdentifiableAction.toModel (x : File.IdentifiableAction) : Cdx.IdentifiableAction :=
  { timestamp := x.timestamp,
    name := x.name,
    email := x.email }

/-- `Commit` into the structure of the files (`specs/common/code.rs` 100-110). -/
def Commit.toFile (x : Commit) : File.Commit :=
  { uid := x.uid,
    url := x.url,
    author := x.author.map IdentifiableAction.toFile,
    committer := x.committer.map IdentifiableAction.toFile,
    message := x.message }

/-- `Commit` from the structure of the files (`specs/common/code.rs` 112-122). -/
def File.Commit.toModel (x : File.Commit) : Cdx.Commit :=
  { uid := x.uid,
    url := x.url,
    author := x.author.map File.IdentifiableAction.toModel,
    committer := x.committer.map File.IdentifiableAction.toModel,
    message := x.message }

/-- `Diff` into the structure of the files (`specs/common/code.rs` 522-529). -/
def Diff.toFile (x : Diff) : File.Diff :=
  { text := x.text.map AttachedText.toFile,
    url := x.url }

/-- `Diff` from the structure of the files (`specs/common/code.rs` 531-538). -/
def File.Diff.toModel (x : File.Diff) : Cdx.Diff :=
  { text := x.text.map File.AttachedText.toModel,
    url := x.url }

/-- `Source` into the structure of the files (`specs/common/code.rs` 788-795). -/
def Source.toFile (x : Source) : File.Source :=
  { name := x.name,
    url := x.url }

/-- `Source` from the structure of the files (`specs/common/code.rs` 797-804). -/
def File.Source.toModel (x : File.Source) : Cdx.Source :=
  { name := x.name,
    url := x.url }

/-- `Issue` into the structure of the files (`specs/common/code.rs` 632-645). -/
def Issue.toFile (x : Issue) : File.Issue :=
  { issueType := IssueClassification.display x.issueType,
    id := x.id,
    name := x.name,
    description := x.description,
    source := x.source.map Source.toFile,
    references := x.references }

/-- `Issue` from the structure of the files (`specs/common/code.rs` 647-660). -/
def File.Issue.toModel (x : File.Issue) : Cdx.Issue :=
  { issueType := IssueClassification.new x.issueType,
    id := x.id,
    name := x.name,
    description := x.description,
    source := x.source.map File.Source.toModel,
    references := x.references }

/-- `Patch` into the structure of the files (`specs/common/code.rs` 408-416). -/
def Patch.toFile (x : Patch) : File.Patch :=
  { patchType := PatchClassification.display x.patchType,
    diff := x.diff.map Diff.toFile,
    resolves := x.resolves.map (List.map Issue.toFile) }

/-- `Patch` from the structure of the files (`specs/common/code.rs` 418-426). -/
def File.Patch.toModel (x : File.Patch) : Cdx.Patch :=
  { patchType := PatchClassification.new x.patchType,
    diff := x.diff.map File.Diff.toModel,
    resolves := x.resolves.map (List.map File.Issue.toModel) }

/-- `Signer` into the structure of the files (`specs/common/signature.rs` 164-171). -/
def Signer.toFile (x : Signer) : File.Signer :=
  { algorithm := Algorithm.toFile x.algorithm,
    value := x.value }

/-- `Signer` from the structure of the files (`specs/common/signature.rs` 173-180). -/
def File.Signer.toModel (x : File.Signer) : Cdx.Signer :=
  { algorithm := Algorithm.toModel x.algorithm,
    value := x.value }

/-- `Signature` into the structure of the files (`specs/common/signature.rs` 150-162). -/
def Signature.toFile : Signature → File.Signature
  | .signers l => .signers (l.map Signer.toFile)
  | .chain l => .chain (l.map Signer.toFile)
  | .single s => .single (Signer.toFile s)

/-- `Signature` from the structure of the files (`specs/common/signature.rs` 182-194). -/
def File.Signature.toModel : File.Signature → Cdx.Signature
  | .signers l => .signers (l.map File.Signer.toModel)
  | .chain l => .chain (l.map File.Signer.toModel)
  | .single s => .single (File.Signer.toModel s)

/-- `DataGovernanceResponsibleParty` into the structure of the files (`specs/v1_5/data_governance.rs` 171-184). -/
def DataGovernanceResponsibleParty.toFile : DataGovernanceResponsibleParty → File.DataGovernanceResponsibleParty
  | .organization o => .organization (OrganizationalEntity.toFile o)
  | .contact c => .contact (OrganizationalContact.toFile c)

/-- `DataGovernanceResponsibleParty` from the structure of the files (`specs/v1_5/data_governance.rs` 186-197). -/
def File.DataGovernanceResponsibleParty.toModel : File.DataGovernanceResponsibleParty → Cdx.DataGovernanceResponsibleParty
  | .organization o => .organization (File.OrganizationalEntity.toModel o)
  | .contact c => .contact (File.OrganizationalContact.toModel c)

/-- `DataGovernance` into the structure of the files (`specs/v1_5/data_governance.rs` 44-52). -/
def DataGovernance.toFile (x : DataGovernance) : File.DataGovernance :=
  { custodians := x.custodians.map (List.map DataGovernanceResponsibleParty.toFile),
    stewards := x.stewards.map (List.map DataGovernanceResponsibleParty.toFile),
    owners := x.owners.map (List.map DataGovernanceResponsibleParty.toFile) }

/-- `DataGovernance` from the structure of the files (`specs/v1_5/data_governance.rs` 54-62). -/
def File.DataGovernance.toModel (x : File.DataGovernance) : Cdx.DataGovernance :=
  { custodians := x.custodians.map (List.map File.DataGovernanceResponsibleParty.toModel),
    stewards := x.stewards.map (List.map File.DataGovernanceResponsibleParty.toModel),
    owners := x.owners.map (List.map File.DataGovernanceResponsibleParty.toModel) }

/-- `Graphic` into the structure of the files (`specs/v1_5/component_data.rs` 588-595). -/
def Graphic.toFile (x : Graphic) : File.Graphic :=
  { name := x.name,
    image := x.image.map Attachment.toFile }

/-- `Graphic` from the structure of the files (`specs/v1_5/component_data.rs` 597-604). -/
def File.Graphic.toModel (x : File.Graphic) : Cdx.Graphic :=
  { name := x.name,
    image := x.image.map File.Attachment.toModel }

/-- `GraphicsCollection` into the structure of the files (`specs/v1_5/component_data.rs` 413-420). -/
def GraphicsCollection.toFile (x : GraphicsCollection) : File.GraphicsCollection :=
  { description := x.description,
    collection := x.collection.map (List.map Graphic.toFile) }

/-- `GraphicsCollection` from the structure of the files (`specs/v1_5/component_data.rs` 422-429). -/
def File.GraphicsCollection.toModel (x : File.GraphicsCollection) : Cdx.GraphicsCollection :=
  { description := x.description,
    collection := x.collection.map (List.map File.Graphic.toModel) }

/-- `DataContents` into the structure of the files (`specs/v1_5/component_data.rs` 293-301). -/
def DataContents.toFile (x : DataContents) : File.DataContents :=
  { attachment := x.attachment.map Attachment.toFile,
    url := x.url,
    properties := x.properties.map (List.map Property.toFile) }

/-- `DataContents` from the structure of the files (`specs/v1_5/component_data.rs` 303-311). -/
def File.DataContents.toModel (x : File.DataContents) : Cdx.DataContents :=
  { attachment := x.attachment.map File.Attachment.toModel,
    url := x.url,
    properties := x.properties.map (List.map File.Property.toModel) }

/-- `ComponentData` into the structure of the files (`specs/v1_5/component_data.rs` 71-85). -/
def ComponentData.toFile (x : ComponentData) : File.ComponentData :=
  { bomRef := x.bomRef,
    dataType := ComponentDataType.display x.dataType,
    name := x.name,
    contents := x.contents.map DataContents.toFile,
    classification := x.classification,
    sensitiveData := x.sensitiveData,
    graphics := x.graphics.map GraphicsCollection.toFile,
    description := x.description,
    governance := x.governance.map DataGovernance.toFile }

/-- `ComponentData` from the structure of the files (`specs/v1_5/component_data.rs` 87-101). -/
def File.ComponentData.toModel (x : File.ComponentData) : Cdx.ComponentData :=
  { bomRef := x.bomRef,
    dataType := ComponentDataType.new x.dataType,
    name := x.name,
    contents := x.contents.map File.DataContents.toModel,
    classification := x.classification,
    sensitiveData := x.sensitiveData,
    graphics := x.graphics.map File.GraphicsCollection.toModel,
    description := x.description,
    governance := x.governance.map File.DataGovernance.toModel }

/-- `ModelParametersApproach` into the structure of the files (`specs/v1_5/modelcard.rs` 373-379). -/
def ModelParametersApproach.toFile (x : ModelParametersApproach) : File.ModelParametersApproach :=
  { approachType := x.approachType.map ApproachType.display }

/-- `ModelParametersApproach` from the structure of the files (`specs/v1_5/modelcard.rs` 381-389). -/
def File.ModelParametersApproach.toModel (x : File.ModelParametersApproach) : Cdx.ModelParametersApproach :=
  { approachType := x.approachType.map ApproachType.new }

/-- `Dataset` into the structure of the files (`specs/v1_5/modelcard.rs` 520-527). -/
def Dataset.toFile : Dataset → File.Dataset
  | .component c => .component (ComponentData.toFile c)
  | .reference r => .reference r

/-- `Dataset` from the structure of the files (`specs/v1_5/modelcard.rs` 529-538). -/
def File.Dataset.toModel : File.Dataset → Cdx.Dataset
  | .component c => .component (File.ComponentData.toModel c)
  | .reference r => .reference r

/-- `MLParameter` into the structure of the files (`specs/v1_5/modelcard.rs` 1179-1185). -/
def MLParameter.toFile (x : MLParameter) : File.MLParameter :=
  { format := x.format }

/-- `MLParameter` from the structure of the files (`specs/v1_5/modelcard.rs` 1187-1193). -/
def File.MLParameter.toModel (x : File.MLParameter) : Cdx.MLParameter :=
  { format := x.format }

/-- `ModelParameters` into the structure of the files (`specs/v1_5/modelcard.rs` 195-207). -/
def ModelParameters.toFile (x : ModelParameters) : File.ModelParameters :=
  { approach := x.approach.map ModelParametersApproach.toFile,
    task := x.task,
    architectureFamily := x.architectureFamily,
    modelArchitecture := x.modelArchitecture,
    datasets := x.datasets.map (List.map Dataset.toFile),
    inputs := x.inputs.map (List.map MLParameter.toFile),
    outputs := x.outputs.map (List.map MLParameter.toFile) }

/-- `ModelParameters` from the structure of the files (`specs/v1_5/modelcard.rs` 209-221). -/
def File.ModelParameters.toModel (x : File.ModelParameters) : Cdx.ModelParameters :=
  { approach := x.approach.map File.ModelParametersApproach.toModel,
    task := x.task,
    architectureFamily := x.architectureFamily,
    modelArchitecture := x.modelArchitecture,
    datasets := x.datasets.map (List.map File.Dataset.toModel),
    inputs := x.inputs.map (List.map File.MLParameter.toModel),
    outputs := x.outputs.map (List.map File.MLParameter.toModel) }

/-- `ConfidenceInterval` into the structure of the files (`specs/v1_5/modelcard.rs` 908-915). -/
def ConfidenceInterval.toFile (x : ConfidenceInterval) : File.ConfidenceInterval :=
  { lowerBound := x.lowerBound,
    upperBound := x.upperBound }

/-- `ConfidenceInterval` from the structure of the files (`specs/v1_5/modelcard.rs` 899-906). -/
def File.ConfidenceInterval.toModel (x : File.ConfidenceInterval) : Cdx.ConfidenceInterval :=
  { lowerBound := x.lowerBound,
    upperBound := x.upperBound }

/-- `PerformanceMetric` into the structure of the files (`specs/v1_5/modelcard.rs` 786-795). -/
def PerformanceMetric.toFile (x : PerformanceMetric) : File.PerformanceMetric :=
  { metricType := x.metricType,
    value := x.value,
    slice := x.slice,
    confidenceInterval := x.confidenceInterval.map ConfidenceInterval.toFile }

/-- `PerformanceMetric` from the structure of the files (`specs/v1_5/modelcard.rs` 775-784). -/
def File.PerformanceMetric.toModel (x : File.PerformanceMetric) : Cdx.PerformanceMetric :=
  { metricType := x.metricType,
    value := x.value,
    slice := x.slice,
    confidenceInterval := x.confidenceInterval.map File.ConfidenceInterval.toModel }

/-- `QuantitativeAnalysis` into the structure of the files (`specs/v1_5/modelcard.rs` 593-600). -/
def QuantitativeAnalysis.toFile (x : QuantitativeAnalysis) : File.QuantitativeAnalysis :=
  { performanceMetrics := x.performanceMetrics.map (List.map PerformanceMetric.toFile),
    graphics := x.graphics.map GraphicsCollection.toFile }

/-- `QuantitativeAnalysis` from the structure of the files (`specs/v1_5/modelcard.rs` 602-609). -/
def File.QuantitativeAnalysis.toModel (x : File.QuantitativeAnalysis) : Cdx.QuantitativeAnalysis :=
  { performanceMetrics := x.performanceMetrics.map (List.map File.PerformanceMetric.toModel),
    graphics := x.graphics.map File.GraphicsCollection.toModel }

/-- `Considerations` into the structure of the files (`specs/v1_5/modelcard.rs` 991-995). -/
def Considerations.toFile (_ : Considerations) : File.Considerations := {}

/-- `Considerations` from the structure of the files (`specs/v1_5/modelcard.rs` 997-1001). -/
def File.Considerations.toModel (_ : File.Considerations) : Cdx.Considerations := {}

/-- `ModelCard` into the structure of the files (`specs/v1_5/modelcard.rs` 55-65). -/
def ModelCard.toFile (x : ModelCard) : File.ModelCard :=
  { bomRef := x.bomRef,
    modelParameters := x.modelParameters.map ModelParameters.toFile,
    quantitativeAnalysis := x.quantitativeAnalysis.map QuantitativeAnalysis.toFile,
    considerations := x.considerations.map Considerations.toFile,
    properties := x.properties.map (List.map Property.toFile) }

/-- `ModelCard` from the structure of the files (`specs/v1_5/modelcard.rs` 67-77). -/
def File.ModelCard.toModel (x : File.ModelCard) : Cdx.ModelCard :=
  { bomRef := x.bomRef,
    modelParameters := x.modelParameters.map File.ModelParameters.toModel,
    quantitativeAnalysis := x.quantitativeAnalysis.map File.QuantitativeAnalysis.toModel,
    considerations := x.considerations.map File.Considerations.toModel,
    properties := x.properties.map (List.map File.Property.toModel) }

/-- `Swid` into the structure of the files (`specs/common/component.rs` 711-723). -/
def Swid.toFile (x : Swid) : File.Swid :=
  { tagId := x.tagId,
    name := x.name,
    version := x.version,
    tagVersion := x.tagVersion,
    patch := x.patch,
    text := x.text.map AttachedText.toFile,
    url := x.url }

/-- `Swid` from the structure of the files (`specs/common/component.rs` 725-737). -/
def File.Swid.toModel (x : File.Swid) : Cdx.Swid :=
  { tagId := x.tagId,
    name := x.name,
    version := x.version,
    tagVersion := x.tagVersion,
    patch := x.patch,
    text := x.text.map File.AttachedText.toModel,
    url := x.url }

/-- `Occurrence` into the structure of the files (`specs/v1_5/evidence.rs` 110-117). -/
def Occurrence.toFile (x : Occurrence) : File.Occurrence :=
  { bomRef := x.bomRef,
    location := x.location }

/-- `Occurrence` from the structure of the files (`specs/v1_5/evidence.rs` 101-108). -/
def File.Occurrence.toModel (x : File.Occurrence) : Cdx.Occurrence :=
  { bomRef := x.bomRef,
    location := x.location }

/-- `Frame` into the structure of the files (`specs/v1_5/evidence.rs` 331-345). -/
def Frame.toFile (x : Frame) : File.Frame :=
  { package := x.package,
    module := x.module,
    function := x.function,
    parameters := x.parameters,
    line := x.line,
    column := x.column,
    fullFilename := x.fullFilename }

/-- `Frame` from the structure of the files (`specs/v1_5/evidence.rs` 312-329). -/
def File.Frame.toModel (x : File.Frame) : Cdx.Frame :=
  { package := x.package,
    module := x.module,
    function := x.function,
    parameters := x.parameters,
    line := x.line,
    column := x.column,
    fullFilename := x.fullFilename }

/-- `Callstack` into the structure of the files (`specs/v1_5/evidence.rs` 200-206). -/
def Callstack.toFile (x : Callstack) : File.Callstack :=
  { frames := x.frames.map Frame.toFile }

/-- `Callstack` from the structure of the files (`specs/v1_5/evidence.rs` 192-198). -/
def File.Callstack.toModel (x : File.Callstack) : Cdx.Callstack :=
  { frames := x.frames.map File.Frame.toModel }

/-- `Method` into the structure of the files (`specs/v1_5/evidence.rs` 715-723). -/
def Method.toFile (x : Method) : File.Method :=
  { technique := x.technique,
    confidence := x.confidence,
    value := x.value }

/-- `Method` from the structure of the files (`specs/v1_5/evidence.rs` 705-713). -/
def File.Method.toModel (x : File.Method) : Cdx.Method :=
  { technique := x.technique,
    confidence := x.confidence,
    value := x.value }

/-- `Identity` into the structure of the files (`specs/v1_5/evidence.rs` 503-512). -/
def Identity.toFile (x : Identity) : File.Identity :=
  { field := IdentityField.display x.field,
    confidence := x.confidence,
    methods := x.methods.map (List.map Method.toFile),
    tools := x.tools }

/-- `Identity` from the structure of the files (`specs/v1_5/evidence.rs` 490-501). -/
def File.Identity.toModel (x : File.Identity) : Cdx.Identity :=
  { field := IdentityField.new x.field,
    confidence := x.confidence,
    methods := x.methods.map (List.map File.Method.toModel),
    tools := x.tools }

/-- `ComponentEvidence` into the structure of the files (`specs/common/component.rs` 916-929). -/
def ComponentEvidence.toFile (v : SpecVersion) (x : ComponentEvidence) : File.ComponentEvidence v :=
  { licenses := x.licenses.map (List.map (LicenseChoice.toFile v)),
    copyright := x.copyright,
    occurrences := Since15.put v (x.occurrences.map (List.map Occurrence.toFile)),
    callstack := Since15.put v (x.callstack.map Callstack.toFile),
    identity := Since15.put v (x.identity.map Identity.toFile) }

/-- `ComponentEvidence` from the structure of the files (`specs/common/component.rs` 931-950). -/
def File.ComponentEvidence.toModel {v : SpecVersion} (x : File.ComponentEvidence v) : Cdx.ComponentEvidence :=
  { licenses := x.licenses.map (List.map File.LicenseChoice.toModel),
    copyright := x.copyright,
    occurrences := (Since15.get v x.occurrences).map (List.map File.Occurrence.toModel),
    callstack := (Since15.get v x.callstack).map File.Callstack.toModel,
    identity := (Since15.get v x.identity).map File.Identity.toModel }

/-- The version of a component into the field of the files (`specs/common/component.rs` 192-197):
version 1.3 insists on one. -/
def File.Version.ofModel (v : SpecVersion) (x : Option String) : Except String (File.Version v) :=
  match v, x with
  | .v1_3, some y => .ok y
  | .v1_3, none => .error "version missing"
  | .v1_4, x => .ok x
  | .v1_5, x => .ok x

/-- The version of a component from the field of the files (`specs/common/component.rs` 248-251). -/
def File.Version.toModel (v : SpecVersion) (x : File.Version v) : Option String :=
  match v, x with
  | .v1_3, x => some x
  | .v1_4, x => x
  | .v1_5, x => x

mutual

/-- An optional list of `Component`s into the structures of the files (`specs/common/component.rs`
70-76, `utilities.rs` 21-28). -/
def Component.toFileOpt (v : SpecVersion) :
    Option (List Component) → Except String (Option (List (File.Component v)))
  | none => .ok none
  | some l => (Component.toFileAll v l).map some
termination_by structural l => l

/-- A list of `Component`s into the structures of the files (`specs/common/component.rs` 70-76,
`utilities.rs` 34-41). -/
def Component.toFileAll (v : SpecVersion) : List Component → Except String (List (File.Component v))
  | [] => .ok []
  | x :: l => do
    let y ← Component.toFile v x
    let ys ← Component.toFileAll v l
    .ok (y :: ys)
termination_by structural l => l

/-- An optional `Pedigree` into the structure of the files (`utilities.rs` 21-28). -/
def Pedigree.toFileOpt (v : SpecVersion) : Option Pedigree → Except String (Option (File.Pedigree v))
  | none => .ok none
  | some x => (Pedigree.toFile v x).map some
termination_by structural x => x

/-- `Pedigree` into the structure of the files (`specs/common/component.rs` 1099-1112). -/
def Pedigree.toFile (v : SpecVersion) : Pedigree → Except String (File.Pedigree v)
  | ⟨ancestors, descendants, variants, commits, patches, notes⟩ => do
    let ancestors' ← Component.toFileOpt v ancestors
    let descendants' ← Component.toFileOpt v descendants
    let variants' ← Component.toFileOpt v variants
    .ok { ancestors := ancestors',
          descendants := descendants',
          variants := variants',
          commits := commits.map (List.map Commit.toFile),
          patches := patches.map (List.map Patch.toFile),
          notes := notes }
termination_by structural x => x

/-- `Component` into the structure of the files (`specs/common/component.rs` 188-233). -/
def Component.toFile (v : SpecVersion) : Component → Except String (File.Component v)
  | ⟨componentType, mimeType, bomRef, supplier, author, publisher, group, name, version, description, scope, hashes, licenses, copyright, cpe, purl, swid, modified, pedigree, externalReferences, properties, components, evidence, signature, modelCard, data⟩ => do
    let version' ← File.Version.ofModel v version
    let pedigree' ← Pedigree.toFileOpt v pedigree
    let components' ← Component.toFileOpt v components
    .ok { componentType := Classification.display componentType,
          mimeType := mimeType,
          bomRef := bomRef,
          supplier := supplier.map OrganizationalEntity.toFile,
          author := author,
          publisher := publisher,
          group := group,
          name := name,
          version := version',
          description := description,
          scope := scope.map Scope.display,
          hashes := hashes.map (List.map Hash.toFile),
          licenses := licenses.map (List.map (LicenseChoice.toFile v)),
          copyright := copyright,
          cpe := cpe,
          purl := purl,
          swid := swid.map Swid.toFile,
          modified := modified,
          pedigree := pedigree',
          externalReferences := externalReferences.map (List.map ExternalReference.toFile),
          properties := properties.map (List.map Property.toFile),
          components := components',
          evidence := evidence.map (ComponentEvidence.toFile v),
          signature := Since14.put v (signature.map Signature.toFile),
          modelCard := Since15.put v (modelCard.map ModelCard.toFile),
          data := Since15.put v (data.map ComponentData.toFile) }
termination_by structural x => x

end

mutual

/-- An optional list of `Component`s from the structures of the files (`specs/common/component.rs`
78-82). -/
def File.Component.toModelOpt {v : SpecVersion} : Option (List (File.Component v)) → Option (List Cdx.Component)
  | none => none
  | some l => some (File.Component.toModelAll l)
termination_by structural l => l

/-- A list of `Component`s from the structures of the files (`specs/common/component.rs` 78-82). -/
def File.Component.toModelAll {v : SpecVersion} : List (File.Component v) → List Cdx.Component
  | [] => []
  | x :: l => File.Component.toModel x :: File.Component.toModelAll l
termination_by structural l => l

/-- An optional `Pedigree` from the structure of the files. -/
def File.Pedigree.toModelOpt {v : SpecVersion} : Option (File.Pedigree v) → Option Cdx.Pedigree
  | none => none
  | some x => some (File.Pedigree.toModel x)
termination_by structural x => x

/-- `Pedigree` from the structure of the files (`specs/common/component.rs` 1114-1125). -/
def File.Pedigree.toModel {v : SpecVersion} : File.Pedigree v → Cdx.Pedigree
  | ⟨ancestors, descendants, variants, commits, patches, notes⟩ =>
    { ancestors := File.Component.toModelOpt ancestors,
      descendants := File.Component.toModelOpt descendants,
      variants := File.Component.toModelOpt variants,
      commits := commits.map (List.map File.Commit.toModel),
      patches := patches.map (List.map File.Patch.toModel),
      notes := notes }
termination_by structural x => x

/-- `Component` from the structure of the files (`specs/common/component.rs` 235-280). -/
def File.Component.toModel {v : SpecVersion} : File.Component v → Cdx.Component
  | ⟨componentType, mimeType, bomRef, supplier, author, publisher, group, name, version, description, scope, hashes, licenses, copyright, cpe, purl, swid, modified, pedigree, externalReferences, properties, components, evidence, signature, modelCard, data⟩ =>
    { componentType := Classification.new componentType,
      mimeType := mimeType,
      bomRef := bomRef,
      supplier := supplier.map File.OrganizationalEntity.toModel,
      author := author,
      publisher := publisher,
      group := group,
      name := name,
      version := File.Version.toModel v version,
      description := description,
      scope := scope.map Scope.new,
      hashes := hashes.map (List.map File.Hash.toModel),
      licenses := licenses.map (List.map File.LicenseChoice.toModel),
      copyright := copyright,
      cpe := cpe,
      purl := purl,
      swid := swid.map File.Swid.toModel,
      modified := modified,
      pedigree := File.Pedigree.toModelOpt pedigree,
      externalReferences := externalReferences.map (List.map File.ExternalReference.toModel),
      properties := properties.map (List.map File.Property.toModel),
      components := File.Component.toModelOpt components,
      evidence := evidence.map File.ComponentEvidence.toModel,
      signature := (Since14.get v signature).map File.Signature.toModel,
      modelCard := (Since15.get v modelCard).map File.ModelCard.toModel,
      data := (Since15.get v data).map File.ComponentData.toModel }
termination_by structural x => x

end

/-- `DataClassification` into the structure of the files (`specs/common/service.rs` 718-725). -/
def DataClassification.toFile (x : DataClassification) : File.DataClassification :=
  { flow := DataFlowType.display x.flow,
    classification := x.classification }

/-- `DataClassification` from the structure of the files (`specs/common/service.rs` 727-734). -/
def File.DataClassification.toModel (x : File.DataClassification) : Cdx.DataClassification :=
  { flow := DataFlowType.new x.flow,
    classification := x.classification }

/-- `ServiceData` into the structure of the files (`specs/v1_5/service_data.rs` 53-68). -/
def ServiceData.toFile (x : ServiceData) : File.ServiceData :=
  { name := x.name,
    description := x.description,
    classification := DataClassification.toFile x.classification,
    governance := x.governance.map DataGovernance.toFile,
    source := x.source,
    destination := x.destination }

/-- `ServiceData` from the structure of the files (`specs/v1_5/service_data.rs` 70-83). -/
def File.ServiceData.toModel (x : File.ServiceData) : Cdx.ServiceData :=
  { name := x.name,
    description := x.description,
    classification := File.DataClassification.toModel x.classification,
    governance := x.governance.map File.DataGovernance.toModel,
    source := x.source,
    destination := x.destination }

/-- `service::Data` into the structure of the files (`specs/common/service.rs` 550-566). -/
def ServiceDataChoice.toFile (v : SpecVersion) : ServiceDataChoice → File.ServiceDataChoice v
  | .classification l => .classification (l.map DataClassification.toFile)
  | .serviceData l =>
    match v with
    | .v1_3 => .classification (l.map fun d => d.classification.toFile)
    | .v1_4 => .classification (l.map fun d => d.classification.toFile)
    | .v1_5 => .serviceData rfl (l.map ServiceData.toFile)

/-- `service::Data` from the structure of the files (`specs/common/service.rs` 568-578). -/
def File.ServiceDataChoice.toModel {v : SpecVersion} : File.ServiceDataChoice v → Cdx.ServiceDataChoice
  | .classification l => .classification (l.map File.DataClassification.toModel)
  | .serviceData _ l => .serviceData (l.map File.ServiceData.toModel)

mutual

/-- An optional list of `Service`s into the structures of the files (`specs/common/service.rs` 60-73). -/
def Service.toFileOpt (v : SpecVersion) : Option (List Service) → Option (List (File.Service v))
  | none => none
  | some l => some (Service.toFileAll v l)
termination_by structural l => l

/-- A list of `Service`s into the structures of the files (`specs/common/service.rs` 60-73). -/
def Service.toFileAll (v : SpecVersion) : List Service → List (File.Service v)
  | [] => []
  | x :: l => Service.toFile v x :: Service.toFileAll v l
termination_by structural l => l

/-- `Service` into the structure of the files (`specs/common/service.rs` 152-179, 182-207). There are two implementations,
`TryFrom` and `From`, that differ only in the type of the result; the first never fails. -/
def Service.toFile (v : SpecVersion) : Service → File.Service v
  | ⟨bomRef, provider, group, name, version, description, endpoints, authenticated, xTrustBoundary, data, licenses, externalReferences, properties, services, signature, trustZone⟩ =>
    { bomRef := bomRef,
      provider := provider.map OrganizationalEntity.toFile,
      group := group,
      name := name,
      version := version,
      description := description,
      endpoints := endpoints,
      authenticated := authenticated,
      xTrustBoundary := xTrustBoundary,
      data := data.map (ServiceDataChoice.toFile v),
      licenses := licenses.map (List.map (LicenseChoice.toFile v)),
      externalReferences := externalReferences.map (List.map ExternalReference.toFile),
      properties := properties.map (List.map Property.toFile),
      services := Service.toFileOpt v services,
      signature := Since14.put v (signature.map Signature.toFile),
      trustZone := Since15.put v trustZone }
termination_by structural x => x

end

mutual

/-- An optional list of `Service`s from the structures of the files (`specs/common/service.rs` 75-79). -/
def File.Service.toModelOpt {v : SpecVersion} : Option (List (File.Service v)) → Option (List Cdx.Service)
  | none => none
  | some l => some (File.Service.toModelAll l)
termination_by structural l => l

/-- A list of `Service`s from the structures of the files (`specs/common/service.rs` 75-79). -/
def File.Service.toModelAll {v : SpecVersion} : List (File.Service v) → List Cdx.Service
  | [] => []
  | x :: l => File.Service.toModel x :: File.Service.toModelAll l
termination_by structural l => l

/-- `Service` from the structure of the files (`specs/common/service.rs` 209-238). -/
def File.Service.toModel {v : SpecVersion} : File.Service v → Cdx.Service
  | ⟨bomRef, provider, group, name, version, description, endpoints, authenticated, xTrustBoundary, data, licenses, externalReferences, properties, services, signature, trustZone⟩ =>
    { bomRef := bomRef,
      provider := provider.map File.OrganizationalEntity.toModel,
      group := group,
      name := name,
      version := version,
      description := description,
      endpoints := endpoints,
      authenticated := authenticated,
      xTrustBoundary := xTrustBoundary,
      data := data.map File.ServiceDataChoice.toModel,
      licenses := licenses.map (List.map File.LicenseChoice.toModel),
      externalReferences := externalReferences.map (List.map File.ExternalReference.toModel),
      properties := properties.map (List.map File.Property.toModel),
      services := File.Service.toModelOpt services,
      signature := (Since14.get v signature).map File.Signature.toModel,
      trustZone := (Since15.get v trustZone) }
termination_by structural x => x

end

/-- `Tool` into the structure of the files (`specs/common/tool.rs` 234-245). -/
def Tool.toFile (v : SpecVersion) (x : Tool) : File.Tool v :=
  { vendor := x.vendor,
    name := x.name,
    version := x.version,
    hashes := x.hashes.map (List.map Hash.toFile),
    externalReferences := Since14.put v (x.externalReferences.map (List.map ExternalReference.toFile)) }

/-- `Tool` from the structure of the files (`specs/common/tool.rs` 247-260). -/
def File.Tool.toModel {v : SpecVersion} (x : File.Tool v) : Cdx.Tool :=
  { vendor := x.vendor,
    name := x.name,
    version := x.version,
    hashes := x.hashes.map (List.map File.Hash.toModel),
    externalReferences := (Since14.get v x.externalReferences).map (List.map File.ExternalReference.toModel) }

/-- `Tools` into the structure of the files (`specs/common/tool.rs` 59-77). -/
def Tools.toFile (v : SpecVersion) : Tools → Except String (File.Tools v)
  | .list l => .ok (.list (l.map (Tool.toFile v)))
  | .object services components =>
    match v with
    | .v1_3 => .ok (.list [])
    | .v1_4 => .ok (.list [])
    | .v1_5 => do
      let components' ← tryOptional (tryVec (Component.toFile .v1_5)) components
      .ok (.object rfl (services.map (List.map (Service.toFile .v1_5))) components')

/-- `Tools` from the structure of the files (`specs/common/tool.rs` 79-93). -/
def File.Tools.toModel {v : SpecVersion} : File.Tools v → Cdx.Tools
  | .list l => .list (l.map File.Tool.toModel)
  | .object _ services components =>
    .object (services.map (List.map File.Service.toModel)) (components.map (List.map File.Component.toModel))

/-- `LifecycleDescription` into the structure of the files (`specs/v1_5/lifecycles.rs` 225-232). -/
def LifecycleDescription.toFile (x : LifecycleDescription) : File.LifecycleDescription :=
  { name := x.name,
    description := x.description }

/-- `LifecycleDescription` from the structure of the files (`specs/v1_5/lifecycles.rs` 234-241). -/
def File.LifecycleDescription.toModel (x : File.LifecycleDescription) : Cdx.LifecycleDescription :=
  { name := x.name,
    description := x.description }

/-- `Lifecycle` into the structure of the files (`specs/v1_5/lifecycles.rs` 96-103). -/
def Lifecycle.toFile : Lifecycle → File.Lifecycle
  | .phase p => .phase (Phase.display p)
  | .description d => .description (LifecycleDescription.toFile d)

/-- `Lifecycle` from the structure of the files (`specs/v1_5/lifecycles.rs` 105-112). -/
def File.Lifecycle.toModel : File.Lifecycle → Cdx.Lifecycle
  | .phase p => .phase (Phase.new p)
  | .description d => .description (File.LifecycleDescription.toModel d)

/-- `Metadata` into the structure of the files (`specs/common/metadata.rs` 75-92). -/
def Metadata.toFile (v : SpecVersion) (x : Metadata) : Except String (File.Metadata v) := do
  let tools' ← tryOptional (Tools.toFile v) x.tools
  let component' ← tryOptional (Component.toFile v) x.component
  .ok { timestamp := x.timestamp,
        tools := tools',
        authors := x.authors.map (List.map OrganizationalContact.toFile),
        component := component',
        manufacture := x.manufacture.map OrganizationalEntity.toFile,
        supplier := x.supplier.map OrganizationalEntity.toFile,
        licenses := x.licenses.map (List.map (LicenseChoice.toFile v)),
        properties := x.properties.map (List.map Property.toFile),
        lifecycles := Since15.put v (x.lifecycles.map (List.map Lifecycle.toFile)) }

/-- `Metadata` from the structure of the files (`specs/common/metadata.rs` 94-111). -/
def File.Metadata.toModel {v : SpecVersion} (x : File.Metadata v) : Cdx.Metadata :=
  { timestamp := x.timestamp,
    tools := x.tools.map File.Tools.toModel,
    authors := x.authors.map (List.map File.OrganizationalContact.toModel),
    component := x.component.map File.Component.toModel,
    manufacture := x.manufacture.map File.OrganizationalEntity.toModel,
    supplier := x.supplier.map File.OrganizationalEntity.toModel,
    licenses := x.licenses.map (List.map File.LicenseChoice.toModel),
    properties := x.properties.map (List.map File.Property.toModel),
    lifecycles := (Since15.get v x.lifecycles).map (List.map File.Lifecycle.toModel) }

/-- `Dependency` into the structure of the files (`specs/common/dependency.rs` 96-103). -/
def Dependency.toFile (x : Dependency) : File.Dependency :=
  { dependencyRef := x.dependencyRef,
    dependsOn := x.dependencies }

/-- `Dependency` from the structure of the files (`specs/common/dependency.rs` 87-94). -/
def File.Dependency.toModel (x : File.Dependency) : Cdx.Dependency :=
  { dependencyRef := x.dependencyRef,
    dependencies := x.dependsOn }

/-- `Composition` into the structure of the files (`specs/common/composition.rs` 107-121). -/
def Composition.toFile (v : SpecVersion) (x : Composition) : File.Composition v :=
  { bomRef := Since15.put v x.bomRef,
    aggregate := AggregateType.display x.aggregate,
    assemblies := x.assemblies,
    dependencies := x.dependencies,
    vulnerabilities := Since15.put v x.vulnerabilities,
    signature := Since14.put v (x.signature.map Signature.toFile) }

/-- `Composition` from the structure of the files (`specs/common/composition.rs` 123-143). -/
def File.Composition.toModel {v : SpecVersion} (x : File.Composition v) : Cdx.Composition :=
  { bomRef := (Since15.get v x.bomRef),
    aggregate := AggregateType.new x.aggregate,
    assemblies := x.assemblies,
    dependencies := x.dependencies,
    vulnerabilities := (Since15.get v x.vulnerabilities),
    signature := (Since14.get v x.signature).map File.Signature.toModel }

/-- `Advisory` into the structure of the files (`specs/common/advisory.rs` 89-96). -/
def Advisory.toFile (x : Advisory) : File.Advisory :=
  { title := x.title,
    url := x.url }

/-- `Advisory` from the structure of the files (`specs/common/advisory.rs` 98-105). -/
def File.Advisory.toModel (x : File.Advisory) : Cdx.Advisory :=
  { title := x.title,
    url := x.url }

/-- `VulnerabilitySource` into the structure of the files (`specs/common/vulnerability_source.rs` 40-47). -/
def VulnerabilitySource.toFile (x : VulnerabilitySource) : File.VulnerabilitySource :=
  { name := x.name,
    url := x.url }

/-- `VulnerabilitySource` from the structure of the files (`specs/common/vulnerability_source.rs` 49-56). -/
def File.VulnerabilitySource.toModel (x : File.VulnerabilitySource) : Cdx.VulnerabilitySource :=
  { name := x.name,
    url := x.url }

/-- `VulnerabilityReference` into the structure of the files (`specs/common/vulnerability_reference.rs` 92-99). -/
def VulnerabilityReference.toFile (x : VulnerabilityReference) : File.VulnerabilityReference :=
  { id := x.id,
    vulnerabilitySource := VulnerabilitySource.toFile x.vulnerabilitySource }

/-- `VulnerabilityReference` from the structure of the files (`specs/common/vulnerability_reference.rs` 101-110). -/
def File.VulnerabilityReference.toModel (x : File.VulnerabilityReference) : Cdx.VulnerabilityReference :=
  { id := x.id,
    vulnerabilitySource := File.VulnerabilitySource.toModel x.vulnerabilitySource }

/-- `VulnerabilityRating` into the structure of the files (`specs/common/vulnerability_rating.rs` 101-112). -/
def VulnerabilityRating.toFile (x : VulnerabilityRating) : File.VulnerabilityRating :=
  { vulnerabilitySource := x.vulnerabilitySource.map VulnerabilitySource.toFile,
    score := x.score,
    severity := x.severity.map Severity.display,
    scoreMethod := x.scoreMethod.map ScoreMethod.display,
    vector := x.vector,
    justification := x.justification }

/-- `VulnerabilityRating` from the structure of the files (`specs/common/vulnerability_rating.rs` 114-125). -/
def File.VulnerabilityRating.toModel (x : File.VulnerabilityRating) : Cdx.VulnerabilityRating :=
  { vulnerabilitySource := x.vulnerabilitySource.map File.VulnerabilitySource.toModel,
    score := x.score,
    severity := x.severity.map Severity.new,
    scoreMethod := x.scoreMethod.map ScoreMethod.new,
    vector := x.vector,
    justification := x.justification }

/-- `VulnerabilityCredits` into the structure of the files (`specs/common/vulnerability_credits.rs` 42-49). -/
def VulnerabilityCredits.toFile (x : VulnerabilityCredits) : File.VulnerabilityCredits :=
  { organizations := x.organizations.map (List.map OrganizationalEntity.toFile),
    individuals := x.individuals.map (List.map OrganizationalContact.toFile) }

/-- `VulnerabilityCredits` from the structure of the files (`specs/common/vulnerability_credits.rs` 51-58). -/
def File.VulnerabilityCredits.toModel (x : File.VulnerabilityCredits) : Cdx.VulnerabilityCredits :=
  { organizations := x.organizations.map (List.map File.OrganizationalEntity.toModel),
    individuals := x.individuals.map (List.map File.OrganizationalContact.toModel) }

/-- `VulnerabilityAnalysis` into the structure of the files (`specs/common/vulnerability_analysis.rs` 58-71). -/
def VulnerabilityAnalysis.toFile (v : SpecVersion) (x : VulnerabilityAnalysis) : File.VulnerabilityAnalysis v :=
  { state := x.state.map ImpactAnalysisState.display,
    justification := x.justification.map ImpactAnalysisJustification.display,
    responses := x.responses.map (List.map ImpactAnalysisResponse.display),
    detail := x.detail,
    firstIssued := Since15.put v x.firstIssued,
    lastUpdated := Since15.put v x.lastUpdated }

/-- `VulnerabilityAnalysis` from the structure of the files (`specs/common/vulnerability_analysis.rs` 73-90). -/
def File.VulnerabilityAnalysis.toModel {v : SpecVersion} (x : File.VulnerabilityAnalysis v) : Cdx.VulnerabilityAnalysis :=
  { state := x.state.map ImpactAnalysisState.new,
    justification := x.justification.map ImpactAnalysisJustification.new,
    responses := x.responses.map (List.map ImpactAnalysisResponse.new),
    detail := x.detail,
    firstIssued := (Since15.get v x.firstIssued),
    lastUpdated := (Since15.get v x.lastUpdated) }

/-- `VersionRange` into the structure of the files (`specs/common/vulnerability_target.rs` 351-361). -/
def VersionRange.toFile : VersionRange → File.VersionRange
  | .version v => .version v
  | .range r => .range r
  | .undefinedVersionRange s => .undefinedVersionRange s

/-- `VersionRange` from the structure of the files (`specs/common/vulnerability_target.rs` 363-371). -/
def File.VersionRange.toModel : File.VersionRange → Cdx.VersionRange
  | .version v => .version v
  | .range r => .range r
  | .undefinedVersionRange s => .undefinedVersionRange s

/-- `TargetVersion` into the structure of the files (`specs/common/vulnerability_target.rs` 247-254). -/
def TargetVersion.toFile (x : TargetVersion) : File.TargetVersion :=
  { versionRange := VersionRange.toFile x.versionRange,
    status := Status.display x.status }

/-- `TargetVersion` from the structure of the files (`specs/common/vulnerability_target.rs` 256-263). -/
def File.TargetVersion.toModel (x : File.TargetVersion) : Cdx.TargetVersion :=
  { versionRange := File.VersionRange.toModel x.versionRange,
    status := Status.new x.status }

/-- `VulnerabilityTarget` into the structure of the files (`specs/common/vulnerability_target.rs` 91-98). -/
def VulnerabilityTarget.toFile (x : VulnerabilityTarget) : File.VulnerabilityTarget :=
  { bomRef := x.bomRef,
    versions := x.versions.map (List.map TargetVersion.toFile) }

/-- `VulnerabilityTarget` from the structure of the files (`specs/common/vulnerability_target.rs` 100-107). -/
def File.VulnerabilityTarget.toModel (x : File.VulnerabilityTarget) : Cdx.VulnerabilityTarget :=
  { bomRef := x.bomRef,
    versions := x.versions.map (List.map File.TargetVersion.toModel) }

/-- `VulnerabilityProofOfConcept` into the structure of the files (`specs/v1_5/proof_of_concept.rs` 54-62). -/
def VulnerabilityProofOfConcept.toFile (x : VulnerabilityProofOfConcept) : File.VulnerabilityProofOfConcept :=
  { reproductionSteps := x.reproductionSteps,
    environment := x.environment,
    supportingMaterial := x.supportingMaterial.map (List.map Attachment.toFile) }

/-- `VulnerabilityProofOfConcept` from the structure of the files (`specs/v1_5/proof_of_concept.rs` 44-52). -/
def File.VulnerabilityProofOfConcept.toModel (x : File.VulnerabilityProofOfConcept) : Cdx.VulnerabilityProofOfConcept :=
  { reproductionSteps := x.reproductionSteps,
    environment := x.environment,
    supportingMaterial := x.supportingMaterial.map (List.map File.Attachment.toModel) }

/-- `Vulnerability` into the structure of the files (`specs/common/vulnerability.rs` 157-188). -/
def Vulnerability.toFile (v : SpecVersion) (x : Vulnerability) : Except String (File.Vulnerability v) := do
  let tools' ← tryOptional (Tools.toFile v) x.tools
  .ok { bomRef := x.bomRef,
        id := x.id,
        vulnerabilitySource := x.vulnerabilitySource.map VulnerabilitySource.toFile,
        vulnerabilityReferences := x.vulnerabilityReferences.map (List.map VulnerabilityReference.toFile),
        vulnerabilityRatings := x.vulnerabilityRatings.map (List.map VulnerabilityRating.toFile),
        cwes := x.cwes,
        description := x.description,
        detail := x.detail,
        recommendation := x.recommendation,
        workaround := Since15.put v x.workaround,
        proofOfConcept := Since15.put v (x.proofOfConcept.map VulnerabilityProofOfConcept.toFile),
        advisories := x.advisories.map (List.map Advisory.toFile),
        created := x.created,
        published := x.published,
        updated := x.updated,
        rejected := Since15.put v x.rejected,
        vulnerabilityCredits := x.vulnerabilityCredits.map VulnerabilityCredits.toFile,
        tools := tools',
        vulnerabilityAnalysis := x.vulnerabilityAnalysis.map (VulnerabilityAnalysis.toFile v),
        vulnerabilityTargets := x.vulnerabilityTargets.map (List.map VulnerabilityTarget.toFile),
        properties := x.properties.map (List.map Property.toFile) }

/-- `Vulnerability` from the structure of the files (`specs/common/vulnerability.rs` 190-225). -/
def File.Vulnerability.toModel {v : SpecVersion} (x : File.Vulnerability v) : Cdx.Vulnerability :=
  { bomRef := x.bomRef,
    id := x.id,
    vulnerabilitySource := x.vulnerabilitySource.map File.VulnerabilitySource.toModel,
    vulnerabilityReferences := x.vulnerabilityReferences.map (List.map File.VulnerabilityReference.toModel),
    vulnerabilityRatings := x.vulnerabilityRatings.map (List.map File.VulnerabilityRating.toModel),
    cwes := x.cwes,
    description := x.description,
    detail := x.detail,
    recommendation := x.recommendation,
    workaround := (Since15.get v x.workaround),
    proofOfConcept := (Since15.get v x.proofOfConcept).map File.VulnerabilityProofOfConcept.toModel,
    advisories := x.advisories.map (List.map File.Advisory.toModel),
    created := x.created,
    published := x.published,
    updated := x.updated,
    rejected := (Since15.get v x.rejected),
    vulnerabilityCredits := x.vulnerabilityCredits.map File.VulnerabilityCredits.toModel,
    tools := x.tools.map File.Tools.toModel,
    vulnerabilityAnalysis := x.vulnerabilityAnalysis.map File.VulnerabilityAnalysis.toModel,
    vulnerabilityTargets := x.vulnerabilityTargets.map (List.map File.VulnerabilityTarget.toModel),
    properties := x.properties.map (List.map File.Property.toModel) }

/-- `Annotator` into the structure of the files (`specs/v1_5/annotation.rs` 170-185). -/
def Annotator.toFile : Annotator → Except String File.Annotator
  | .organization o => .ok (.organization o.toFile)
  | .individual c => .ok (.individual c.toFile)
  | .component c => (Component.toFile .v1_5 c).map .component
  | .service s => .ok (.service (Service.toFile .v1_5 s))

/-- `Annotator` from the structure of the files (`specs/v1_5/annotation.rs` 187-200). -/
def File.Annotator.toModel : File.Annotator → Cdx.Annotator
  | .organization o => .organization (File.OrganizationalEntity.toModel o)
  | .individual c => .individual (File.OrganizationalContact.toModel c)
  | .component c => .component (File.Component.toModel c)
  | .service s => .service (File.Service.toModel s)

/-- `Annotation` into the structure of the files (`specs/v1_5/annotation.rs` 132-145). -/
def Annotation.toFile (x : Annotation) : Except String File.Annotation := do
  let annotator' ← Annotator.toFile x.annotator
  .ok { bomRef := x.bomRef,
        subjects := x.subjects,
        annotator := annotator',
        timestamp := x.timestamp,
        text := x.text,
        signature := x.signature.map Signature.toFile }

/-- `Annotation` from the structure of the files (`specs/v1_5/annotation.rs` 147-158). -/
def File.Annotation.toModel (x : File.Annotation) : Cdx.Annotation :=
  { bomRef := x.bomRef,
    subjects := x.subjects,
    annotator := File.Annotator.toModel x.annotator,
    timestamp := x.timestamp,
    text := x.text,
    signature := x.signature.map File.Signature.toModel }

/-- `ResourceReference` into the structure of the files (`specs/v1_5/formulation/workflow/resource_reference.rs` 88-99). -/
def ResourceReference.toFile : ResourceReference → File.ResourceReference
  | .ref r => .ref r
  | .externalReference e => .externalReference (ExternalReference.toFile e)

/-- `ResourceReference` from the structure of the files (`specs/v1_5/formulation/workflow/resource_reference.rs` 101-112). -/
def File.ResourceReference.toModel : File.ResourceReference → Cdx.ResourceReference
  | .ref r => .ref r
  | .externalReference e => .externalReference (File.ExternalReference.toModel e)

/-- `EnvironmentVar` into the structure of the files (`specs/v1_5/formulation/workflow/mod.rs` 528-535). -/
def EnvironmentVar.toFile : EnvironmentVar → File.EnvironmentVar
  | .property k w => .property k w
  | .value v => .value v

/-- `EnvironmentVar` from the structure of the files (`specs/v1_5/formulation/workflow/mod.rs` 537-544). -/
def File.EnvironmentVar.toModel : File.EnvironmentVar → Cdx.EnvironmentVar
  | .property k w => .property k w
  | .value v => .value v

/-- `Parameter` into the structure of the files (`specs/v1_5/formulation/workflow/input.rs` 248-256). -/
def Parameter.toFile (x : Parameter) : File.Parameter :=
  { name := x.name,
    value := x.value,
    dataType := x.dataType }

/-- `Parameter` from the structure of the files (`specs/v1_5/formulation/workflow/input.rs` 258-266). -/
def File.Parameter.toModel (x : File.Parameter) : Cdx.Parameter :=
  { name := x.name,
    value := x.value,
    dataType := x.dataType }

/-- `RequiredInputField` into the structure of the files (`specs/v1_5/formulation/workflow/input.rs` 29-57). -/
def RequiredInputField.toFile : RequiredInputField → File.RequiredInputField
  | .resource r => .resource (ResourceReference.toFile r)
  | .parameters p => .parameters (p.map Parameter.toFile)
  | .environmentVars v => .environmentVars (v.map EnvironmentVar.toFile)
  | .data a => .data (Attachment.toFile a)

/-- `RequiredInputField` from the structure of the files (`specs/v1_5/formulation/workflow/input.rs` 59-87). -/
def File.RequiredInputField.toModel : File.RequiredInputField → Cdx.RequiredInputField
  | .resource r => .resource (File.ResourceReference.toModel r)
  | .parameters p => .parameters (p.map File.Parameter.toModel)
  | .environmentVars v => .environmentVars (v.map File.EnvironmentVar.toModel)
  | .data a => .data (File.Attachment.toModel a)

/-- `Input` into the structure of the files (`specs/v1_5/formulation/workflow/input.rs` 29-57). -/
def Input.toFile (x : Input) : File.Input :=
  { required := RequiredInputField.toFile x.required,
    source := x.source.map ResourceReference.toFile,
    target := x.target.map ResourceReference.toFile,
    properties := x.properties.map (List.map Property.toFile) }

/-- `Input` from the structure of the files (`specs/v1_5/formulation/workflow/input.rs` 59-87). -/
def File.Input.toModel (x : File.Input) : Cdx.Input :=
  { required := File.RequiredInputField.toModel x.required,
    source := x.source.map File.ResourceReference.toModel,
    target := x.target.map File.ResourceReference.toModel,
    properties := x.properties.map (List.map File.Property.toModel) }

/-- `RequiredOutputField` into the structure of the files (`specs/v1_5/formulation/workflow/output.rs` 30-54). -/
def RequiredOutputField.toFile : RequiredOutputField → File.RequiredOutputField
  | .resource r => .resource (ResourceReference.toFile r)
  | .environmentVars v => .environmentVars (v.map EnvironmentVar.toFile)
  | .data a => .data (Attachment.toFile a)

/-- `RequiredOutputField` from the structure of the files (`specs/v1_5/formulation/workflow/output.rs` 56-82). -/
def File.RequiredOutputField.toModel : File.RequiredOutputField → Cdx.RequiredOutputField
  | .resource r => .resource (File.ResourceReference.toModel r)
  | .environmentVars v => .environmentVars (v.map File.EnvironmentVar.toModel)
  | .data a => .data (File.Attachment.toModel a)

/-- `Output` into the structure of the files (`specs/v1_5/formulation/workflow/output.rs` 30-54). -/
def Output.toFile (x : Output) : File.Output :=
  { required := RequiredOutputField.toFile x.required,
    type := x.type.map OutputType.display,
    source := x.source.map ResourceReference.toFile,
    target := x.target.map ResourceReference.toFile,
    properties := x.properties.map (List.map Property.toFile) }

/-- `Output` from the structure of the files (`specs/v1_5/formulation/workflow/output.rs` 56-82). -/
def File.Output.toModel (x : File.Output) : Cdx.Output :=
  { required := File.RequiredOutputField.toModel x.required,
    type := x.type.map OutputType.new,
    source := x.source.map File.ResourceReference.toModel,
    target := x.target.map File.ResourceReference.toModel,
    properties := x.properties.map (List.map File.Property.toModel) }

/-- `Command` into the structure of the files (`specs/v1_5/formulation/workflow/step.rs` 140-147). -/
def Command.toFile (x : Command) : File.Command :=
  { executed := x.executed,
    properties := x.properties.map (List.map Property.toFile) }

/-- `Command` from the structure of the files (`specs/v1_5/formulation/workflow/step.rs` 149-156). -/
def File.Command.toModel (x : File.Command) : Cdx.Command :=
  { executed := x.executed,
    properties := x.properties.map (List.map File.Property.toModel) }

/-- `Step` into the structure of the files (`specs/v1_5/formulation/workflow/step.rs` 27-36). -/
def Step.toFile (x : Step) : File.Step :=
  { commands := x.commands.map (List.map Command.toFile),
    description := x.description,
    name := x.name,
    properties := x.properties.map (List.map Property.toFile) }

/-- `Step` from the structure of the files (`specs/v1_5/formulation/workflow/step.rs` 38-47). -/
def File.Step.toModel (x : File.Step) : Cdx.Step :=
  { commands := x.commands.map (List.map File.Command.toModel),
    description := x.description,
    name := x.name,
    properties := x.properties.map (List.map File.Property.toModel) }

/-- `TriggerEvent` into the structure of the files (`specs/v1_5/formulation/workflow/trigger.rs` 255-267). -/
def TriggerEvent.toFile (x : TriggerEvent) : File.TriggerEvent :=
  { uid := x.uid,
    description := x.description,
    timeReceived := x.timeReceived,
    data := x.data.map Attachment.toFile,
    source := x.source.map ResourceReference.toFile,
    target := x.target.map ResourceReference.toFile,
    properties := x.properties.map (List.map Property.toFile) }

/-- `TriggerEvent` from the structure of the files (`specs/v1_5/formulation/workflow/trigger.rs` 269-281). -/
def File.TriggerEvent.toModel (x : File.TriggerEvent) : Cdx.TriggerEvent :=
  { uid := x.uid,
    description := x.description,
    timeReceived := x.timeReceived,
    data := x.data.map File.Attachment.toModel,
    source := x.source.map File.ResourceReference.toModel,
    target := x.target.map File.ResourceReference.toModel,
    properties := x.properties.map (List.map File.Property.toModel) }

/-- `Condition` into the structure of the files (`specs/v1_5/formulation/workflow/trigger.rs` 404-412). -/
def Condition.toFile (x : Condition) : File.Condition :=
  { description := x.description,
    expression := x.expression,
    properties := x.properties.map (List.map Property.toFile) }

/-- `Condition` from the structure of the files (`specs/v1_5/formulation/workflow/trigger.rs` 414-422). -/
def File.Condition.toModel (x : File.Condition) : Cdx.Condition :=
  { description := x.description,
    expression := x.expression,
    properties := x.properties.map (List.map File.Property.toModel) }

/-- `Trigger` into the structure of the files (`specs/v1_5/formulation/workflow/trigger.rs` 50-68). -/
def Trigger.toFile (x : Trigger) : File.Trigger :=
  { bomRef := x.bomRef,
    uid := x.uid,
    name := x.name,
    description := x.description,
    resourceReferences := x.resourceReferences.map (List.map ResourceReference.toFile),
    type := TriggerType.display x.type,
    event := x.event.map TriggerEvent.toFile,
    conditions := x.conditions.map (List.map Condition.toFile),
    timeActivated := x.timeActivated,
    inputs := x.inputs.map (List.map Input.toFile),
    outputs := x.outputs.map (List.map Output.toFile),
    properties := x.properties.map (List.map Property.toFile) }

/-- `Trigger` from the structure of the files (`specs/v1_5/formulation/workflow/trigger.rs` 70-87). -/
def File.Trigger.toModel (x : File.Trigger) : Cdx.Trigger :=
  { bomRef := x.bomRef,
    uid := x.uid,
    name := x.name,
    description := x.description,
    resourceReferences := x.resourceReferences.map (List.map File.ResourceReference.toModel),
    type := TriggerType.new x.type,
    event := x.event.map File.TriggerEvent.toModel,
    conditions := x.conditions.map (List.map File.Condition.toModel),
    timeActivated := x.timeActivated,
    inputs := x.inputs.map (List.map File.Input.toModel),
    outputs := x.outputs.map (List.map File.Output.toModel),
    properties := x.properties.map (List.map File.Property.toModel) }

/-- `Volume` into the structure of the files (`specs/v1_5/formulation/workflow/workspace/volume.rs` 30-43). -/
def Volume.toFile (x : Volume) : File.Volume :=
  { uid := x.uid,
    name := x.name,
    mode := some (VolumeMode.display x.mode),
    path := x.path,
    sizeAllocated := x.sizeAllocated,
    persistent := x.persistent,
    remote := x.remote,
    properties := x.properties.map (List.map Property.toFile) }

/-- `Volume` from the structure of the files (`specs/v1_5/formulation/workflow/workspace/volume.rs` 45-61). -/
def File.Volume.toModel (x : File.Volume) : Cdx.Volume :=
  { uid := x.uid,
    name := x.name,
    mode := (x.mode.map VolumeMode.new).getD .filesystem,
    path := x.path,
    sizeAllocated := x.sizeAllocated,
    persistent := x.persistent,
    remote := x.remote,
    properties := x.properties.map (List.map File.Property.toModel) }

/-- `Workspace` into the structure of the files (`specs/v1_5/formulation/workflow/workspace/mod.rs` 49-69). -/
def Workspace.toFile (x : Workspace) : File.Workspace :=
  { bomRef := x.bomRef,
    uid := x.uid,
    name := x.name,
    aliases := x.aliases,
    description := x.description,
    resourceReferences := x.resourceReferences.map (List.map ResourceReference.toFile),
    accessMode := x.accessMode.map AccessMode.display,
    mountPath := x.mountPath,
    managedDataType := x.managedDataType,
    volumeRequest := x.volumeRequest,
    volume := x.volume.map Volume.toFile,
    properties := x.properties.map (List.map Property.toFile) }

/-- `Workspace` from the structure of the files (`specs/v1_5/formulation/workflow/workspace/mod.rs` 71-90). -/
def File.Workspace.toModel (x : File.Workspace) : Cdx.Workspace :=
  { bomRef := x.bomRef,
    uid := x.uid,
    name := x.name,
    aliases := x.aliases,
    description := x.description,
    resourceReferences := x.resourceReferences.map (List.map File.ResourceReference.toModel),
    accessMode := x.accessMode.map AccessMode.new,
    mountPath := x.mountPath,
    managedDataType := x.managedDataType,
    volumeRequest := x.volumeRequest,
    volume := x.volume.map File.Volume.toModel,
    properties := x.properties.map (List.map File.Property.toModel) }

/-- `WorkflowTask` into the structure of the files (`specs/v1_5/formulation/workflow/mod.rs` 314-339). -/
def WorkflowTask.toFile (x : WorkflowTask) : File.WorkflowTask :=
  { bomRef := x.bomRef,
    uid := x.uid,
    name := x.name,
    description := x.description,
    resourceReferences := x.resourceReferences.map (List.map ResourceReference.toFile),
    taskTypes := x.taskTypes.map TaskType.display,
    trigger := x.trigger.map Trigger.toFile,
    steps := x.steps.map (List.map Step.toFile),
    inputs := x.inputs.map (List.map Input.toFile),
    outputs := x.outputs.map (List.map Output.toFile),
    timeStart := x.timeStart,
    timeEnd := x.timeEnd,
    workspaces := x.workspaces.map (List.map Workspace.toFile),
    runtimeTopology := x.runtimeTopology.map (List.map Dependency.toFile),
    properties := x.properties.map (List.map Property.toFile) }

/-- `WorkflowTask` from the structure of the files (`specs/v1_5/formulation/workflow/mod.rs` 341-365). -/
def File.WorkflowTask.toModel (x : File.WorkflowTask) : Cdx.WorkflowTask :=
  { bomRef := x.bomRef,
    uid := x.uid,
    name := x.name,
    description := x.description,
    resourceReferences := x.resourceReferences.map (List.map File.ResourceReference.toModel),
    taskTypes := x.taskTypes.map TaskType.new,
    trigger := x.trigger.map File.Trigger.toModel,
    steps := x.steps.map (List.map File.Step.toModel),
    inputs := x.inputs.map (List.map File.Input.toModel),
    outputs := x.outputs.map (List.map File.Output.toModel),
    timeStart := x.timeStart,
    timeEnd := x.timeEnd,
    workspaces := x.workspaces.map (List.map File.Workspace.toModel),
    runtimeTopology := x.runtimeTopology.map (List.map File.Dependency.toModel),
    properties := x.properties.map (List.map File.Property.toModel) }

/-- `Workflow` into the structure of the files (`specs/v1_5/formulation/workflow/mod.rs` 69-96). -/
def Workflow.toFile (x : Workflow) : File.Workflow :=
  { bomRef := x.bomRef,
    uid := x.uid,
    name := x.name,
    description := x.description,
    resourceReferences := x.resourceReferences.map (List.map ResourceReference.toFile),
    tasks := x.tasks.map (List.map WorkflowTask.toFile),
    taskDependencies := x.taskDependencies.map (List.map Dependency.toFile),
    taskTypes := x.taskTypes.map TaskType.display,
    trigger := x.trigger.map Trigger.toFile,
    steps := x.steps.map (List.map Step.toFile),
    inputs := x.inputs.map (List.map Input.toFile),
    outputs := x.outputs.map (List.map Output.toFile),
    timeStart := x.timeStart,
    timeEnd := x.timeEnd,
    workspaces := x.workspaces.map (List.map Workspace.toFile),
    runtimeTopology := x.runtimeTopology.map (List.map Dependency.toFile),
    properties := x.properties.map (List.map Property.toFile) }

/-- `Workflow` from the structure of the files (`specs/v1_5/formulation/workflow/mod.rs` 98-124). -/
def File.Workflow.toModel (x : File.Workflow) : Cdx.Workflow :=
  { bomRef := x.bomRef,
    uid := x.uid,
    name := x.name,
    description := x.description,
    resourceReferences := x.resourceReferences.map (List.map File.ResourceReference.toModel),
    tasks := x.tasks.map (List.map File.WorkflowTask.toModel),
    taskDependencies := x.taskDependencies.map (List.map File.Dependency.toModel),
    taskTypes := x.taskTypes.map TaskType.new,
    trigger := x.trigger.map File.Trigger.toModel,
    steps := x.steps.map (List.map File.Step.toModel),
    inputs := x.inputs.map (List.map File.Input.toModel),
    outputs := x.outputs.map (List.map File.Output.toModel),
    timeStart := x.timeStart,
    timeEnd := x.timeEnd,
    workspaces := x.workspaces.map (List.map File.Workspace.toModel),
    runtimeTopology := x.runtimeTopology.map (List.map File.Dependency.toModel),
    properties := x.properties.map (List.map File.Property.toModel) }

/-- `Formula` into the structure of the files (`specs/v1_5/formulation/mod.rs` 39-51). -/
def Formula.toFile (x : Formula) : Except String File.Formula := do
  let components' ← tryOptional (tryVec (Component.toFile .v1_5)) x.components
  .ok { bomRef := x.bomRef,
        components := components',
        services := x.services.map (List.map (Service.toFile .v1_5)),
        workflows := x.workflows.map (List.map Workflow.toFile),
        properties := x.properties.map (List.map Property.toFile) }

/-- `Formula` from the structure of the files (`specs/v1_5/formulation/mod.rs` 53-63). -/
def File.Formula.toModel (x : File.Formula) : Cdx.Formula :=
  { bomRef := x.bomRef,
    components := x.components.map (List.map File.Component.toModel),
    services := x.services.map (List.map File.Service.toModel),
    workflows := x.workflows.map (List.map File.Workflow.toModel),
    properties := x.properties.map (List.map File.Property.toModel) }

/-- `Bom` into the structure of the files (`specs/common/bom.rs` 116-151). -/
def Bom.toFile (v : SpecVersion) (x : Bom) : Except String (File.Bom v) := do
  let metadata' ← tryOptional (Metadata.toFile v) x.metadata
  let components' ← tryOptional (tryVec (Component.toFile v)) x.components
  let vulnerabilities' ← Since14.tryPut v (tryOptional (tryVec (Vulnerability.toFile v)) x.vulnerabilities)
  let annotations' ← Since15.tryPut v (tryOptional (tryVec Annotation.toFile) x.annotations)
  let formulation' ← Since15.tryPut v (tryOptional (tryVec Formula.toFile) x.formulation)
  .ok { version := x.version,
        serialNumber := x.serialNumber,
        metadata := metadata',
        components := components',
        services := x.services.map (List.map (Service.toFile v)),
        externalReferences := x.externalReferences.map (List.map ExternalReference.toFile),
        dependencies := x.dependencies.map (List.map Dependency.toFile),
        compositions := x.compositions.map (List.map (Composition.toFile v)),
        properties := Since15.put v (x.properties.map (List.map Property.toFile)),
        vulnerabilities := vulnerabilities',
        signature := Since14.put v (x.signature.map Signature.toFile),
        annotations := annotations',
        formulation := formulation',
        specVersion := v }

/-- `Bom` from the structure of the files (`specs/common/bom.rs` 153-187). -/
def File.Bom.toModel {v : SpecVersion} (x : File.Bom v) : Cdx.Bom :=
  { version := x.version,
    serialNumber := x.serialNumber,
    metadata := x.metadata.map File.Metadata.toModel,
    components := x.components.map (List.map File.Component.toModel),
    services := x.services.map (List.map File.Service.toModel),
    externalReferences := x.externalReferences.map (List.map File.ExternalReference.toModel),
    dependencies := x.dependencies.map (List.map File.Dependency.toModel),
    compositions := x.compositions.map (List.map File.Composition.toModel),
    properties := (Since15.get v x.properties).map (List.map File.Property.toModel),
    vulnerabilities := (Since14.get v x.vulnerabilities).map (List.map File.Vulnerability.toModel),
    signature := (Since14.get v x.signature).map File.Signature.toModel,
    annotations := (Since15.get v x.annotations).map (List.map File.Annotation.toModel),
    formulation := (Since15.get v x.formulation).map (List.map File.Formula.toModel),
    specVersion := x.specVersion }

end Cdx
