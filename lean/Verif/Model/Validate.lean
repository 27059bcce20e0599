import Verif.Model.Checks
import Verif.Model.DecEq

/-!
# Validation of the BOM model

The `Validate` implementations of `cyclonedx-bom/src/models`, one function per type. `chain`
is `ValidationContext::new()` followed by the listed builder calls. `E` answers for the
external crates, `v` is the version validated against. Recursive types are written with
explicit functions for their lists so that the recursion is structural.
-/

namespace Cdx

set_option linter.unusedVariables false

/-- `Property::validate_version` (`models/property.rs` 68-74). -/
def Property.validate (E : VEnv) (v : SpecVersion) (x : Property) : Res VResult :=
  chain [
    addField "value" x.value validateNormalizedString]

/-- `Properties::validate_version` (`models/property.rs` 34-42). -/
def Properties.validate (E : VEnv) (v : SpecVersion) (x : List Property) : Res VResult :=
  chain [
    addList "inner" x (Property.validate E v)]

/-- `Hash::validate_version` (`models/hash.rs` 35-42). -/
def Hash.validate (E : VEnv) (v : SpecVersion) (x : Hash) : Res VResult :=
  chain [
    addField "alg" x.alg validateHashAlgorithm,
    addField "content" x.content validateHashValue]

/-- `Hashes::validate_version` (`models/hash.rs` 47-53). -/
def Hashes.validate (E : VEnv) (v : SpecVersion) (x : List Hash) : Res VResult :=
  chain [
    addList "inner" x (Hash.validate E v)]

/-- `AttachedText::validate_version` (`models/attached_text.rs` 49-74). -/
def AttachedText.validate (E : VEnv) (v : SpecVersion) (x : AttachedText) : Res VResult :=
  chain [
    addFieldOption "content_type" x.contentType validateNormalizedString,
    match x.encoding with
    | none => .ok
    | some e =>
      match e, b64Decode x.content.toList with
      | .base64, some _ => .ok
      | .base64, none => addField "content" x.content fun _ => .error "Content is not Base64 encoded"
      | .unknownEncoding u, _ => addField "encoding" (Encoding.unknownEncoding u) validateEncoding]

/-- `Attachment::validate_version` (`models/attachment.rs` 33-39). -/
def Attachment.validate (E : VEnv) (v : SpecVersion) (x : Attachment) : Res VResult :=
  chain [
    addFieldOption "encoding" x.encoding validateAttachmentEncoding]

/-- `OrganizationalContact::validate_version` (`models/organization.rs` 57-68). -/
def OrganizationalContact.validate (E : VEnv) (v : SpecVersion) (x : OrganizationalContact) : Res VResult :=
  chain [
    addFieldOption "bom-ref" x.bomRef (validateBomRef v),
    addFieldOption "name" x.name validateNormalizedString,
    addFieldOption "email" x.email validateNormalizedString,
    addFieldOption "phone" x.phone validateNormalizedString]

/-- `OrganizationalEntity::validate_version` (`models/organization.rs` 92-102). -/
def OrganizationalEntity.validate (E : VEnv) (v : SpecVersion) (x : OrganizationalEntity) : Res VResult :=
  chain [
    addFieldOption "name" x.name validateNormalizedString,
    addListOption "url" x.url (fun y => .ok (.ofCheck (validateUri E y))),
    addListOption "contact" x.contact (OrganizationalContact.validate E v)]

/-- `ExternalReference::validate_version` (`models/external_reference.rs` 58-72). -/
def ExternalReference.validate (E : VEnv) (v : SpecVersion) (x : ExternalReference) : Res VResult :=
  chain [
    addField "external_reference_type" x.externalReferenceType validateExternalReferenceType,
    addField "url" x.url (validateReferenceUri E v),
    addList "hashes" x.hashes.toList (Hashes.validate E v)]

/-- `ExternalReferences::validate_version` (`models/external_reference.rs` 77-85). -/
def ExternalReferences.validate (E : VEnv) (v : SpecVersion) (x : List ExternalReference) : Res VResult :=
  chain [
    addList "inner" x (ExternalReference.validate E v)]

/-- `LicenseIdentifier::validate_version` (`models/license.rs` 190-201). -/
def LicenseIdentifier.validate (E : VEnv) (v : SpecVersion) : LicenseIdentifier → Res VResult
  | .name n => chain [addEnum "Name" n validateNormalizedString]
  | .spdxId i => chain [addEnum "SpdxId" i (validateSpdxIdentifier E)]

/-- `LicenseContact::validate_version` (`models/license.rs` 246-253). -/
def LicenseContact.validate (E : VEnv) (v : SpecVersion) : LicenseContact → Res VResult
  | .organization o => o.validate E v
  | .contact c => c.validate E v

/-- `Licensing::validate_version` (`models/license.rs` 218-238). -/
def Licensing.validate (E : VEnv) (v : SpecVersion) (x : Licensing) : Res VResult :=
  chain [
    addListOption "alt_ids" x.altIds (fun y => .ok (.ofCheck (validateNormalizedString y))),
    addStructOption "licensor" x.licensor (LicenseContact.validate E v),
    addStructOption "licensee" x.licensee (LicenseContact.validate E v),
    addStructOption "purchaser" x.purchaser (LicenseContact.validate E v),
    addListOption "license_types" x.licenseTypes (fun y => .ok (.ofCheck (validateLicenseType y))),
    addFieldOption "last_renewal" x.lastRenewal (validateDateTime E),
    addFieldOption "expiration" x.expiration (validateDateTime E)]

/-- `License::validate_version` (`models/license.rs` 131-141). -/
def License.validate (E : VEnv) (v : SpecVersion) (x : License) : Res VResult :=
  chain [
    addStruct "license_identifier" x.licenseIdentifier (LicenseIdentifier.validate E v),
    addStructOption "text" x.text (AttachedText.validate E v),
    addFieldOption "url" x.url (validateUri E),
    addStructOption "licensing" x.licensing (Licensing.validate E v),
    addStructOption "properties" x.properties (Properties.validate E v)]

/-- `LicenseChoice::validate_version` (`models/license.rs` 64-79). -/
def LicenseChoice.validate (E : VEnv) (v : SpecVersion) : LicenseChoice → Res VResult
  | .license l => chain [addStruct "license" l (License.validate E v)]
  | .expression e => chain [addEnum "expression" e (validateSpdxExpression E)]

/-- `LicenseChoice::is_license` (`models/license.rs` 49-51). -/
def LicenseChoice.isLicense : LicenseChoice → Bool
  | .license _ => true
  | .expression _ => false

/-- `Licenses::validate_version` (`models/license.rs` 146-173). -/
def Licenses.validate (E : VEnv) (v : SpecVersion) (x : Licenses) : Res VResult :=
  chain [
    addList "inner" x (LicenseChoice.validate E v),
    if SpecVersion.le .v1_5 v then
      let l := (x.filter fun c => c.isLicense).length
      let e := (x.filter fun c => !c.isLicense).length
      if l = 0 ∧ e > 1 then addCustom "licenses" "More than one 'expression' entry found."
      else if l > 0 ∧ e > 0 then
        addCustom "licenses"
          "Use either array of 'license' or a single 'expression', but not both."
      else .ok
    else .ok]

/-- `IdentifiableAction::validate_version` (`models/code.rs` 85-93). -/
def IdentifiableAction.validate (E : VEnv) (v : SpecVersion) (x : IdentifiableAction) : Res VResult :=
  chain [
    addFieldOption "timestamp" x.timestamp (validateDateTime E),
    addFieldOption "name" x.name validateNormalizedString,
    addFieldOption "email" x.email validateNormalizedString]

/-- `Commit::validate_version` (`models/code.rs` 40-50). -/
def Commit.validate (E : VEnv) (v : SpecVersion) (x : Commit) : Res VResult :=
  chain [
    addFieldOption "uid" x.uid validateNormalizedString,
    addFieldOption "url" x.url (validateUri E),
    addStructOption "author" x.author (IdentifiableAction.validate E v),
    addStructOption "committer" x.committer (IdentifiableAction.validate E v),
    addFieldOption "message" x.message validateNormalizedString]

/-- `Commits::validate_version` (`models/code.rs` 55-61). -/
def Commits.validate (E : VEnv) (v : SpecVersion) (x : List Commit) : Res VResult :=
  chain [
    addList "inner" x (Commit.validate E v)]

/-- `Diff::validate_version` (`models/code.rs` 69-76). -/
def Diff.validate (E : VEnv) (v : SpecVersion) (x : Diff) : Res VResult :=
  chain [
    addStructOption "text" x.text (AttachedText.validate E v),
    addFieldOption "url" x.url (validateUri E)]

/-- `Source::validate_version` (`models/code.rs` 236-243). -/
def Source.validate (E : VEnv) (v : SpecVersion) (x : Source) : Res VResult :=
  chain [
    addFieldOption "name" x.name validateNormalizedString,
    addFieldOption "url" x.url (validateUri E)]

/-- `Issue::validate_version` (`models/code.rs` 105-124). -/
def Issue.validate (E : VEnv) (v : SpecVersion) (x : Issue) : Res VResult :=
  chain [
    addField "issue_type" x.issueType validateIssueClassification,
    addFieldOption "id" x.id validateNormalizedString,
    addFieldOption "name" x.name validateNormalizedString,
    addFieldOption "description" x.description validateNormalizedString,
    addStructOption "source" x.source (Source.validate E v),
    addListOption "references" x.references (fun y => .ok (.ofCheck (validateUri E y)))]

/-- `Patch::validate_version` (`models/code.rs` 167-181). -/
def Patch.validate (E : VEnv) (v : SpecVersion) (x : Patch) : Res VResult :=
  chain [
    addEnum "patch_type" x.patchType validatePatchClassification,
    addStructOption "diff" x.diff (Diff.validate E v),
    addListOption "resolves" x.resolves (Issue.validate E v)]

/-- `Patches::validate_version` (`models/code.rs` 186-192). -/
def Patches.validate (E : VEnv) (v : SpecVersion) (x : List Patch) : Res VResult :=
  chain [
    addList "inner" x (Patch.validate E v)]

/-- `Signer::validate_version` (`models/signature.rs` 70-76). -/
def Signer.validate (E : VEnv) (v : SpecVersion) (x : Signer) : Res VResult :=
  chain [
    addField "algorithm" x.algorithm validateAlgorithm]

/-- `Signature::validate_version` (`models/signature.rs` 35-50). -/
def Signature.validate (E : VEnv) (v : SpecVersion) : Signature → Res VResult
  | .signers l => Cdx.chain [addList "Signers" l (Signer.validate E v)]
  | .chain l => Cdx.chain [addList "Chain" l (Signer.validate E v)]
  | .single s => Cdx.chain [addStruct "Single" s (Signer.validate E v)]

/-- `DataGovernanceResponsibleParty::validate_version` (`models/data_governance.rs` 58-65). -/
def DataGovernanceResponsibleParty.validate (E : VEnv) (v : SpecVersion) :
    DataGovernanceResponsibleParty → Res VResult
  | .organization o => o.validate E v
  | .contact c => c.validate E v

/-- `DataGovernance::validate_version` (`models/data_governance.rs` 36-50). -/
def DataGovernance.validate (E : VEnv) (v : SpecVersion) (x : DataGovernance) : Res VResult :=
  chain [
    addListOption "custodians" x.custodians (DataGovernanceResponsibleParty.validate E v),
    addListOption "stewards" x.stewards (DataGovernanceResponsibleParty.validate E v),
    addListOption "owners" x.owners (DataGovernanceResponsibleParty.validate E v)]

/-- `Graphic::validate_version` (`models/component_data.rs` 125-131). -/
def Graphic.validate (E : VEnv) (v : SpecVersion) (x : Graphic) : Res VResult :=
  chain [
    addStructOption "image" x.image (Attachment.validate E v)]

/-- `GraphicsCollection::validate_version` (`models/component_data.rs` 108-116). -/
def GraphicsCollection.validate (E : VEnv) (v : SpecVersion) (x : GraphicsCollection) : Res VResult :=
  chain [
    addListOption "collection" x.collection (Graphic.validate E v)]

/-- `DataContents::validate_version` (`models/component_data.rs` 91-99). -/
def DataContents.validate (E : VEnv) (v : SpecVersion) (x : DataContents) : Res VResult :=
  chain [
    addStructOption "attachment" x.attachment (Attachment.validate E v),
    addFieldOption "url" x.url (validateUri E),
    addStructOption "properties" x.properties (Properties.validate E v)]

/-- `ComponentData::validate_version` (`models/component_data.rs` 46-55). -/
def ComponentData.validate (E : VEnv) (v : SpecVersion) (x : ComponentData) : Res VResult :=
  chain [
    addField "type" x.dataType validateDatatype,
    addStructOption "contents" x.contents (DataContents.validate E v),
    addStructOption "graphics" x.graphics (GraphicsCollection.validate E v),
    addStructOption "governance" x.governance (DataGovernance.validate E v)]

/-- `ModelParametersApproach::validate_version` (`models/modelcard.rs` 87-93). -/
def ModelParametersApproach.validate (E : VEnv) (v : SpecVersion) (x : ModelParametersApproach) : Res VResult :=
  chain [
    addFieldOption "type" x.approachType validateApproachType]

/-- `Dataset::validate_version` (`models/modelcard.rs` 169-176). -/
def Dataset.validate (E : VEnv) (v : SpecVersion) : Dataset → Res VResult
  | .component c => c.validate E v
  | .reference _ => .ok []

/-- `Datasets::validate_version` (`models/modelcard.rs` 152-160). -/
def Datasets.validate (E : VEnv) (v : SpecVersion) (x : List Dataset) : Res VResult :=
  chain [
    addList "inner" x (Dataset.validate E v)]

/-- `Inputs::validate_version` (`models/modelcard.rs` 181-198). -/
def MLParameters.validate (E : VEnv) (v : SpecVersion) (x : List MLParameter) : Res VResult :=
  chain [
    addList "inner" x (fun y => .ok (.ofCheck (validateMlParameter y)))]

/-- `ModelParameters::validate_version` (`models/modelcard.rs` 71-80). -/
def ModelParameters.validate (E : VEnv) (v : SpecVersion) (x : ModelParameters) : Res VResult :=
  chain [
    addStructOption "approach" x.approach (ModelParametersApproach.validate E v),
    addStructOption "datasets" x.datasets (Datasets.validate E v),
    addStructOption "inputs" x.inputs (MLParameters.validate E v),
    addStructOption "outputs" x.outputs (MLParameters.validate E v)]

/-- `PerformanceMetric::validate_version` (`models/modelcard.rs` 255-259). -/
def PerformanceMetric.validate (E : VEnv) (v : SpecVersion) (x : PerformanceMetric) : Res VResult :=
  chain []

/-- `PerformanceMetrics::validate_version` (`models/modelcard.rs` 239-245). -/
def PerformanceMetrics.validate (E : VEnv) (v : SpecVersion) (x : List PerformanceMetric) : Res VResult :=
  chain [
    addList "inner" x (PerformanceMetric.validate E v)]

/-- `QuantitativeAnalysis::validate_version` (`models/modelcard.rs` 223-234). -/
def QuantitativeAnalysis.validate (E : VEnv) (v : SpecVersion) (x : QuantitativeAnalysis) : Res VResult :=
  chain [
    addStructOption "performance_metrics" x.performanceMetrics (PerformanceMetrics.validate E v),
    addStructOption "graphics" x.graphics (GraphicsCollection.validate E v)]

/-- `Considerations::validate_version` (`models/modelcard.rs` 271-275). -/
def Considerations.validate (E : VEnv) (v : SpecVersion) (x : Considerations) : Res VResult :=
  chain []

/-- `ModelCard::validate_version` (`models/modelcard.rs` 42-55). -/
def ModelCard.validate (E : VEnv) (v : SpecVersion) (x : ModelCard) : Res VResult :=
  chain [
    addStructOption "model_parameters" x.modelParameters (ModelParameters.validate E v),
    addStructOption "quantitative_analysis" x.quantitativeAnalysis (QuantitativeAnalysis.validate E v),
    addStructOption "considerations" x.considerations (Considerations.validate E v),
    addStructOption "properties" x.properties (Properties.validate E v)]

/-- `Swid::validate_version` (`models/component.rs` 297-304). -/
def Swid.validate (E : VEnv) (v : SpecVersion) (x : Swid) : Res VResult :=
  chain [
    addStructOption "text" x.text (AttachedText.validate E v),
    addFieldOption "url" x.url (validateUri E)]

/-- `Occurrence::validate_version` (`models/component.rs` 416-424). -/
def Occurrence.validate (E : VEnv) (v : SpecVersion) (x : Occurrence) : Res VResult :=
  chain [
    addFieldOption "bom-ref" x.bomRef (validateBomRef v)]

/-- `Occurrences::validate_version` (`models/component.rs` 391-399). -/
def Occurrences.validate (E : VEnv) (v : SpecVersion) (x : List Occurrence) : Res VResult :=
  chain [
    addList "inner" x (Occurrence.validate E v)]

/-- `Frame::validate_version` (`models/component.rs` 468-490). -/
def Frame.validate (E : VEnv) (v : SpecVersion) (x : Frame) : Res VResult :=
  chain [
    addFieldOption "package" x.package validateNormalizedString,
    addField "module" x.module validateNormalizedString,
    addFieldOption "function" x.function validateNormalizedString,
    addListOption "parameters" x.parameters (fun y => .ok (.ofCheck (validateNormalizedString y))),
    addFieldOption "full_filename" x.fullFilename validateNormalizedString]

/-- `Frames::validate_version` (`models/component.rs` 446-452). -/
def Frames.validate (E : VEnv) (v : SpecVersion) (x : List Frame) : Res VResult :=
  chain [
    addList "frames" x (Frame.validate E v)]

/-- `Callstack::validate_version` (`models/component.rs` 437-441). -/
def Callstack.validate (E : VEnv) (v : SpecVersion) (x : Callstack) : Res VResult :=
  Frames.validate E v x.frames

/-- `Identity::validate_version` (`models/component.rs` 560-567). -/
def Identity.validate (E : VEnv) (v : SpecVersion) (x : Identity) : Res VResult :=
  chain [
    addField "field" x.field validateIdentityField,
    addFieldOption "confidence" x.confidence validateConfidence]

/-- `CopyrightTexts::validate_version` (`models/component.rs` 616-622). -/
def CopyrightTexts.validate (E : VEnv) (v : SpecVersion) (x : List String) : Res VResult :=
  chain [
    addList "inner" x (fun y => .ok (.ofCheck (validateCopyright y)))]

/-- `ComponentEvidence::validate_version` (`models/component.rs` 373-383). -/
def ComponentEvidence.validate (E : VEnv) (v : SpecVersion) (x : ComponentEvidence) : Res VResult :=
  chain [
    addStructOption "licenses" x.licenses (Licenses.validate E v),
    addStructOption "copyright" x.copyright (CopyrightTexts.validate E v),
    addStructOption "occurrences" x.occurrences (Occurrences.validate E v),
    addStructOption "callstack" x.callstack (Callstack.validate E v),
    addStructOption "identity" x.identity (Identity.validate E v)]

mutual

/-- `Component::validate_version` (`models/component.rs` 119-163). -/
def Component.validate (E : VEnv) (v : SpecVersion) : Component → Res VResult
  | ⟨componentType, mimeType, _bomRef, supplier, author, publisher, group, name, version,
      description, scope, hashes, licenses, copyright, cpe, purl, swid, _modified, pedigree,
      externalReferences, properties, components, evidence, _signature, _modelCard, _data⟩ =>
    chain [
      addField "component_type" componentType (validateClassification v),
      addFieldOption "mime_type" mimeType validateMimeType,
      addStructOption "supplier" supplier (OrganizationalEntity.validate E v),
      addFieldOption "author" author validateNormalizedString,
      addFieldOption "publisher" publisher validateNormalizedString,
      addFieldOption "group" group validateNormalizedString,
      addField "name" name validateNormalizedString,
      addFieldOption "version" version validateNormalizedString,
      addFieldOption "description" description validateNormalizedString,
      addEnumOption "scope" scope validateScope,
      addStructOption "hashes" hashes (Hashes.validate E v),
      addStructOption "licenses" licenses (Licenses.validate E v),
      addFieldOption "copyright" copyright validateNormalizedString,
      addFieldOption "cpe" cpe validateCpe,
      addFieldOption "purl" purl (validatePurl E),
      addStructOption "swid" swid (Swid.validate E v),
      addStructOptionResult "pedigree" (Pedigree.validateOption E v pedigree),
      addStructOption "external_references" externalReferences (ExternalReferences.validate E v),
      addStructOption "properties" properties (Properties.validate E v),
      addStructOptionResult "components" (Components.validateOption E v components),
      addStructOption "evidence" evidence (ComponentEvidence.validate E v)]
termination_by structural c => c

/-- `Option::map` of `Pedigree::validate_version`, as in `add_struct_option`
(`validation.rs` 326-336). -/
def Pedigree.validateOption (E : VEnv) (v : SpecVersion) : Option Pedigree → Option (Res VResult)
  | none => none
  | some p => some (Pedigree.validate E v p)
termination_by structural p => p

/-- `Pedigree::validate_version` (`models/component.rs` 594-604). -/
def Pedigree.validate (E : VEnv) (v : SpecVersion) : Pedigree → Res VResult
  | ⟨ancestors, descendants, variants, commits, patches, _notes⟩ =>
    chain [
      addStructOptionResult "ancestors" (Components.validateOption E v ancestors),
      addStructOptionResult "descendants" (Components.validateOption E v descendants),
      addStructOptionResult "variants" (Components.validateOption E v variants),
      addStructOption "commits" commits (Commits.validate E v),
      addStructOption "patches" patches (Patches.validate E v)]
termination_by structural p => p

/-- `Option::map` of `Components::validate_version` (`models/component.rs` 168-176), as in
`add_struct_option` (`validation.rs` 326-336). -/
def Components.validateOption (E : VEnv) (v : SpecVersion) :
    Option (List Component) → Option (Res VResult)
  | none => none
  | some cs => some (chain [addListResults "inner" (Components.validateEach E v cs)])
termination_by structural cs => cs

/-- Validation of each element of a component list (`models/component.rs` 171-173). -/
def Components.validateEach (E : VEnv) (v : SpecVersion) : List Component → Res (List VResult)
  | [] => .ok []
  | c :: cs => do
    let r ← Component.validate E v c
    let rs ← Components.validateEach E v cs
    .ok (r :: rs)
termination_by structural cs => cs

end

/-- `Components::validate_version` (`models/component.rs` 168-176). -/
def Components.validate (E : VEnv) (v : SpecVersion) (x : List Component) : Res VResult :=
  chain [
    addList "inner" x (Component.validate E v)]

/-- `DataClassification::validate_version` (`models/service.rs` 192-203). -/
def DataClassification.validate (E : VEnv) (v : SpecVersion) (x : DataClassification) : Res VResult :=
  chain [
    addEnum "flow" x.flow validateDataFlowType,
    addEnum "classification" x.classification validateNormalizedString]

/-- `ServiceData::validate_version` (`models/service.rs` 159-174). -/
def ServiceData.validate (E : VEnv) (v : SpecVersion) (x : ServiceData) : Res VResult :=
  chain [
    addFieldOption "name" x.name validateNormalizedString,
    addFieldOption "description" x.description validateNormalizedString,
    addStruct "classification" x.classification (DataClassification.validate E v),
    addStructOption "governance" x.governance (DataGovernance.validate E v),
    addListOption "source" x.source (fun y => .ok (.ofCheck (validateUri E y))),
    addListOption "destination" x.destination (fun y => .ok (.ofCheck (validateUri E y)))]

/-- `Data::validate_version` (`models/service.rs` 136-147). -/
def ServiceDataChoice.validate (E : VEnv) (v : SpecVersion) : ServiceDataChoice → Res VResult
  | .serviceData l => chain [addList "inner" l (ServiceData.validate E v)]
  | .classification l => chain [addList "inner" l (DataClassification.validate E v)]

mutual

/-- `Service::validate_version` (`models/service.rs` 86-115). -/
def Service.validate (E : VEnv) (v : SpecVersion) : Service → Res VResult
  | ⟨_bomRef, provider, group, name, version, description, endpoints, _authenticated,
      _xTrustBoundary, data, licenses, externalReferences, properties, services, _signature,
      trustZone⟩ =>
    chain [
      addStructOption "provider" provider (OrganizationalEntity.validate E v),
      addFieldOption "group" group validateNormalizedString,
      addField "name" name validateNormalizedString,
      addFieldOption "version" version validateNormalizedString,
      addFieldOption "description" description validateNormalizedString,
      addListOption "endpoints" endpoints (fun y => .ok (.ofCheck (validateUri E y))),
      addStructOption "data" data (ServiceDataChoice.validate E v),
      addStructOption "licenses" licenses (Licenses.validate E v),
      addStructOption "external_references" externalReferences (ExternalReferences.validate E v),
      addStructOption "properties" properties (Properties.validate E v),
      addStructOptionResult "services" (Services.validateOption E v services),
      addFieldOption "trust_zone" trustZone validateNormalizedString]
termination_by structural s => s

/-- `Option::map` of `Services::validate_version` (`models/service.rs` 120-128), as in
`add_struct_option` (`validation.rs` 326-336). -/
def Services.validateOption (E : VEnv) (v : SpecVersion) :
    Option (List Service) → Option (Res VResult)
  | none => none
  | some ss => some (chain [addListResults "inner" (Services.validateEach E v ss)])
termination_by structural ss => ss

/-- Validation of each element of a service list (`models/service.rs` 123-125). -/
def Services.validateEach (E : VEnv) (v : SpecVersion) : List Service → Res (List VResult)
  | [] => .ok []
  | s :: ss => do
    let r ← Service.validate E v s
    let rs ← Services.validateEach E v ss
    .ok (r :: rs)
termination_by structural ss => ss

end

/-- `Services::validate_version` (`models/service.rs` 120-128). -/
def Services.validate (E : VEnv) (v : SpecVersion) (x : List Service) : Res VResult :=
  chain [
    addList "inner" x (Service.validate E v)]

/-- `Tool::validate_version` (`models/tool.rs` 102-118). -/
def Tool.validate (E : VEnv) (v : SpecVersion) (x : Tool) : Res VResult :=
  chain [
    addFieldOption "vendor" x.vendor validateNormalizedString,
    addFieldOption "name" x.name validateNormalizedString,
    addFieldOption "version" x.version validateNormalizedString,
    addList "hashes" x.hashes.toList (Hashes.validate E v),
    addStructOption "external_references" x.externalReferences (ExternalReferences.validate E v)]

/-- `Tools::validate_version` (`models/tool.rs` 44-69). -/
def Tools.validate (E : VEnv) (v : SpecVersion) (x : Tools) : Res VResult :=
  match v.le .v1_4, x with
  | true, .object _ _ => chain [addCustom "inner" "Unsupported tools type found."]
  | _, .list l => chain [addList "inner" l (Tool.validate E v)]
  | false, .object services components =>
    chain [
      addStructOption "components" components (Components.validate E v),
      addStructOption "services" services (Services.validate E v)]

/-- `Metadata::validate_version` (`models/metadata.rs` 72-93). -/
def Metadata.validate (E : VEnv) (v : SpecVersion) (x : Metadata) : Res VResult :=
  chain [
    addFieldOption "timestamp" x.timestamp (validateDateTime E),
    addList "tools" x.tools.toList (Tools.validate E v),
    addListOption "authors" x.authors (OrganizationalContact.validate E v),
    addStructOption "component" x.component (Component.validate E v),
    addStructOption "manufacture" x.manufacture (OrganizationalEntity.validate E v),
    addStructOption "supplier" x.supplier (OrganizationalEntity.validate E v),
    addList "licenses" x.licenses.toList (Licenses.validate E v),
    addList "properties" x.properties.toList (Properties.validate E v)]

/-- `Composition::validate_version` (`models/composition.rs` 36-45). -/
def Composition.validate (E : VEnv) (v : SpecVersion) (x : Composition) : Res VResult :=
  chain [
    addField "aggregate" x.aggregate (validateAggregateType v),
    addStructOption "signature" x.signature (Signature.validate E v)]

/-- `Compositions::validate_version` (`models/composition.rs` 50-58). -/
def Compositions.validate (E : VEnv) (v : SpecVersion) (x : List Composition) : Res VResult :=
  chain [
    addList "composition" x (Composition.validate E v)]

/-- `Advisory::validate_version` (`models/advisory.rs` 51-58). -/
def Advisory.validate (E : VEnv) (v : SpecVersion) (x : Advisory) : Res VResult :=
  chain [
    addFieldOption "title" x.title validateNormalizedString,
    addField "url" x.url (validateUri E)]

/-- `Advisories::validate_version` (`models/advisory.rs` 63-71). -/
def Advisories.validate (E : VEnv) (v : SpecVersion) (x : List Advisory) : Res VResult :=
  chain [
    addList "inner" x (Advisory.validate E v)]

/-- `VulnerabilitySource::validate_version` (`models/vulnerability_source.rs` 57-64). -/
def VulnerabilitySource.validate (E : VEnv) (v : SpecVersion) (x : VulnerabilitySource) : Res VResult :=
  chain [
    addFieldOption "name" x.name validateNormalizedString,
    addFieldOption "url" x.url (validateUri E)]

/-- `VulnerabilityReference::validate_version` (`models/vulnerability_reference.rs` 56-63). -/
def VulnerabilityReference.validate (E : VEnv) (v : SpecVersion) (x : VulnerabilityReference) : Res VResult :=
  chain [
    addField "id" x.id validateNormalizedString,
    addStruct "vulnerability_source" x.vulnerabilitySource (VulnerabilitySource.validate E v)]

/-- `VulnerabilityReferences::validate_version` (`models/vulnerability_reference.rs` 68-76). -/
def VulnerabilityReferences.validate (E : VEnv) (v : SpecVersion) (x : List VulnerabilityReference) : Res VResult :=
  chain [
    addList "inner" x (VulnerabilityReference.validate E v)]

/-- `VulnerabilityRating::validate_version` (`models/vulnerability_rating.rs` 64-79). -/
def VulnerabilityRating.validate (E : VEnv) (v : SpecVersion) (x : VulnerabilityRating) : Res VResult :=
  chain [
    addStructOption "vulnerability_source" x.vulnerabilitySource (VulnerabilitySource.validate E v),
    addEnumOption "severity" x.severity validateSeverity,
    addFieldOption "score_method" x.scoreMethod (validateScoreMethod v),
    addFieldOption "vector" x.vector validateNormalizedString]

/-- `VulnerabilityRatings::validate_version` (`models/vulnerability_rating.rs` 84-90). -/
def VulnerabilityRatings.validate (E : VEnv) (v : SpecVersion) (x : List VulnerabilityRating) : Res VResult :=
  chain [
    addList "inner" x (VulnerabilityRating.validate E v)]

/-- `VulnerabilityCredits::validate_version` (`models/vulnerability_credits.rs` 31-42). -/
def VulnerabilityCredits.validate (E : VEnv) (v : SpecVersion) (x : VulnerabilityCredits) : Res VResult :=
  chain [
    addListOption "organizations" x.organizations (OrganizationalEntity.validate E v),
    addListOption "individuals" x.individuals (OrganizationalContact.validate E v)]

/-- `VulnerabilityAnalysis::validate_version` (`models/vulnerability_analysis.rs` 69-93). -/
def VulnerabilityAnalysis.validate (E : VEnv) (v : SpecVersion) (x : VulnerabilityAnalysis) : Res VResult :=
  chain [
    addEnumOption "state" x.state validateImpactAnalysisState,
    addEnumOption "justification" x.justification validateImpactAnalysisJustification,
    addListOption "responses" x.responses (fun y => .ok (.ofCheck (validateImpactAnalysisResponse y))),
    addFieldOption "first_issued" x.firstIssued (validateDateTime E),
    addFieldOption "last_updated" x.firstIssued (validateDateTime E)]

/-- `Version::validate_version` (`models/vulnerability_target.rs` 102-109). -/
def TargetVersion.validate (E : VEnv) (v : SpecVersion) (x : TargetVersion) : Res VResult :=
  chain [
    addEnum "version_range" x.versionRange validateVersionRange,
    addEnum "status" x.status validateStatus]

/-- `TargetVersions::validate_version` (`models/vulnerability_target.rs` 73-79). -/
def TargetVersions.validate (E : VEnv) (v : SpecVersion) (x : List TargetVersion) : Res VResult :=
  chain [
    addList "inner" x (TargetVersion.validate E v)]

/-- `VulnerabilityTarget::validate_version` (`models/vulnerability_target.rs` 51-57). -/
def VulnerabilityTarget.validate (E : VEnv) (v : SpecVersion) (x : VulnerabilityTarget) : Res VResult :=
  chain [
    addStructOption "versions" x.versions (TargetVersions.validate E v)]

/-- `VulnerabilityTargets::validate_version` (`models/vulnerability_target.rs` 62-68). -/
def VulnerabilityTargets.validate (E : VEnv) (v : SpecVersion) (x : List VulnerabilityTarget) : Res VResult :=
  chain [
    addList "inner" x (VulnerabilityTarget.validate E v)]

/-- `Vulnerability::validate_version` (`models/vulnerability.rs` 98-142). -/
def Vulnerability.validate (E : VEnv) (v : SpecVersion) (x : Vulnerability) : Res VResult :=
  chain [
    addFieldOption "id" x.id validateNormalizedString,
    addStructOption "vulnerability_source" x.vulnerabilitySource (VulnerabilitySource.validate E v),
    addList "vulnerability_references" x.vulnerabilityReferences.toList (VulnerabilityReferences.validate E v),
    addList "vulnerability_ratings" x.vulnerabilityRatings.toList (VulnerabilityRatings.validate E v),
    addList "advisories" x.advisories.toList (Advisories.validate E v),
    addFieldOption "created" x.created (validateDateTime E),
    addFieldOption "published" x.published (validateDateTime E),
    addFieldOption "updated" x.updated (validateDateTime E),
    addStructOption "vulnerability_credits" x.vulnerabilityCredits (VulnerabilityCredits.validate E v),
    addStructOption "tools" x.tools (Tools.validate E v),
    addStructOption "vulnerability_analysis" x.vulnerabilityAnalysis (VulnerabilityAnalysis.validate E v),
    addStructOption "vulnerability_targets" x.vulnerabilityTargets (VulnerabilityTargets.validate E v),
    addStructOption "properties" x.properties (Properties.validate E v)]

/-- `Vulnerabilities::validate_version` (`models/vulnerability.rs` 147-155). -/
def Vulnerabilities.validate (E : VEnv) (v : SpecVersion) (x : List Vulnerability) : Res VResult :=
  chain [
    addList "inner" x (Vulnerability.validate E v)]

/-- `Annotator::validate_version` (`models/annotation.rs` 74-93). -/
def Annotator.validate (E : VEnv) (v : SpecVersion) : Annotator → Res VResult
  | .organization o => chain [addStruct "organization" o (OrganizationalEntity.validate E v)]
  | .individual c => chain [addStruct "contact" c (OrganizationalContact.validate E v)]
  | .component c => chain [addStruct "component" c (Component.validate E v)]
  | .service s => chain [addStruct "service" s (Service.validate E v)]

/-- `Annotation::validate_version` (`models/annotation.rs` 56-63). -/
def Annotation.validate (E : VEnv) (v : SpecVersion) (x : Annotation) : Res VResult :=
  chain [
    addField "timestamp" x.timestamp (validateDateTime E),
    addStruct "annotator" x.annotator (Annotator.validate E v)]

/-- `Annotations::validate_version` (`models/annotation.rs` 36-44). -/
def Annotations.validate (E : VEnv) (v : SpecVersion) (x : List Annotation) : Res VResult :=
  chain [
    addList "inner" x (Annotation.validate E v)]

/-- `ResourceReference::validate_version` (`models/formulation/workflow/resource_reference.rs`
11-24). -/
def ResourceReference.validate (E : VEnv) (v : SpecVersion) : ResourceReference → Res VResult
  | .ref _ => chain []
  | .externalReference e =>
    chain [addStruct "external_reference" e (ExternalReference.validate E v)]

/-- `TaskType::validate_version` (`models/formulation/workflow/mod.rs` 177-188). -/
def TaskType.validate (_ : VEnv) (_ : SpecVersion) (t : TaskType) : Res VResult :=
  .ok (.ofCheck (validateTaskType t))

/-- `Type::validate_version` of outputs (`models/formulation/workflow/output.rs` 78-89). -/
def OutputType.validate (_ : VEnv) (_ : SpecVersion) (t : OutputType) : Res VResult :=
  .ok (.ofCheck (validateOutputType t))

/-- `Type::validate_version` of triggers (`models/formulation/workflow/trigger.rs` 89-100). -/
def TriggerType.validate (_ : VEnv) (_ : SpecVersion) (t : TriggerType) : Res VResult :=
  .ok (.ofCheck (validateTriggerType t))

/-- `Input::validate_version` (`models/formulation/workflow/input.rs` 17-39). -/
def Input.validate (E : VEnv) (v : SpecVersion) (x : Input) : Res VResult :=
  chain [
    (match x.required with
    | .resource r => addStruct "resource" r (ResourceReference.validate E v)
    | .data a => addStruct "data" a (Attachment.validate E v)
    | _ => .ok),
    addStructOption "source" x.source (ResourceReference.validate E v),
    addStructOption "target" x.target (ResourceReference.validate E v),
    addStructOption "properties" x.properties (Properties.validate E v)]

/-- `Output::validate_version` (`models/formulation/workflow/output.rs` 18-41). -/
def Output.validate (E : VEnv) (v : SpecVersion) (x : Output) : Res VResult :=
  chain [
    (match x.required with
    | .resource r => addStruct "resource" r (ResourceReference.validate E v)
    | .data a => addStruct "data" a (Attachment.validate E v)
    | _ => .ok),
    addStructOption "type" x.type (OutputType.validate E v),
    addStructOption "source" x.source (ResourceReference.validate E v),
    addStructOption "target" x.target (ResourceReference.validate E v),
    addStructOption "properties" x.properties (Properties.validate E v)]

/-- `Command::validate_version` (`models/formulation/workflow/step.rs` 31-40). -/
def Command.validate (E : VEnv) (v : SpecVersion) (x : Command) : Res VResult :=
  chain [
    addStructOption "properties" x.properties (Properties.validate E v)]

/-- `Step::validate_version` (`models/formulation/workflow/step.rs` 11-23). -/
def Step.validate (E : VEnv) (v : SpecVersion) (x : Step) : Res VResult :=
  chain [
    addListOption "commands" x.commands (Command.validate E v),
    addStructOption "properties" x.properties (Properties.validate E v)]

/-- `Event::validate_version` (`models/formulation/workflow/trigger.rs` 113-130). -/
def TriggerEvent.validate (E : VEnv) (v : SpecVersion) (x : TriggerEvent) : Res VResult :=
  chain [
    addFieldOption "time_received" x.timeReceived (validateDateTime E),
    addStructOption "data" x.data (Attachment.validate E v),
    addStructOption "source" x.source (ResourceReference.validate E v),
    addStructOption "target" x.target (ResourceReference.validate E v),
    addStructOption "properties" x.properties (Properties.validate E v)]

/-- `Condition::validate_version` (`models/formulation/workflow/trigger.rs` 139-148). -/
def Condition.validate (E : VEnv) (v : SpecVersion) (x : Condition) : Res VResult :=
  chain [
    addStructOption "properties" x.properties (Properties.validate E v)]

/-- `Trigger::validate_version` (`models/formulation/workflow/trigger.rs` 30-63). -/
def Trigger.validate (E : VEnv) (v : SpecVersion) (x : Trigger) : Res VResult :=
  chain [
    addField "bom_ref" x.bomRef (validateBomRef v),
    addListOption "resource_reference" x.resourceReferences (ResourceReference.validate E v),
    addStruct "type" x.type (TriggerType.validate E v),
    addStructOption "event" x.event (TriggerEvent.validate E v),
    addUniqueListOption "conditions" x.conditions (Condition.validate E v),
    addFieldOption "time_activated" x.timeActivated (validateDateTime E),
    addUniqueListOption "inputs" x.inputs (Input.validate E v),
    addUniqueListOption "outputs" x.outputs (Output.validate E v),
    addStructOption "properties" x.properties (Properties.validate E v)]

/-- `Volume::validate_version` (`models/formulation/workflow/workspace.rs` 87-93). -/
def Volume.validate (E : VEnv) (v : SpecVersion) (x : Volume) : Res VResult :=
  chain [
    addField "mode" x.mode validateVolumeMode]

/-- `Workspace::validate_version` (`models/formulation/workflow/workspace.rs` 25-40). -/
def Workspace.validate (E : VEnv) (v : SpecVersion) (x : Workspace) : Res VResult :=
  chain [
    addUniqueListOption "resource_references" x.resourceReferences (ResourceReference.validate E v),
    addFieldOption "access_mode" x.accessMode validateAccessMode]

/-- `Task::validate_version` (`models/formulation/workflow/mod.rs` 102-136). -/
def WorkflowTask.validate (E : VEnv) (v : SpecVersion) (x : WorkflowTask) : Res VResult :=
  chain [
    addListOption "resource_references" x.resourceReferences (ResourceReference.validate E v),
    addList "task_types" x.taskTypes (TaskType.validate E v),
    addStructOption "trigger" x.trigger (Trigger.validate E v),
    addUniqueListOption "steps" x.steps (Step.validate E v),
    addUniqueListOption "inputs" x.inputs (Input.validate E v),
    addUniqueListOption "outputs" x.outputs (Output.validate E v),
    addFieldOption "time_start" x.timeStart (validateDateTime E),
    addFieldOption "time_end" x.timeEnd (validateDateTime E),
    addUniqueListOption "workspaces" x.workspaces (Workspace.validate E v),
    addUniqueListOption "runtime_topology" x.runtimeTopology (fun _ => .ok [])]

/-- `Workflow::validate_version` (`models/formulation/workflow/mod.rs` 41-81). -/
def Workflow.validate (E : VEnv) (v : SpecVersion) (x : Workflow) : Res VResult :=
  chain [
    addListOption "resource_references" x.resourceReferences (ResourceReference.validate E v),
    addUniqueListOption "tasks" x.tasks (WorkflowTask.validate E v),
    addUniqueListOption "task_dependencies" x.taskDependencies (fun _ => .ok []),
    addList "task_types" x.taskTypes (TaskType.validate E v),
    addStructOption "trigger" x.trigger (Trigger.validate E v),
    addUniqueListOption "steps" x.steps (Step.validate E v),
    addUniqueListOption "inputs" x.inputs (Input.validate E v),
    addUniqueListOption "outputs" x.outputs (Output.validate E v),
    addFieldOption "time_start" x.timeStart (validateDateTime E),
    addFieldOption "time_end" x.timeEnd (validateDateTime E),
    addUniqueListOption "workspaces" x.workspaces (Workspace.validate E v),
    addUniqueListOption "runtime_topology" x.runtimeTopology (fun _ => .ok [])]

/-- `Formula::validate_version` (`models/formulation/mod.rs` 21-48). -/
def Formula.validate (E : VEnv) (v : SpecVersion) (x : Formula) : Res VResult :=
  match v with
  | .v1_3 | .v1_4 =>
    .ok (.ofCheck (.error ("Formula is not defined for version " ++ v.display)))
  | .v1_5 =>
    chain [
      addUniqueListOption "components" x.components (Component.validate E v),
      addUniqueListOption "services" x.services (Service.validate E v),
      addUniqueListOption "workflows" x.workflows (Workflow.validate E v),
      addStructOption "properties" x.properties (Properties.validate E v)]

/-- `BomReferencesContext` (`models/bom.rs` 466-471); hash sets are lists. -/
structure BomRefs where
  componentBomRefs : List String := []
  serviceBomRefs : List String := []
  vulnerabilitiesBomRefs : List String := []

/-- `BomReferencesContext::contains` (`models/bom.rs` 474-478). -/
def BomRefs.contains (b : BomRefs) (r : String) : Bool :=
  b.componentBomRefs.contains r || b.serviceBomRefs.contains r ||
    b.vulnerabilitiesBomRefs.contains r

/-- The message for a repeated `bom-ref` (`models/bom.rs` 501, 538, 565). -/
def notUnique (r : String) : String := "Bom ref \"" ++ r ++ "\" is not unique"

/-- The state of the reference checks: the validation context and the references seen so far
(`models/bom.rs` 495-496). -/
abbrev RefState := VResult × BomRefs

/-- Visit one optional `bom-ref` (`models/bom.rs` 499-504, 536-541, 563-568). -/
def visitRef (add : BomRefs → String → BomRefs) (s : RefState) : Option String → Res RefState
  | none => .ok s
  | some r => do
    let ctx ← if s.2.contains r then addCustom "bom_ref" (notUnique r) s.1 else .ok s.1
    .ok (ctx, add s.2 r)

/-- `add_component_bom_ref` (`models/bom.rs` 480-482). -/
def BomRefs.addComponent (b : BomRefs) (r : String) : BomRefs :=
  { b with componentBomRefs := r :: b.componentBomRefs }

/-- `add_service_bom_ref` (`models/bom.rs` 484-486). -/
def BomRefs.addService (b : BomRefs) (r : String) : BomRefs :=
  { b with serviceBomRefs := r :: b.serviceBomRefs }

/-- `add_vulnerability_bom_ref` (`models/bom.rs` 488-490). -/
def BomRefs.addVulnerability (b : BomRefs) (r : String) : BomRefs :=
  { b with vulnerabilitiesBomRefs := r :: b.vulnerabilitiesBomRefs }

mutual

/-- `validate_component_bom_refs` (`models/bom.rs` 494-509). -/
def Component.visitRefs (s : RefState) : Component → Res RefState
  | ⟨_, _, bomRef, _, _, _, _, _, _, _, _, _, _, _, _, _, _, _, _, _, _, components, _, _, _, _⟩ => do
    let s ← visitRef BomRefs.addComponent s bomRef
    Components.visitRefsOption s components
termination_by structural c => c

/-- The optional call of `validate_components` (`models/bom.rs` 506-508). -/
def Components.visitRefsOption (s : RefState) : Option (List Component) → Res RefState
  | none => .ok s
  | some cs => Components.visitRefs s cs
termination_by structural cs => cs

/-- `validate_components` (`models/bom.rs` 511-519). -/
def Components.visitRefs (s : RefState) : List Component → Res RefState
  | [] => .ok s
  | c :: cs => do
    let s ← Component.visitRefs s c
    Components.visitRefs s cs
termination_by structural cs => cs

end

mutual

/-- `validate_service_bom_refs` (`models/bom.rs` 531-546). -/
def Service.visitRefs (s : RefState) : Service → Res RefState
  | ⟨bomRef, _, _, _, _, _, _, _, _, _, _, _, _, services, _, _⟩ => do
    let s ← visitRef BomRefs.addService s bomRef
    Services.visitRefsOption s services
termination_by structural s => s

/-- The optional call of `validate_services` (`models/bom.rs` 543-545). -/
def Services.visitRefsOption (s : RefState) : Option (List Service) → Res RefState
  | none => .ok s
  | some ss => Services.visitRefs s ss
termination_by structural ss => ss

/-- `validate_services` (`models/bom.rs` 521-529). -/
def Services.visitRefs (s : RefState) : List Service → Res RefState
  | [] => .ok s
  | x :: xs => do
    let s ← Service.visitRefs s x
    Services.visitRefs s xs
termination_by structural ss => ss

end

/-- `validate_vulnerabilities` and `validate_vulnerabilities_bom_refs` (`models/bom.rs`
548-569). -/
def Vulnerabilities.visitRefs (s : RefState) (xs : List Vulnerability) : Res RefState :=
  xs.foldlM (fun s x => visitRef BomRefs.addVulnerability s x.bomRef) s

/-- Report a reference that is not in the BOM (`models/bom.rs` 403-411, 414-422, 432-439,
445-452). -/
def requireRef (refs : BomRefs) (key : String) (msg : String → String) (ctx : VResult)
    (r : String) : Res VResult :=
  if refs.contains r then .ok ctx else addCustom key (msg r) ctx

/-- The message for an unknown dependency reference (`models/bom.rs` 407, 418). -/
def noDependency (r : String) : String := "Dependency ref '" ++ r ++ "' does not exist in the BOM"

/-- The message for an unknown composition reference (`models/bom.rs` 436, 449). -/
def noComposition (r : String) : String :=
  "Composition reference '" ++ r ++ "' does not exist in the BOM"

/-- Check of one dependency entry (`models/bom.rs` 402-424). -/
def Dependency.checkRefs (refs : BomRefs) (ctx : VResult) (d : Dependency) : Res VResult := do
  let ctx ← requireRef refs "dependency_ref" noDependency ctx d.dependencyRef
  d.dependencies.foldlM (requireRef refs "sub dependency_ref" noDependency) ctx

/-- Check of one composition (`models/bom.rs` 429-455). -/
def Composition.checkRefs (refs : BomRefs) (ctx : VResult) (c : Composition) : Res VResult := do
  let ctx ← (c.assemblies.getD []).foldlM (requireRef refs "composition ref" noComposition) ctx
  (c.dependencies.getD []).foldlM (requireRef refs "composition ref" noComposition) ctx

/-- The part of `Bom::validate_version` that checks references (`models/bom.rs` 379-456), on
the context built so far. An absent list is visited like an empty one. -/
def Bom.checkRefs (x : Bom) (ctx : VResult) : Res VResult := do
  let s ← match x.metadata.bind (·.component) with
    | none => .ok (ctx, {})
    | some c => Component.visitRefs (ctx, {}) c
  let s ← Components.visitRefsOption s x.components
  let s ← Services.visitRefsOption s x.services
  let s ← Vulnerabilities.visitRefs s (x.vulnerabilities.getD [])
  let ctx ← (x.dependencies.getD []).foldlM (Dependency.checkRefs s.2) s.1
  (x.compositions.getD []).foldlM (Composition.checkRefs s.2) ctx

/-- `Bom::validate_version` (`models/bom.rs` 359-464). -/
def Bom.validateVersion (E : VEnv) (v : SpecVersion) (x : Bom) : Res VResult :=
  chain [
    addFieldOption "serial_number" x.serialNumber validateUrnUuid,
    addStructOption "metadata" x.metadata (Metadata.validate E v),
    addStructOption "components" x.components (Components.validate E v),
    addStructOption "services" x.services (Services.validate E v),
    addStructOption "external_references" x.externalReferences (ExternalReferences.validate E v),
    addStructOption "compositions" x.compositions (Compositions.validate E v),
    addStructOption "properties" x.properties (Properties.validate E v),
    addStructOption "vulnerabilities" x.vulnerabilities (Vulnerabilities.validate E v),
    x.checkRefs]

/-- `Bom::validate` (`models/bom.rs` 461-463): at the BOM's own version. -/
def Bom.validate (E : VEnv) (x : Bom) : Res VResult := x.validateVersion E x.specVersion

end Cdx
