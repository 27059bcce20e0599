import Verif.Spec.Conforms

/-!
# Unfolding what the JSON schema asks of an element
-/

namespace Cdx

open Spec

set_option linter.unusedVariables false

variable {F : Formats} {v : SpecVersion}

theorem sound_iff {e : Elem} : e.Sound F v ↔ e.schemaRule F v ∧ ∀ p ∈ e.parts, p.Sound F v := by
  constructor
  · intro h
    exact ⟨h e (.refl e), fun p hp q hq => h q (.step hp hq)⟩
  · rintro ⟨h, h'⟩ p hp
    cases hp with
    | refl => exact h
    | step h1 h2 => exact h' _ h1 _ h2

theorem forall_mem_opt {α : Type} {f : α → Elem} {o : Option α} {P : Elem → Prop} :
    (∀ p ∈ opt f o, P p) ↔ ∀ y, o = some y → P (f y) := by
  cases o <;> simp [opt]

theorem forall_mem_many {α : Type} {f : α → Elem} {o : Option (List α)} {P : Elem → Prop} :
    (∀ p ∈ many f o, P p) ↔ ∀ l, o = some l → ∀ y ∈ l, P (f y) := by
  cases o <;> simp [many]

theorem sound_normalizedString {x : NormalizedString} : (Elem.normalizedString x).Sound F v ↔
    (True) ∧
    ∀ p ∈ ([] : List Elem), p.Sound F v := sound_iff

theorem sound_uri {x : Uri} : (Elem.uri x).Sound F v ↔
    (F "iri-reference" x) ∧
    ∀ p ∈ ([] : List Elem), p.Sound F v := sound_iff

theorem sound_dateTime {x : DateTime} : (Elem.dateTime x).Sound F v ↔
    (F "date-time" x) ∧
    ∀ p ∈ ([] : List Elem), p.Sound F v := sound_iff

theorem sound_purl {x : Purl} : (Elem.purl x).Sound F v ↔
    (True) ∧
    ∀ p ∈ ([] : List Elem), p.Sound F v := sound_iff

theorem sound_cpe {x : String} : (Elem.cpe x).Sound F v ↔
    (True) ∧
    ∀ p ∈ ([] : List Elem), p.Sound F v := sound_iff

theorem sound_mimeType {x : String} : (Elem.mimeType x).Sound F v ↔
    (patternMime.isMatch x = true) ∧
    ∀ p ∈ ([] : List Elem), p.Sound F v := sound_iff

theorem sound_bomRefAttribute {x : BomReference} : (Elem.bomRefAttribute x).Sound F v ↔
    (True) ∧
    ∀ p ∈ ([] : List Elem), p.Sound F v := sound_iff

theorem sound_serialNumber {x : String} : (Elem.serialNumber x).Sound F v ↔
    (patternSerial.isMatch x = true) ∧
    ∀ p ∈ ([] : List Elem), p.Sound F v := sound_iff

theorem sound_hashValue {x : String} : (Elem.hashValue x).Sound F v ↔
    (patternHash.isMatch x = true) ∧
    ∀ p ∈ ([] : List Elem), p.Sound F v := sound_iff

theorem sound_attachmentEncoding {x : String} : (Elem.attachmentEncoding x).Sound F v ↔
    (x = "base64") ∧
    ∀ p ∈ ([] : List Elem), p.Sound F v := sound_iff

theorem sound_confidence {x : F32} : (Elem.confidence x).Sound F v ↔
    (x.isFinite = true ∧ 0 ≤ numberOf x ∧ numberOf x ≤ 1) ∧
    ∀ p ∈ ([] : List Elem), p.Sound F v := sound_iff

theorem sound_spdxId {x : String} : (Elem.spdxId x).Sound F v ↔
    (x ∈ SchemaSpdx.ids) ∧
    ∀ p ∈ ([] : List Elem), p.Sound F v := sound_iff

theorem sound_spdxExpression {x : SpdxExpression} : (Elem.spdxExpression x).Sound F v ↔
    (v ≠ .v1_3 → x.bomRef = none) ∧
    ∀ p ∈ ([] : List Elem), p.Sound F v := sound_iff

theorem sound_refUri {x : RefUri} : (Elem.refUri x).Sound F v ↔
    (F "iri-reference" x.display) ∧
    ∀ p ∈ ([] : List Elem), p.Sound F v := sound_iff

theorem sound_classification {x : Classification} : (Elem.classification x).Sound F v ↔
    (ClassificationIn v x) ∧
    ∀ p ∈ ([] : List Elem), p.Sound F v := sound_iff

theorem sound_aggregateType {x : AggregateType} : (Elem.aggregateType x).Sound F v ↔
    (AggregateNamed v x) ∧
    ∀ p ∈ ([] : List Elem), p.Sound F v := sound_iff

theorem sound_scoreMethod {x : ScoreMethod} : (Elem.scoreMethod x).Sound F v ↔
    (ScoreMethodIn v x) ∧
    ∀ p ∈ ([] : List Elem), p.Sound F v := sound_iff

theorem sound_scope {x : Scope} : (Elem.scope x).Sound F v ↔
    (∀ s, x ≠ .unknownScope s) ∧
    ∀ p ∈ ([] : List Elem), p.Sound F v := sound_iff

theorem sound_hashAlgorithm {x : HashAlgorithm} : (Elem.hashAlgorithm x).Sound F v ↔
    (∀ s, x ≠ .unknownHashAlgorithm s) ∧
    ∀ p ∈ ([] : List Elem), p.Sound F v := sound_iff

theorem sound_externalReferenceType {x : ExternalReferenceType} : (Elem.externalReferenceType x).Sound F v ↔
    (ReferenceTypeIn v x) ∧
    ∀ p ∈ ([] : List Elem), p.Sound F v := sound_iff

theorem sound_identityField {x : IdentityField} : (Elem.identityField x).Sound F v ↔
    (∀ s, x ≠ .unknown s) ∧
    ∀ p ∈ ([] : List Elem), p.Sound F v := sound_iff

theorem sound_algorithm {x : Algorithm} : (Elem.algorithm x).Sound F v ↔
    ((∀ s, x ≠ .unknown s) ∧ ¬ F "uri" x.display) ∧
    ∀ p ∈ ([] : List Elem), p.Sound F v := sound_iff

theorem sound_licenseType {x : LicenseType} : (Elem.licenseType x).Sound F v ↔
    (∀ s, x ≠ .unknown s) ∧
    ∀ p ∈ ([] : List Elem), p.Sound F v := sound_iff

theorem sound_approachType {x : ApproachType} : (Elem.approachType x).Sound F v ↔
    (∀ s, x ≠ .unknown s) ∧
    ∀ p ∈ ([] : List Elem), p.Sound F v := sound_iff

theorem sound_componentDataType {x : ComponentDataType} : (Elem.componentDataType x).Sound F v ↔
    (∀ s, x ≠ .unknown s) ∧
    ∀ p ∈ ([] : List Elem), p.Sound F v := sound_iff

theorem sound_issueClassification {x : IssueClassification} : (Elem.issueClassification x).Sound F v ↔
    (∀ s, x ≠ .unknownIssueClassification s) ∧
    ∀ p ∈ ([] : List Elem), p.Sound F v := sound_iff

theorem sound_patchClassification {x : PatchClassification} : (Elem.patchClassification x).Sound F v ↔
    (∀ s, x ≠ .unknownPatchClassification s) ∧
    ∀ p ∈ ([] : List Elem), p.Sound F v := sound_iff

theorem sound_dataFlowType {x : DataFlowType} : (Elem.dataFlowType x).Sound F v ↔
    (∀ s, x ≠ .unknownDataFlow s) ∧
    ∀ p ∈ ([] : List Elem), p.Sound F v := sound_iff

theorem sound_impactAnalysisState {x : ImpactAnalysisState} : (Elem.impactAnalysisState x).Sound F v ↔
    (∀ s, x ≠ .undefinedImpactAnalysisState s) ∧
    ∀ p ∈ ([] : List Elem), p.Sound F v := sound_iff

theorem sound_impactAnalysisJustification {x : ImpactAnalysisJustification} : (Elem.impactAnalysisJustification x).Sound F v ↔
    (∀ s, x ≠ .undefinedImpactAnalysisJustification s) ∧
    ∀ p ∈ ([] : List Elem), p.Sound F v := sound_iff

theorem sound_impactAnalysisResponse {x : ImpactAnalysisResponse} : (Elem.impactAnalysisResponse x).Sound F v ↔
    (True) ∧
    ∀ p ∈ ([] : List Elem), p.Sound F v := sound_iff

theorem sound_severity {x : Severity} : (Elem.severity x).Sound F v ↔
    (∀ s, x ≠ .undefinedSeverity s) ∧
    ∀ p ∈ ([] : List Elem), p.Sound F v := sound_iff

theorem sound_status {x : Status} : (Elem.status x).Sound F v ↔
    (∀ s, x ≠ .undefinedStatus s) ∧
    ∀ p ∈ ([] : List Elem), p.Sound F v := sound_iff

theorem sound_taskType {x : TaskType} : (Elem.taskType x).Sound F v ↔
    (∀ s, x ≠ .unknown s) ∧
    ∀ p ∈ ([] : List Elem), p.Sound F v := sound_iff

theorem sound_outputType {x : OutputType} : (Elem.outputType x).Sound F v ↔
    (∀ s, x ≠ .unknown s) ∧
    ∀ p ∈ ([] : List Elem), p.Sound F v := sound_iff

theorem sound_triggerType {x : TriggerType} : (Elem.triggerType x).Sound F v ↔
    (∀ s, x ≠ .unknownType s) ∧
    ∀ p ∈ ([] : List Elem), p.Sound F v := sound_iff

theorem sound_accessMode {x : AccessMode} : (Elem.accessMode x).Sound F v ↔
    (∀ s, x ≠ .unknownAccessMode s) ∧
    ∀ p ∈ ([] : List Elem), p.Sound F v := sound_iff

theorem sound_volumeMode {x : VolumeMode} : (Elem.volumeMode x).Sound F v ↔
    (∀ s, x ≠ .unknownMode s) ∧
    ∀ p ∈ ([] : List Elem), p.Sound F v := sound_iff

theorem sound_versionRange_range {s} : (Elem.versionRange (.range s)).Sound F v ↔
    (Elem.versionRange (.range s)).schemaRule F v ∧ ∀ p ∈ ([] ++ ([.normalizedString s]) : List Elem), p.Sound F v := sound_iff

theorem sound_versionRange_version {s} : (Elem.versionRange (.version s)).Sound F v ↔
    (Elem.versionRange (.version s)).schemaRule F v ∧ ∀ p ∈ ([] ++ ([.normalizedString s]) : List Elem), p.Sound F v := sound_iff

theorem sound_attachedText {x : AttachedText} : (Elem.attachedText x).Sound F v ↔
    (∀ e, x.encoding = some e → e = .base64) ∧
    ∀ p ∈ ((opt .normalizedString x.contentType) ++ [] : List Elem), p.Sound F v := sound_iff

theorem sound_attachment {x : Attachment} : (Elem.attachment x).Sound F v ↔
    (True) ∧
    ∀ p ∈ ((opt .attachmentEncoding x.encoding) ++ [] : List Elem), p.Sound F v := sound_iff

theorem sound_organizationalContact {x : OrganizationalContact} : (Elem.organizationalContact x).Sound F v ↔
    (v ≠ .v1_3 → x.bomRef = none ∧ ∀ e, x.email = some e → F "idn-email" e) ∧
    ∀ p ∈ ((opt .bomRefAttribute x.bomRef ++ opt .normalizedString x.name ++
      opt .normalizedString x.email ++ opt .normalizedString x.phone) ++ [] : List Elem), p.Sound F v := sound_iff

theorem sound_organizationalEntity {x : OrganizationalEntity} : (Elem.organizationalEntity x).Sound F v ↔
    (v ≠ .v1_3 → x.bomRef = none) ∧
    ∀ p ∈ ((opt .normalizedString x.name ++ many .uri x.url ++ many .organizationalContact x.contact) ++ (opt .bomRefAttribute x.bomRef) : List Elem), p.Sound F v := sound_iff

theorem sound_property {x : Property} : (Elem.property x).Sound F v ↔
    (True) ∧
    ∀ p ∈ (([.normalizedString x.value]) ++ [] : List Elem), p.Sound F v := sound_iff

theorem sound_hash {x : Hash} : (Elem.hash x).Sound F v ↔
    (True) ∧
    ∀ p ∈ (([.hashAlgorithm x.alg] ++ [.hashValue x.content]) ++ [] : List Elem), p.Sound F v := sound_iff

theorem sound_externalReference {x : ExternalReference} : (Elem.externalReference x).Sound F v ↔
    (True) ∧
    ∀ p ∈ (([.externalReferenceType x.externalReferenceType] ++ [.refUri x.url] ++ many .hash x.hashes) ++ [] : List Elem), p.Sound F v := sound_iff

theorem sound_licensing {x : Licensing} : (Elem.licensing x).Sound F v ↔
    (x.altIds ≠ none ∧ x.licensor ≠ none ∧ x.licensee ≠ none ∧ x.purchaser ≠ none ∧
      x.purchaseOrder ≠ none ∧ x.licenseTypes ≠ none ∧ x.lastRenewal ≠ none ∧ x.expiration ≠ none) ∧
    ∀ p ∈ ((many .normalizedString x.altIds ++ opt .licenseContact x.licensor ++
      opt .licenseContact x.licensee ++ opt .licenseContact x.purchaser ++
      many .licenseType x.licenseTypes ++ opt .dateTime x.lastRenewal ++
      opt .dateTime x.expiration) ++ [] : List Elem), p.Sound F v := sound_iff

theorem sound_license {x : License} : (Elem.license x).Sound F v ↔
    (v = .v1_5 → x.bomRef = none) ∧
    ∀ p ∈ (([.licenseIdentifier x.licenseIdentifier] ++ opt .attachedText x.text ++ opt .uri x.url ++
      opt .licensing x.licensing ++ many .property x.properties) ++ (opt .bomRefAttribute x.bomRef) : List Elem), p.Sound F v := sound_iff

theorem sound_identifiableAction {x : IdentifiableAction} : (Elem.identifiableAction x).Sound F v ↔
    (∀ e, x.email = some e → F "idn-email" e) ∧
    ∀ p ∈ ((opt .dateTime x.timestamp ++ opt .normalizedString x.name ++ opt .normalizedString x.email) ++ [] : List Elem), p.Sound F v := sound_iff

theorem sound_commit {x : Commit} : (Elem.commit x).Sound F v ↔
    (True) ∧
    ∀ p ∈ ((opt .normalizedString x.uid ++ opt .uri x.url ++ opt .identifiableAction x.author ++
      opt .identifiableAction x.committer ++ opt .normalizedString x.message) ++ [] : List Elem), p.Sound F v := sound_iff

theorem sound_diff {x : Diff} : (Elem.diff x).Sound F v ↔
    (True) ∧
    ∀ p ∈ ((opt .attachedText x.text ++ opt .uri x.url) ++ [] : List Elem), p.Sound F v := sound_iff

theorem sound_source {x : Source} : (Elem.source x).Sound F v ↔
    (True) ∧
    ∀ p ∈ ((opt .normalizedString x.name ++ opt .uri x.url) ++ [] : List Elem), p.Sound F v := sound_iff

theorem sound_issue {x : Issue} : (Elem.issue x).Sound F v ↔
    (True) ∧
    ∀ p ∈ (([.issueClassification x.issueType] ++ opt .normalizedString x.id ++
      opt .normalizedString x.name ++ opt .normalizedString x.description ++
      opt .source x.source ++ many .uri x.references) ++ [] : List Elem), p.Sound F v := sound_iff

theorem sound_patch {x : Patch} : (Elem.patch x).Sound F v ↔
    (True) ∧
    ∀ p ∈ (([.patchClassification x.patchType] ++ opt .diff x.diff ++ many .issue x.resolves) ++ [] : List Elem), p.Sound F v := sound_iff

theorem sound_signer {x : Signer} : (Elem.signer x).Sound F v ↔
    (True) ∧
    ∀ p ∈ (([.algorithm x.algorithm]) ++ [] : List Elem), p.Sound F v := sound_iff

theorem sound_dataGovernance {x : DataGovernance} : (Elem.dataGovernance x).Sound F v ↔
    (True) ∧
    ∀ p ∈ ((many .dataGovernanceResponsibleParty x.custodians ++
      many .dataGovernanceResponsibleParty x.stewards ++
      many .dataGovernanceResponsibleParty x.owners) ++ [] : List Elem), p.Sound F v := sound_iff

theorem sound_graphic {x : Graphic} : (Elem.graphic x).Sound F v ↔
    (True) ∧
    ∀ p ∈ ((opt .attachment x.image) ++ [] : List Elem), p.Sound F v := sound_iff

theorem sound_graphicsCollection {x : GraphicsCollection} : (Elem.graphicsCollection x).Sound F v ↔
    (True) ∧
    ∀ p ∈ ((many .graphic x.collection) ++ [] : List Elem), p.Sound F v := sound_iff

theorem sound_dataContents {x : DataContents} : (Elem.dataContents x).Sound F v ↔
    (True) ∧
    ∀ p ∈ ((opt .attachment x.attachment ++ opt .uri x.url ++ many .property x.properties) ++ [] : List Elem), p.Sound F v := sound_iff

theorem sound_componentData {x : ComponentData} : (Elem.componentData x).Sound F v ↔
    (x.bomRef = none ∧ x.sensitiveData = none) ∧
    ∀ p ∈ (([.componentDataType x.dataType] ++ opt .dataContents x.contents ++
      opt .graphicsCollection x.graphics ++ opt .dataGovernance x.governance) ++ (opt .bomRefAttribute x.bomRef) : List Elem), p.Sound F v := sound_iff

theorem sound_modelParametersApproach {x : ModelParametersApproach} : (Elem.modelParametersApproach x).Sound F v ↔
    (True) ∧
    ∀ p ∈ ((opt .approachType x.approachType) ++ [] : List Elem), p.Sound F v := sound_iff

theorem sound_modelParameters {x : ModelParameters} : (Elem.modelParameters x).Sound F v ↔
    (True) ∧
    ∀ p ∈ ((opt .modelParametersApproach x.approach ++ many .dataset x.datasets) ++ [] : List Elem), p.Sound F v := sound_iff

theorem sound_quantitativeAnalysis {x : QuantitativeAnalysis} : (Elem.quantitativeAnalysis x).Sound F v ↔
    (∀ l, x.performanceMetrics = some l → ∀ m ∈ l, m.confidenceInterval = none) ∧
    ∀ p ∈ ((opt .graphicsCollection x.graphics) ++ [] : List Elem), p.Sound F v := sound_iff

theorem sound_modelCard {x : ModelCard} : (Elem.modelCard x).Sound F v ↔
    (x.bomRef = none) ∧
    ∀ p ∈ ((opt .modelParameters x.modelParameters ++
      opt .quantitativeAnalysis x.quantitativeAnalysis ++ many .property x.properties) ++ (opt .bomRefAttribute x.bomRef) : List Elem), p.Sound F v := sound_iff

theorem sound_swid {x : Swid} : (Elem.swid x).Sound F v ↔
    (True) ∧
    ∀ p ∈ ((opt .attachedText x.text ++ opt .uri x.url) ++ [] : List Elem), p.Sound F v := sound_iff

theorem sound_occurrence {x : Occurrence} : (Elem.occurrence x).Sound F v ↔
    (x.bomRef = none) ∧
    ∀ p ∈ ((opt .bomRefAttribute x.bomRef) ++ [] : List Elem), p.Sound F v := sound_iff

theorem sound_frame {x : Frame} : (Elem.frame x).Sound F v ↔
    (True) ∧
    ∀ p ∈ ((opt .normalizedString x.package ++ [.normalizedString x.module] ++
      opt .normalizedString x.function ++ many .normalizedString x.parameters ++
      opt .normalizedString x.fullFilename) ++ [] : List Elem), p.Sound F v := sound_iff

theorem sound_callstack {x : Callstack} : (Elem.callstack x).Sound F v ↔
    (True) ∧
    ∀ p ∈ ((x.frames.map .frame) ++ [] : List Elem), p.Sound F v := sound_iff

theorem sound_identity {x : Identity} : (Elem.identity x).Sound F v ↔
    ((∀ l, x.methods = some l → ∀ m ∈ l, m.technique ∈ techniques) ∧
      ∀ l, x.tools = some l → l.Nodup ∧ ∀ r ∈ l, RefOk v r) ∧
    ∀ p ∈ (([.identityField x.field] ++ opt .confidence x.confidence) ++ ((x.methods.getD []).map (.confidence ·.confidence)) : List Elem), p.Sound F v := sound_iff

theorem sound_componentEvidence {x : ComponentEvidence} : (Elem.componentEvidence x).Sound F v ↔
    (True) ∧
    ∀ p ∈ ((opt .licenses x.licenses ++ many .occurrence x.occurrences ++ opt .callstack x.callstack ++
      opt .identity x.identity) ++ [] : List Elem), p.Sound F v := sound_iff

theorem sound_component {x : Component} : (Elem.component x).Sound F v ↔
    ((v = .v1_3 → x.version ≠ none) ∧ (v = .v1_5 → x.data = none) ∧
      (∀ r, x.bomRef = some r → RefOk v r) ∧ WrittenDistinct (Component.toJson v) x.components) ∧
    ∀ p ∈ (([.classification x.componentType] ++ opt .mimeType x.mimeType ++
      opt .organizationalEntity x.supplier ++ opt .normalizedString x.author ++
      opt .normalizedString x.publisher ++ opt .normalizedString x.group ++
      [.normalizedString x.name] ++ opt .normalizedString x.version ++
      opt .normalizedString x.description ++ opt .scope x.scope ++ many .hash x.hashes ++
      opt .licenses x.licenses ++ opt .normalizedString x.copyright ++ opt .cpe x.cpe ++
      opt .purl x.purl ++ opt .swid x.swid ++ opt .pedigree x.pedigree ++
      many .externalReference x.externalReferences ++ many .property x.properties ++
      many .component x.components ++ opt .componentEvidence x.evidence) ++ (opt .signature x.signature ++ opt .modelCard x.modelCard ++ opt .componentData x.data) : List Elem), p.Sound F v := sound_iff

theorem sound_pedigree {x : Pedigree} : (Elem.pedigree x).Sound F v ↔
    (True) ∧
    ∀ p ∈ ((many .component x.ancestors ++ many .component x.descendants ++
      many .component x.variants ++ many .commit x.commits ++ many .patch x.patches) ++ [] : List Elem), p.Sound F v := sound_iff

theorem sound_dataClassification {x : DataClassification} : (Elem.dataClassification x).Sound F v ↔
    (True) ∧
    ∀ p ∈ (([.dataFlowType x.flow] ++ [.normalizedString x.classification]) ++ [] : List Elem), p.Sound F v := sound_iff

theorem sound_serviceData {x : ServiceData} : (Elem.serviceData x).Sound F v ↔
    (True) ∧
    ∀ p ∈ ((opt .normalizedString x.name ++ opt .normalizedString x.description ++
      [.dataClassification x.classification] ++ opt .dataGovernance x.governance ++
      many .uri x.source ++ many .uri x.destination) ++ [] : List Elem), p.Sound F v := sound_iff

theorem sound_service {x : Service} : (Elem.service x).Sound F v ↔
    ((∀ r, x.bomRef = some r → RefOk v r) ∧ WrittenDistinct (Service.toJson v) x.services) ∧
    ∀ p ∈ ((opt .organizationalEntity x.provider ++ opt .normalizedString x.group ++
      [.normalizedString x.name] ++ opt .normalizedString x.version ++
      opt .normalizedString x.description ++ many .uri x.endpoints ++
      opt .serviceDataChoice x.data ++ opt .licenses x.licenses ++
      many .externalReference x.externalReferences ++ many .property x.properties ++
      many .service x.services ++ opt .normalizedString x.trustZone) ++ (opt .signature x.signature) : List Elem), p.Sound F v := sound_iff

theorem sound_tool {x : Tool} : (Elem.tool x).Sound F v ↔
    (True) ∧
    ∀ p ∈ ((opt .normalizedString x.vendor ++ opt .normalizedString x.name ++
      opt .normalizedString x.version ++ many .hash x.hashes ++
      many .externalReference x.externalReferences) ++ [] : List Elem), p.Sound F v := sound_iff

theorem sound_metadata {x : Metadata} : (Elem.metadata x).Sound F v ↔
    (∀ l, x.lifecycles = some l → ∀ p s, .phase p ∈ l → p ≠ .unknown s) ∧
    ∀ p ∈ ((opt .dateTime x.timestamp ++ opt .tools x.tools ++ many .organizationalContact x.authors ++
      opt .component x.component ++ opt .organizationalEntity x.manufacture ++
      opt .organizationalEntity x.supplier ++ opt .licenses x.licenses ++
      many .property x.properties) ++ ((x.lifecycles.getD []).flatMap lifecycleParts) : List Elem), p.Sound F v := sound_iff

theorem sound_composition {x : Composition} : (Elem.composition x).Sound F v ↔
    ((v = .v1_5 → x.bomRef = none) ∧
      (∀ l, x.assemblies = some l → l.Nodup ∧ ∀ r ∈ l, RefOk v r) ∧
      (∀ l, x.dependencies = some l → l.Nodup) ∧ ∀ l, x.vulnerabilities = some l → l.Nodup) ∧
    ∀ p ∈ (([.aggregateType x.aggregate] ++ opt .signature x.signature) ++ (opt .bomRefAttribute x.bomRef) : List Elem), p.Sound F v := sound_iff

theorem sound_advisory {x : Advisory} : (Elem.advisory x).Sound F v ↔
    (True) ∧
    ∀ p ∈ ((opt .normalizedString x.title ++ [.uri x.url]) ++ [] : List Elem), p.Sound F v := sound_iff

theorem sound_vulnerabilitySource {x : VulnerabilitySource} : (Elem.vulnerabilitySource x).Sound F v ↔
    (True) ∧
    ∀ p ∈ ((opt .normalizedString x.name ++ opt .uri x.url) ++ [] : List Elem), p.Sound F v := sound_iff

theorem sound_vulnerabilityReference {x : VulnerabilityReference} : (Elem.vulnerabilityReference x).Sound F v ↔
    (True) ∧
    ∀ p ∈ (([.normalizedString x.id] ++ [.vulnerabilitySource x.vulnerabilitySource]) ++ [] : List Elem), p.Sound F v := sound_iff

theorem sound_vulnerabilityRating {x : VulnerabilityRating} : (Elem.vulnerabilityRating x).Sound F v ↔
    (∀ s, x.score = some s → s.isFinite = true) ∧
    ∀ p ∈ ((opt .vulnerabilitySource x.vulnerabilitySource ++ opt .severity x.severity ++
      opt .scoreMethod x.scoreMethod ++ opt .normalizedString x.vector) ++ [] : List Elem), p.Sound F v := sound_iff

theorem sound_vulnerabilityCredits {x : VulnerabilityCredits} : (Elem.vulnerabilityCredits x).Sound F v ↔
    (True) ∧
    ∀ p ∈ ((many .organizationalEntity x.organizations ++ many .organizationalContact x.individuals) ++ [] : List Elem), p.Sound F v := sound_iff

theorem sound_vulnerabilityAnalysis {x : VulnerabilityAnalysis} : (Elem.vulnerabilityAnalysis x).Sound F v ↔
    (x.responses = none) ∧
    ∀ p ∈ ((opt .impactAnalysisState x.state ++ opt .impactAnalysisJustification x.justification ++
      many .impactAnalysisResponse x.responses ++ opt .dateTime x.firstIssued) ++ (opt .dateTime x.lastUpdated) : List Elem), p.Sound F v := sound_iff

theorem sound_targetVersion {x : TargetVersion} : (Elem.targetVersion x).Sound F v ↔
    (True) ∧
    ∀ p ∈ (([.versionRange x.versionRange] ++ [.status x.status]) ++ [] : List Elem), p.Sound F v := sound_iff

theorem sound_vulnerabilityTarget {x : VulnerabilityTarget} : (Elem.vulnerabilityTarget x).Sound F v ↔
    (RefOk v x.bomRef) ∧
    ∀ p ∈ ((many .targetVersion x.versions) ++ [] : List Elem), p.Sound F v := sound_iff

theorem sound_vulnerability {x : Vulnerability} : (Elem.vulnerability x).Sound F v ↔
    ((∀ r, x.bomRef = some r → RefOk v r) ∧
      (∀ l, x.cwes = some l → ∀ n ∈ l, 1 ≤ n) ∧
      WrittenDistinct VulnerabilityTarget.toJson x.vulnerabilityTargets) ∧
    ∀ p ∈ ((opt .normalizedString x.id ++ opt .vulnerabilitySource x.vulnerabilitySource ++
      many .vulnerabilityReference x.vulnerabilityReferences ++
      many .vulnerabilityRating x.vulnerabilityRatings ++ many .advisory x.advisories ++
      opt .dateTime x.created ++ opt .dateTime x.published ++ opt .dateTime x.updated ++
      opt .vulnerabilityCredits x.vulnerabilityCredits ++ opt .tools x.tools ++
      opt .vulnerabilityAnalysis x.vulnerabilityAnalysis ++
      many .vulnerabilityTarget x.vulnerabilityTargets ++ many .property x.properties) ++ (many .attachment (x.proofOfConcept.bind (·.supportingMaterial)) ++ opt .dateTime x.rejected) : List Elem), p.Sound F v := sound_iff

theorem sound_annotation {x : Annotation} : (Elem.annotation x).Sound F v ↔
    ((∀ r, x.bomRef = some r → RefOk v r) ∧ x.subjects.Nodup ∧ ∀ r ∈ x.subjects, RefOk v r) ∧
    ∀ p ∈ (([.annotator x.annotator] ++ [.dateTime x.timestamp]) ++ (opt .signature x.signature) : List Elem), p.Sound F v := sound_iff

theorem sound_input {x : Input} : (Elem.input x).Sound F v ↔
    ((Elem.input x).schemaRule F v) ∧
    ∀ p ∈ ((inputParts x.required ++ opt .resourceReference x.source ++
      opt .resourceReference x.target ++ many .property x.properties) ++ [] : List Elem), p.Sound F v := sound_iff

theorem sound_output {x : Output} : (Elem.output x).Sound F v ↔
    ((Elem.output x).schemaRule F v) ∧
    ∀ p ∈ ((outputParts x.required ++ opt .outputType x.type ++ opt .resourceReference x.source ++
      opt .resourceReference x.target ++ many .property x.properties) ++ [] : List Elem), p.Sound F v := sound_iff

theorem sound_command {x : Command} : (Elem.command x).Sound F v ↔
    (True) ∧
    ∀ p ∈ ((many .property x.properties) ++ [] : List Elem), p.Sound F v := sound_iff

theorem sound_step {x : Step} : (Elem.step x).Sound F v ↔
    (True) ∧
    ∀ p ∈ ((many .command x.commands ++ many .property x.properties) ++ [] : List Elem), p.Sound F v := sound_iff

theorem sound_triggerEvent {x : TriggerEvent} : (Elem.triggerEvent x).Sound F v ↔
    (True) ∧
    ∀ p ∈ ((opt .dateTime x.timeReceived ++ opt .attachment x.data ++
      opt .resourceReference x.source ++ opt .resourceReference x.target ++
      many .property x.properties) ++ [] : List Elem), p.Sound F v := sound_iff

theorem sound_condition {x : Condition} : (Elem.condition x).Sound F v ↔
    (True) ∧
    ∀ p ∈ ((many .property x.properties) ++ [] : List Elem), p.Sound F v := sound_iff

theorem sound_trigger {x : Trigger} : (Elem.trigger x).Sound F v ↔
    (RefOk v x.bomRef ∧ WrittenDistinct ResourceReference.toJson x.resourceReferences ∧
      WrittenDistinct Condition.toJson x.conditions ∧ WrittenDistinct Input.toJson x.inputs ∧
      WrittenDistinct Output.toJson x.outputs) ∧
    ∀ p ∈ (([.bomRefAttribute x.bomRef] ++ many .resourceReference x.resourceReferences ++
      [.triggerType x.type] ++ opt .triggerEvent x.event ++ many .condition x.conditions ++
      opt .dateTime x.timeActivated ++ many .input x.inputs ++ many .output x.outputs ++
      many .property x.properties) ++ [] : List Elem), p.Sound F v := sound_iff

theorem sound_volume {x : Volume} : (Elem.volume x).Sound F v ↔
    (x.sizeAllocated = none) ∧
    ∀ p ∈ (([.volumeMode x.mode]) ++ (many .property x.properties) : List Elem), p.Sound F v := sound_iff

theorem sound_workspace {x : Workspace} : (Elem.workspace x).Sound F v ↔
    (RefOk v x.bomRef ∧ WrittenDistinct ResourceReference.toJson x.resourceReferences) ∧
    ∀ p ∈ ((many .resourceReference x.resourceReferences ++ opt .accessMode x.accessMode) ++ ([.bomRefAttribute x.bomRef] ++ opt .volume x.volume ++ many .property x.properties) : List Elem), p.Sound F v := sound_iff

theorem sound_workflowTask {x : WorkflowTask} : (Elem.workflowTask x).Sound F v ↔
    (RefOk v x.bomRef ∧ WrittenDistinct ResourceReference.toJson x.resourceReferences ∧
      WrittenDistinct Step.toJson x.steps ∧ WrittenDistinct Input.toJson x.inputs ∧
      WrittenDistinct Output.toJson x.outputs ∧ WrittenDistinct Workspace.toJson x.workspaces ∧
      WrittenDistinct Dependency.toJson x.runtimeTopology ∧
      ∀ l, x.runtimeTopology = some l → ∀ d ∈ l, DependencyOk v d) ∧
    ∀ p ∈ ((many .resourceReference x.resourceReferences ++ x.taskTypes.map .taskType ++
      opt .trigger x.trigger ++ many .step x.steps ++ many .input x.inputs ++
      many .output x.outputs ++ opt .dateTime x.timeStart ++ opt .dateTime x.timeEnd ++
      many .workspace x.workspaces) ++ ([.bomRefAttribute x.bomRef] ++ many .property x.properties) : List Elem), p.Sound F v := sound_iff

theorem sound_workflow {x : Workflow} : (Elem.workflow x).Sound F v ↔
    (RefOk v x.bomRef ∧ WrittenDistinct ResourceReference.toJson x.resourceReferences ∧
      WrittenDistinct WorkflowTask.toJson x.tasks ∧ WrittenDistinct Dependency.toJson x.taskDependencies ∧
      WrittenDistinct Step.toJson x.steps ∧ WrittenDistinct Input.toJson x.inputs ∧
      WrittenDistinct Output.toJson x.outputs ∧ WrittenDistinct Workspace.toJson x.workspaces ∧
      WrittenDistinct Dependency.toJson x.runtimeTopology ∧
      (∀ l, x.taskDependencies = some l → ∀ d ∈ l, DependencyOk v d) ∧
      ∀ l, x.runtimeTopology = some l → ∀ d ∈ l, DependencyOk v d) ∧
    ∀ p ∈ ((many .resourceReference x.resourceReferences ++ many .workflowTask x.tasks ++
      x.taskTypes.map .taskType ++ opt .trigger x.trigger ++ many .step x.steps ++
      many .input x.inputs ++ many .output x.outputs ++ opt .dateTime x.timeStart ++
      opt .dateTime x.timeEnd ++ many .workspace x.workspaces) ++ ([.bomRefAttribute x.bomRef] ++ many .property x.properties) : List Elem), p.Sound F v := sound_iff

theorem sound_formula {x : Formula} : (Elem.formula x).Sound F v ↔
    ((∀ r, x.bomRef = some r → RefOk v r) ∧ WrittenDistinct (Component.toJson v) x.components ∧
      WrittenDistinct (Service.toJson v) x.services ∧ WrittenDistinct Workflow.toJson x.workflows) ∧
    ∀ p ∈ ((many .component x.components ++ many .service x.services ++ many .workflow x.workflows ++
      many .property x.properties) ++ (opt .bomRefAttribute x.bomRef) : List Elem), p.Sound F v := sound_iff

theorem sound_bom {x : Bom} : (Elem.bom x).Sound F v ↔
    ((v = .v1_5 → 1 ≤ x.version) ∧ WrittenDistinct (Component.toJson v) x.components ∧
      WrittenDistinct (Service.toJson v) x.services ∧ WrittenDistinct Dependency.toJson x.dependencies ∧
      (∀ l, x.dependencies = some l → ∀ d ∈ l, DependencyOk v d) ∧
      WrittenDistinct (Composition.toJson v) x.compositions ∧
      WrittenDistinct (Vulnerability.toJson v) x.vulnerabilities ∧
      WrittenDistinct (Annotation.toJson v) x.annotations ∧
      WrittenDistinct (Formula.toJson v) x.formulation) ∧
    ∀ p ∈ ((opt .serialNumber x.serialNumber ++ opt .metadata x.metadata ++
      many .component x.components ++ many .service x.services ++
      many .externalReference x.externalReferences ++ many .composition x.compositions ++
      many .property x.properties ++ many .vulnerability x.vulnerabilities) ++ (opt .signature x.signature ++ many .annotation x.annotations ++ many .formula x.formulation) : List Elem), p.Sound F v := sound_iff

theorem sound_licenseIdentifier_name {n} : (Elem.licenseIdentifier (.name n)).Sound F v ↔
    (Elem.licenseIdentifier (.name n)).schemaRule F v ∧ ∀ p ∈ (([.normalizedString n]) ++ [] : List Elem), p.Sound F v := sound_iff

theorem sound_licenseIdentifier_spdxId {i} : (Elem.licenseIdentifier (.spdxId i)).Sound F v ↔
    (Elem.licenseIdentifier (.spdxId i)).schemaRule F v ∧ ∀ p ∈ (([.spdxId i]) ++ [] : List Elem), p.Sound F v := sound_iff

theorem sound_licenseContact_contact {c} : (Elem.licenseContact (.contact c)).Sound F v ↔
    (Elem.licenseContact (.contact c)).schemaRule F v ∧ ∀ p ∈ (([.organizationalContact c]) ++ [] : List Elem), p.Sound F v := sound_iff

theorem sound_licenseContact_organization {o} : (Elem.licenseContact (.organization o)).Sound F v ↔
    (Elem.licenseContact (.organization o)).schemaRule F v ∧ ∀ p ∈ (([.organizationalEntity o]) ++ [] : List Elem), p.Sound F v := sound_iff

theorem sound_licenseChoice_expression {e} : (Elem.licenseChoice (.expression e)).Sound F v ↔
    (Elem.licenseChoice (.expression e)).schemaRule F v ∧ ∀ p ∈ (([.spdxExpression e]) ++ [] : List Elem), p.Sound F v := sound_iff

theorem sound_licenseChoice_license {l} : (Elem.licenseChoice (.license l)).Sound F v ↔
    (Elem.licenseChoice (.license l)).schemaRule F v ∧ ∀ p ∈ (([.license l]) ++ [] : List Elem), p.Sound F v := sound_iff

theorem sound_licenses {x : Licenses} : (Elem.licenses x).Sound F v ↔
    (v = .v1_5 → (∀ c ∈ x, ∃ l, c = .license l) ∨ ∃ e, x = [.expression e]) ∧
    ∀ p ∈ ((x.map .licenseChoice) ++ [] : List Elem), p.Sound F v := sound_iff

theorem sound_signature_chain {l} : (Elem.signature (.chain l)).Sound F v ↔
    (Elem.signature (.chain l)).schemaRule F v ∧ ∀ p ∈ ((l.map .signer) ++ [] : List Elem), p.Sound F v := sound_iff

theorem sound_signature_signers {l} : (Elem.signature (.signers l)).Sound F v ↔
    (Elem.signature (.signers l)).schemaRule F v ∧ ∀ p ∈ ((l.map .signer) ++ [] : List Elem), p.Sound F v := sound_iff

theorem sound_signature_single {s} : (Elem.signature (.single s)).Sound F v ↔
    (Elem.signature (.single s)).schemaRule F v ∧ ∀ p ∈ (([.signer s]) ++ [] : List Elem), p.Sound F v := sound_iff

theorem sound_dataGovernanceResponsibleParty_contact {c} : (Elem.dataGovernanceResponsibleParty (.contact c)).Sound F v ↔
    (Elem.dataGovernanceResponsibleParty (.contact c)).schemaRule F v ∧ ∀ p ∈ (([.organizationalContact c]) ++ [] : List Elem), p.Sound F v := sound_iff

theorem sound_dataGovernanceResponsibleParty_organization {o} : (Elem.dataGovernanceResponsibleParty (.organization o)).Sound F v ↔
    (Elem.dataGovernanceResponsibleParty (.organization o)).schemaRule F v ∧ ∀ p ∈ (([.organizationalEntity o]) ++ [] : List Elem), p.Sound F v := sound_iff

theorem sound_dataset_component {c} : (Elem.dataset (.component c)).Sound F v ↔
    (Elem.dataset (.component c)).schemaRule F v ∧ ∀ p ∈ (([.componentData c]) ++ [] : List Elem), p.Sound F v := sound_iff

theorem sound_dataset_reference {a} : (Elem.dataset (.reference a)).Sound F v ↔
    (Elem.dataset (.reference a)).schemaRule F v ∧ ∀ p ∈ (([]) ++ [] : List Elem), p.Sound F v := sound_iff

theorem sound_serviceDataChoice_classification {l} : (Elem.serviceDataChoice (.classification l)).Sound F v ↔
    (Elem.serviceDataChoice (.classification l)).schemaRule F v ∧ ∀ p ∈ ((l.map .dataClassification) ++ [] : List Elem), p.Sound F v := sound_iff

theorem sound_serviceDataChoice_serviceData {l} : (Elem.serviceDataChoice (.serviceData l)).Sound F v ↔
    (Elem.serviceDataChoice (.serviceData l)).schemaRule F v ∧ ∀ p ∈ ((l.map .serviceData) ++ [] : List Elem), p.Sound F v := sound_iff

theorem sound_tools_list {l} : (Elem.tools (.list l)).Sound F v ↔
    (Elem.tools (.list l)).schemaRule F v ∧ ∀ p ∈ ((l.map .tool) ++ [] : List Elem), p.Sound F v := sound_iff

theorem sound_tools_object {services components} : (Elem.tools (.object services components)).Sound F v ↔
    (Elem.tools (.object services components)).schemaRule F v ∧ ∀ p ∈ ((many .service services ++ many .component components) ++ [] : List Elem), p.Sound F v := sound_iff

theorem sound_annotator_component {c} : (Elem.annotator (.component c)).Sound F v ↔
    (Elem.annotator (.component c)).schemaRule F v ∧ ∀ p ∈ (([.component c]) ++ [] : List Elem), p.Sound F v := sound_iff

theorem sound_annotator_individual {c} : (Elem.annotator (.individual c)).Sound F v ↔
    (Elem.annotator (.individual c)).schemaRule F v ∧ ∀ p ∈ (([.organizationalContact c]) ++ [] : List Elem), p.Sound F v := sound_iff

theorem sound_annotator_organization {o} : (Elem.annotator (.organization o)).Sound F v ↔
    (Elem.annotator (.organization o)).schemaRule F v ∧ ∀ p ∈ (([.organizationalEntity o]) ++ [] : List Elem), p.Sound F v := sound_iff

theorem sound_annotator_service {s} : (Elem.annotator (.service s)).Sound F v ↔
    (Elem.annotator (.service s)).schemaRule F v ∧ ∀ p ∈ (([.service s]) ++ [] : List Elem), p.Sound F v := sound_iff

theorem sound_resourceReference_externalReference {e} : (Elem.resourceReference (.externalReference e)).Sound F v ↔
    (Elem.resourceReference (.externalReference e)).schemaRule F v ∧ ∀ p ∈ (([.externalReference e]) ++ [] : List Elem), p.Sound F v := sound_iff

theorem sound_resourceReference_ref {a} : (Elem.resourceReference (.ref a)).Sound F v ↔
    (Elem.resourceReference (.ref a)).schemaRule F v ∧ ∀ p ∈ (([]) ++ [] : List Elem), p.Sound F v := sound_iff

end Cdx
