import Verif.Lemmas.PlacesOf

/-!
# The places of the messages of a report: all elements
-/

namespace Cdx

open Spec

set_option linter.unusedSimpArgs false
set_option linter.unusedVariables false

/-- The fault of an element that is a single value. -/
theorem leafPlaces {E : VEnv} {v : SpecVersion} {c : Check} {P : Prop} (h : c = .ok () ↔ P)
    (p : Place) :
    TellsOf (.ok (.ofCheck c)) p ↔ (¬ P ∧ p = []) ∨ Under E v [] p ∨ False := by
  rw [tells_ofCheck, ← h, under_nil]
  simp [and_comm]

theorem places_or {A B C : Prop} (h : A ↔ B ∨ C) : A ↔ B ∨ C ∨ False := by simpa using h

/-- A wrong date of the first issue is also reported for the last update. -/
def Elem.mislocated (E : VEnv) (v : SpecVersion) : Elem → Place → Prop
  | .vulnerabilityAnalysis x, p => Under E v (optAt "last_updated" .dateTime x.firstIssued) p
  | _, _ => False

theorem Elem.places (E : VEnv) (v : SpecVersion) (e : Elem) (p : Place) :
    TellsOf (e.outcome E v) p ↔
      e.fault E v p ∨ Under E v (e.located v) p ∨ Elem.mislocated E v e p := by
  cases e with
  | normalizedString x => exact leafPlaces (validateNormalizedString_iff x) p
  | uri x => exact leafPlaces (require_ok _ _) p
  | dateTime x => exact leafPlaces (require_ok _ _) p
  | purl x => exact leafPlaces (purl_iff E x) p
  | cpe x => exact leafPlaces (require_ok _ _) p
  | mimeType x => exact leafPlaces ((require_ok _ _).trans (patMime_iff x)) p
  | bomRefAttribute x => exact leafPlaces (bomRefAttribute_iff v x) p
  | serialNumber x => exact leafPlaces ((require_ok _ _).trans (patUrnUuid_iff x)) p
  | hashValue x => exact leafPlaces ((require_ok _ _).trans (patHash_iff x)) p
  | attachmentEncoding x => exact leafPlaces ((require_ok _ _).trans beq_iff_eq) p
  | confidence x => exact leafPlaces (confidence_iff x) p
  | spdxId x => exact leafPlaces (require_ok _ _) p
  | spdxExpression x => exact leafPlaces (require_ok _ _) p
  | refUri x => exact leafPlaces (refUri_iff E v x) p
  | classification x => exact leafPlaces (classification_iff v x) p
  | aggregateType x => exact leafPlaces (aggregateType_iff v x) p
  | scoreMethod x => exact leafPlaces (scoreMethod_iff v x) p
  | scope x => exact leafPlaces (scope_iff x) p
  | hashAlgorithm x => exact leafPlaces (hashAlgorithm_iff x) p
  | externalReferenceType x => exact leafPlaces (externalReferenceType_iff x) p
  | identityField x => exact leafPlaces (identityField_iff x) p
  | algorithm x => exact leafPlaces (algorithm_iff x) p
  | licenseType x => exact leafPlaces (licenseType_iff x) p
  | approachType x => exact leafPlaces (approachType_iff x) p
  | componentDataType x => exact leafPlaces (componentDataType_iff x) p
  | issueClassification x => exact leafPlaces (issueClassification_iff x) p
  | patchClassification x => exact leafPlaces (patchClassification_iff x) p
  | dataFlowType x => exact leafPlaces (dataFlowType_iff x) p
  | impactAnalysisState x => exact leafPlaces (impactAnalysisState_iff x) p
  | impactAnalysisJustification x => exact leafPlaces (impactAnalysisJustification_iff x) p
  | impactAnalysisResponse x => exact leafPlaces (impactAnalysisResponse_iff x) p
  | severity x => exact leafPlaces (severity_iff x) p
  | status x => exact leafPlaces (status_iff x) p
  | taskType x => exact leafPlaces (taskType_iff x) p
  | outputType x => exact leafPlaces (outputType_iff x) p
  | triggerType x => exact leafPlaces (triggerType_iff x) p
  | accessMode x => exact leafPlaces (accessMode_iff x) p
  | volumeMode x => exact leafPlaces (volumeMode_iff x) p
  | versionRange x => exact leafPlaces (versionRange_iff x) p
  | attachedText x => exact places_or (places_attachedText E v x p)
  | attachment x => exact places_or (places_attachment E v x p)
  | organizationalContact x => exact places_or (places_organizationalContact E v x p)
  | organizationalEntity x => exact places_or (places_organizationalEntity E v x p)
  | property x => exact places_or (places_property E v x p)
  | hash x => exact places_or (places_hash E v x p)
  | externalReference x => exact places_or (places_externalReference E v x p)
  | licensing x => exact places_or (places_licensing E v x p)
  | license x => exact places_or (places_license E v x p)
  | identifiableAction x => exact places_or (places_identifiableAction E v x p)
  | commit x => exact places_or (places_commit E v x p)
  | diff x => exact places_or (places_diff E v x p)
  | source x => exact places_or (places_source E v x p)
  | issue x => exact places_or (places_issue E v x p)
  | patch x => exact places_or (places_patch E v x p)
  | signer x => exact places_or (places_signer E v x p)
  | dataGovernance x => exact places_or (places_dataGovernance E v x p)
  | graphic x => exact places_or (places_graphic E v x p)
  | graphicsCollection x => exact places_or (places_graphicsCollection E v x p)
  | dataContents x => exact places_or (places_dataContents E v x p)
  | componentData x => exact places_or (places_componentData E v x p)
  | modelParametersApproach x => exact places_or (places_modelParametersApproach E v x p)
  | modelParameters x => exact places_or (places_modelParameters E v x p)
  | quantitativeAnalysis x => exact places_or (places_quantitativeAnalysis E v x p)
  | modelCard x => exact places_or (places_modelCard E v x p)
  | swid x => exact places_or (places_swid E v x p)
  | occurrence x => exact places_or (places_occurrence E v x p)
  | frame x => exact places_or (places_frame E v x p)
  | callstack x => exact places_or (places_callstack E v x p)
  | identity x => exact places_or (places_identity E v x p)
  | componentEvidence x => exact places_or (places_componentEvidence E v x p)
  | component x => exact places_or (places_component E v x p)
  | pedigree x => exact places_or (places_pedigree E v x p)
  | dataClassification x => exact places_or (places_dataClassification E v x p)
  | serviceData x => exact places_or (places_serviceData E v x p)
  | service x => exact places_or (places_service E v x p)
  | tool x => exact places_or (places_tool E v x p)
  | metadata x => exact places_or (places_metadata E v x p)
  | composition x => exact places_or (places_composition E v x p)
  | advisory x => exact places_or (places_advisory E v x p)
  | vulnerabilitySource x => exact places_or (places_vulnerabilitySource E v x p)
  | vulnerabilityReference x => exact places_or (places_vulnerabilityReference E v x p)
  | vulnerabilityRating x => exact places_or (places_vulnerabilityRating E v x p)
  | vulnerabilityCredits x => exact places_or (places_vulnerabilityCredits E v x p)
  | vulnerabilityAnalysis x => exact places_vulnerabilityAnalysis E v x p
  | targetVersion x => exact places_or (places_targetVersion E v x p)
  | vulnerabilityTarget x => exact places_or (places_vulnerabilityTarget E v x p)
  | vulnerability x => exact places_or (places_vulnerability E v x p)
  | annotation x => exact places_or (places_annotation E v x p)
  | input x => exact places_or (places_input E v x p)
  | output x => exact places_or (places_output E v x p)
  | command x => exact places_or (places_command E v x p)
  | step x => exact places_or (places_step E v x p)
  | triggerEvent x => exact places_or (places_triggerEvent E v x p)
  | condition x => exact places_or (places_condition E v x p)
  | trigger x => exact places_or (places_trigger E v x p)
  | volume x => exact places_or (places_volume E v x p)
  | workspace x => exact places_or (places_workspace E v x p)
  | workflowTask x => exact places_or (places_workflowTask E v x p)
  | workflow x => exact places_or (places_workflow E v x p)
  | formula x => exact places_or (places_formula E v x p)
  | bom x => exact places_or (places_bom E v x p)
  | licenseIdentifier x => exact places_or (places_licenseIdentifier E v x p)
  | licenseContact x => exact places_or (places_licenseContact E v x p)
  | licenseChoice x => exact places_or (places_licenseChoice E v x p)
  | licenses x => exact places_or (places_licenses E v x p)
  | signature x => exact places_or (places_signature E v x p)
  | dataGovernanceResponsibleParty x => exact places_or (places_dataGovernanceResponsibleParty E v x p)
  | dataset x => exact places_or (places_dataset E v x p)
  | serviceDataChoice x => exact places_or (places_serviceDataChoice E v x p)
  | tools x => exact places_or (places_tools E v x p)
  | annotator x => exact places_or (places_annotator E v x p)
  | resourceReference x => exact places_or (places_resourceReference E v x p)

/-! ## Places of parts within parts -/

/-- The elements of the first list are among those of the second. -/
def Subparts (l : List (Place × Elem)) (c : List Elem) : Prop := ∀ y ∈ l, y.2 ∈ c

theorem Subparts.append {a b : List (Place × Elem)} {c d : List Elem} (h : Subparts a c)
    (h' : Subparts b d) : Subparts (a ++ b) (c ++ d) := by
  intro y hy
  rcases List.mem_append.mp hy with hy | hy
  · exact List.mem_append_left _ (h y hy)
  · exact List.mem_append_right _ (h' y hy)

theorem sub_nil (c : List Elem) : Subparts [] c := fun y hy => absurd hy List.not_mem_nil

theorem sub_one {n : String} {e : Elem} : Subparts (oneAt n e) [e] := by
  intro y hy
  obtain rfl := List.mem_singleton.mp hy
  exact List.mem_singleton.mpr rfl

theorem sub_opt {α : Type} {n : String} {f : α → Elem} {x : Option α} :
    Subparts (optAt n f x) (opt f x) := by
  intro y hy
  obtain ⟨z, hz, rfl⟩ := List.mem_map.mp hy
  exact List.mem_map.mpr ⟨z, hz, rfl⟩

theorem sub_list {α : Type} {n : String} {f : α → Elem} {l : List α} :
    Subparts (listAt n f l) (l.map f) := by
  intro y hy
  obtain ⟨z, hz, rfl⟩ := List.mem_map.mp hy
  exact List.mem_map.mpr ⟨z.1, List.fst_mem_of_mem_zipIdx hz, rfl⟩

theorem sub_many {α : Type} {n : String} {f : α → Elem} {x : Option (List α)} :
    Subparts (manyAt n f x) (many f x) := sub_list

theorem sub_first {α : Type} [DecidableEq α] {n : String} {f : α → Elem}
    {x : Option (List α)} : Subparts (firstAt n f x) (many f x) := by
  intro y hy
  obtain ⟨z, hz, rfl⟩ := List.mem_map.mp hy
  exact List.mem_map.mpr ⟨z.1, List.fst_mem_of_mem_zipIdx (List.mem_filter.mp hz).1, rfl⟩

theorem sub_below {n : String} {l : List (Place × Elem)} {c : List Elem} (h : Subparts l c) :
    Subparts (below n l) c := by
  intro y hy
  obtain ⟨z, hz, rfl⟩ := List.mem_map.mp hy
  exact h z hz

theorem sub_sole {n : String} {l : List (Place × Elem)} {c : List Elem} (h : Subparts l c) :
    Subparts (soleAt n l) c := by
  intro y hy
  obtain ⟨z, hz, rfl⟩ := List.mem_map.mp hy
  exact h z hz

theorem sub_input {r : RequiredInputField} : Subparts (inputAt r) (inputParts r) := by
  cases r with
  | resource r => exact sub_one
  | parameters l => exact sub_nil _
  | environmentVars l => exact sub_nil _
  | data a => exact sub_one

theorem sub_output {r : RequiredOutputField} : Subparts (outputAt r) (outputParts r) := by
  cases r with
  | resource r => exact sub_one
  | environmentVars l => exact sub_nil _
  | data a => exact sub_one

theorem sub_if {c : Prop} [Decidable c] {l : List (Place × Elem)} {d : List Elem}
    (h : Subparts l d) : Subparts (if c then l else []) d := by
  split
  · exact h
  · exact sub_nil _

theorem Subparts.comm {l : List (Place × Elem)} {c d : List Elem} (h : Subparts l (d ++ c)) :
    Subparts l (c ++ d) := fun y hy => by
  have := h y hy
  simp only [List.mem_append] at this ⊢
  exact this.symm

theorem within_attachedText (v : SpecVersion) (x : AttachedText) : Subparts ((Elem.attachedText x).located v) (Elem.attachedText x).checked := by
  show Subparts (optAt "content_type" .normalizedString x.contentType) (opt .normalizedString x.contentType)
  exact sub_opt

theorem within_attachment (v : SpecVersion) (x : Attachment) : Subparts ((Elem.attachment x).located v) (Elem.attachment x).checked := by
  show Subparts (optAt "encoding" .attachmentEncoding x.encoding) (opt .attachmentEncoding x.encoding)
  exact sub_opt

theorem within_organizationalContact (v : SpecVersion) (x : OrganizationalContact) : Subparts ((Elem.organizationalContact x).located v) (Elem.organizationalContact x).checked := by
  show Subparts (optAt "bom-ref" .bomRefAttribute x.bomRef ++ optAt "name" .normalizedString x.name ++ optAt "email" .normalizedString x.email ++ optAt "phone" .normalizedString x.phone) (opt .bomRefAttribute x.bomRef ++ opt .normalizedString x.name ++ opt .normalizedString x.email ++ opt .normalizedString x.phone)
  exact (Subparts.append (Subparts.append (Subparts.append sub_opt sub_opt) sub_opt) sub_opt)

theorem within_organizationalEntity (v : SpecVersion) (x : OrganizationalEntity) : Subparts ((Elem.organizationalEntity x).located v) (Elem.organizationalEntity x).checked := by
  show Subparts (optAt "name" .normalizedString x.name ++ manyAt "url" .uri x.url ++ manyAt "contact" .organizationalContact x.contact) (opt .normalizedString x.name ++ many .uri x.url ++ many .organizationalContact x.contact)
  exact (Subparts.append (Subparts.append sub_opt sub_many) sub_many)

theorem within_property (v : SpecVersion) (x : Property) : Subparts ((Elem.property x).located v) (Elem.property x).checked := by
  show Subparts (oneAt "value" (.normalizedString x.value)) ([.normalizedString x.value])
  exact sub_one

theorem within_hash (v : SpecVersion) (x : Hash) : Subparts ((Elem.hash x).located v) (Elem.hash x).checked := by
  show Subparts (oneAt "alg" (.hashAlgorithm x.alg) ++ oneAt "content" (.hashValue x.content)) ([.hashAlgorithm x.alg] ++ [.hashValue x.content])
  exact (Subparts.append sub_one sub_one)

theorem within_externalReference (v : SpecVersion) (x : ExternalReference) : Subparts ((Elem.externalReference x).located v) (Elem.externalReference x).checked := by
  show Subparts (oneAt "external_reference_type" (.externalReferenceType x.externalReferenceType) ++ oneAt "url" (.refUri x.url) ++ soleAt "hashes" (manyAt "inner" .hash x.hashes)) ([.externalReferenceType x.externalReferenceType] ++ [.refUri x.url] ++ many .hash x.hashes)
  exact (Subparts.append (Subparts.append sub_one sub_one) (sub_sole sub_many))

theorem within_licensing (v : SpecVersion) (x : Licensing) : Subparts ((Elem.licensing x).located v) (Elem.licensing x).checked := by
  show Subparts (manyAt "alt_ids" .normalizedString x.altIds ++ optAt "licensor" .licenseContact x.licensor ++ optAt "licensee" .licenseContact x.licensee ++ optAt "purchaser" .licenseContact x.purchaser ++ manyAt "license_types" .licenseType x.licenseTypes ++ optAt "last_renewal" .dateTime x.lastRenewal ++ optAt "expiration" .dateTime x.expiration) (many .normalizedString x.altIds ++ opt .licenseContact x.licensor ++ opt .licenseContact x.licensee ++ opt .licenseContact x.purchaser ++ many .licenseType x.licenseTypes ++ opt .dateTime x.lastRenewal ++ opt .dateTime x.expiration)
  exact (Subparts.append (Subparts.append (Subparts.append (Subparts.append (Subparts.append (Subparts.append sub_many sub_opt) sub_opt) sub_opt) sub_many) sub_opt) sub_opt)

theorem within_license (v : SpecVersion) (x : License) : Subparts ((Elem.license x).located v) (Elem.license x).checked := by
  show Subparts (oneAt "license_identifier" (.licenseIdentifier x.licenseIdentifier) ++ optAt "text" .attachedText x.text ++ optAt "url" .uri x.url ++ optAt "licensing" .licensing x.licensing ++ below "properties" (manyAt "inner" .property x.properties)) ([.licenseIdentifier x.licenseIdentifier] ++ opt .attachedText x.text ++ opt .uri x.url ++ opt .licensing x.licensing ++ many .property x.properties)
  exact (Subparts.append (Subparts.append (Subparts.append (Subparts.append sub_one sub_opt) sub_opt) sub_opt) (sub_below sub_many))

theorem within_identifiableAction (v : SpecVersion) (x : IdentifiableAction) : Subparts ((Elem.identifiableAction x).located v) (Elem.identifiableAction x).checked := by
  show Subparts (optAt "timestamp" .dateTime x.timestamp ++ optAt "name" .normalizedString x.name ++ optAt "email" .normalizedString x.email) (opt .dateTime x.timestamp ++ opt .normalizedString x.name ++ opt .normalizedString x.email)
  exact (Subparts.append (Subparts.append sub_opt sub_opt) sub_opt)

theorem within_commit (v : SpecVersion) (x : Commit) : Subparts ((Elem.commit x).located v) (Elem.commit x).checked := by
  show Subparts (optAt "uid" .normalizedString x.uid ++ optAt "url" .uri x.url ++ optAt "author" .identifiableAction x.author ++ optAt "committer" .identifiableAction x.committer ++ optAt "message" .normalizedString x.message) (opt .normalizedString x.uid ++ opt .uri x.url ++ opt .identifiableAction x.author ++ opt .identifiableAction x.committer ++ opt .normalizedString x.message)
  exact (Subparts.append (Subparts.append (Subparts.append (Subparts.append sub_opt sub_opt) sub_opt) sub_opt) sub_opt)

theorem within_diff (v : SpecVersion) (x : Diff) : Subparts ((Elem.diff x).located v) (Elem.diff x).checked := by
  show Subparts (optAt "text" .attachedText x.text ++ optAt "url" .uri x.url) (opt .attachedText x.text ++ opt .uri x.url)
  exact (Subparts.append sub_opt sub_opt)

theorem within_source (v : SpecVersion) (x : Source) : Subparts ((Elem.source x).located v) (Elem.source x).checked := by
  show Subparts (optAt "name" .normalizedString x.name ++ optAt "url" .uri x.url) (opt .normalizedString x.name ++ opt .uri x.url)
  exact (Subparts.append sub_opt sub_opt)

theorem within_issue (v : SpecVersion) (x : Issue) : Subparts ((Elem.issue x).located v) (Elem.issue x).checked := by
  show Subparts (oneAt "issue_type" (.issueClassification x.issueType) ++ optAt "id" .normalizedString x.id ++ optAt "name" .normalizedString x.name ++ optAt "description" .normalizedString x.description ++ optAt "source" .source x.source ++ manyAt "references" .uri x.references) ([.issueClassification x.issueType] ++ opt .normalizedString x.id ++ opt .normalizedString x.name ++ opt .normalizedString x.description ++ opt .source x.source ++ many .uri x.references)
  exact (Subparts.append (Subparts.append (Subparts.append (Subparts.append (Subparts.append sub_one sub_opt) sub_opt) sub_opt) sub_opt) sub_many)

theorem within_patch (v : SpecVersion) (x : Patch) : Subparts ((Elem.patch x).located v) (Elem.patch x).checked := by
  show Subparts (oneAt "patch_type" (.patchClassification x.patchType) ++ optAt "diff" .diff x.diff ++ manyAt "resolves" .issue x.resolves) ([.patchClassification x.patchType] ++ opt .diff x.diff ++ many .issue x.resolves)
  exact (Subparts.append (Subparts.append sub_one sub_opt) sub_many)

theorem within_signer (v : SpecVersion) (x : Signer) : Subparts ((Elem.signer x).located v) (Elem.signer x).checked := by
  show Subparts (oneAt "algorithm" (.algorithm x.algorithm)) ([.algorithm x.algorithm])
  exact sub_one

theorem within_dataGovernance (v : SpecVersion) (x : DataGovernance) : Subparts ((Elem.dataGovernance x).located v) (Elem.dataGovernance x).checked := by
  show Subparts (manyAt "custodians" .dataGovernanceResponsibleParty x.custodians ++ manyAt "stewards" .dataGovernanceResponsibleParty x.stewards ++ manyAt "owners" .dataGovernanceResponsibleParty x.owners) (many .dataGovernanceResponsibleParty x.custodians ++ many .dataGovernanceResponsibleParty x.stewards ++ many .dataGovernanceResponsibleParty x.owners)
  exact (Subparts.append (Subparts.append sub_many sub_many) sub_many)

theorem within_graphic (v : SpecVersion) (x : Graphic) : Subparts ((Elem.graphic x).located v) (Elem.graphic x).checked := by
  show Subparts (optAt "image" .attachment x.image) (opt .attachment x.image)
  exact sub_opt

theorem within_graphicsCollection (v : SpecVersion) (x : GraphicsCollection) : Subparts ((Elem.graphicsCollection x).located v) (Elem.graphicsCollection x).checked := by
  show Subparts (manyAt "collection" .graphic x.collection) (many .graphic x.collection)
  exact sub_many

theorem within_dataContents (v : SpecVersion) (x : DataContents) : Subparts ((Elem.dataContents x).located v) (Elem.dataContents x).checked := by
  show Subparts (optAt "attachment" .attachment x.attachment ++ optAt "url" .uri x.url ++ below "properties" (manyAt "inner" .property x.properties)) (opt .attachment x.attachment ++ opt .uri x.url ++ many .property x.properties)
  exact (Subparts.append (Subparts.append sub_opt sub_opt) (sub_below sub_many))

theorem within_componentData (v : SpecVersion) (x : ComponentData) : Subparts ((Elem.componentData x).located v) (Elem.componentData x).checked := by
  show Subparts (oneAt "type" (.componentDataType x.dataType) ++ optAt "contents" .dataContents x.contents ++ optAt "graphics" .graphicsCollection x.graphics ++ optAt "governance" .dataGovernance x.governance) ([.componentDataType x.dataType] ++ opt .dataContents x.contents ++ opt .graphicsCollection x.graphics ++ opt .dataGovernance x.governance)
  exact (Subparts.append (Subparts.append (Subparts.append sub_one sub_opt) sub_opt) sub_opt)

theorem within_modelParametersApproach (v : SpecVersion) (x : ModelParametersApproach) : Subparts ((Elem.modelParametersApproach x).located v) (Elem.modelParametersApproach x).checked := by
  show Subparts (optAt "type" .approachType x.approachType) (opt .approachType x.approachType)
  exact sub_opt

theorem within_modelParameters (v : SpecVersion) (x : ModelParameters) : Subparts ((Elem.modelParameters x).located v) (Elem.modelParameters x).checked := by
  show Subparts (optAt "approach" .modelParametersApproach x.approach ++ below "datasets" (manyAt "inner" .dataset x.datasets)) (opt .modelParametersApproach x.approach ++ many .dataset x.datasets)
  exact (Subparts.append sub_opt (sub_below sub_many))

theorem within_quantitativeAnalysis (v : SpecVersion) (x : QuantitativeAnalysis) : Subparts ((Elem.quantitativeAnalysis x).located v) (Elem.quantitativeAnalysis x).checked := by
  show Subparts (optAt "graphics" .graphicsCollection x.graphics) (opt .graphicsCollection x.graphics)
  exact sub_opt

theorem within_modelCard (v : SpecVersion) (x : ModelCard) : Subparts ((Elem.modelCard x).located v) (Elem.modelCard x).checked := by
  show Subparts (optAt "model_parameters" .modelParameters x.modelParameters ++ optAt "quantitative_analysis" .quantitativeAnalysis x.quantitativeAnalysis ++ below "properties" (manyAt "inner" .property x.properties)) (opt .modelParameters x.modelParameters ++ opt .quantitativeAnalysis x.quantitativeAnalysis ++ many .property x.properties)
  exact (Subparts.append (Subparts.append sub_opt sub_opt) (sub_below sub_many))

theorem within_swid (v : SpecVersion) (x : Swid) : Subparts ((Elem.swid x).located v) (Elem.swid x).checked := by
  show Subparts (optAt "text" .attachedText x.text ++ optAt "url" .uri x.url) (opt .attachedText x.text ++ opt .uri x.url)
  exact (Subparts.append sub_opt sub_opt)

theorem within_occurrence (v : SpecVersion) (x : Occurrence) : Subparts ((Elem.occurrence x).located v) (Elem.occurrence x).checked := by
  show Subparts (optAt "bom-ref" .bomRefAttribute x.bomRef) (opt .bomRefAttribute x.bomRef)
  exact sub_opt

theorem within_frame (v : SpecVersion) (x : Frame) : Subparts ((Elem.frame x).located v) (Elem.frame x).checked := by
  show Subparts (optAt "package" .normalizedString x.package ++ oneAt "module" (.normalizedString x.module) ++ optAt "function" .normalizedString x.function ++ manyAt "parameters" .normalizedString x.parameters ++ optAt "full_filename" .normalizedString x.fullFilename) (opt .normalizedString x.package ++ [.normalizedString x.module] ++ opt .normalizedString x.function ++ many .normalizedString x.parameters ++ opt .normalizedString x.fullFilename)
  exact (Subparts.append (Subparts.append (Subparts.append (Subparts.append sub_opt sub_one) sub_opt) sub_many) sub_opt)

theorem within_callstack (v : SpecVersion) (x : Callstack) : Subparts ((Elem.callstack x).located v) (Elem.callstack x).checked := by
  show Subparts (listAt "frames" .frame x.frames) (x.frames.map .frame)
  exact sub_list

theorem within_identity (v : SpecVersion) (x : Identity) : Subparts ((Elem.identity x).located v) (Elem.identity x).checked := by
  show Subparts (oneAt "field" (.identityField x.field) ++ optAt "confidence" .confidence x.confidence) ([.identityField x.field] ++ opt .confidence x.confidence)
  exact (Subparts.append sub_one sub_opt)

theorem within_componentEvidence (v : SpecVersion) (x : ComponentEvidence) : Subparts ((Elem.componentEvidence x).located v) (Elem.componentEvidence x).checked := by
  show Subparts (optAt "licenses" .licenses x.licenses ++ below "occurrences" (manyAt "inner" .occurrence x.occurrences) ++ optAt "callstack" .callstack x.callstack ++ optAt "identity" .identity x.identity) (opt .licenses x.licenses ++ many .occurrence x.occurrences ++ opt .callstack x.callstack ++ opt .identity x.identity)
  exact (Subparts.append (Subparts.append (Subparts.append sub_opt (sub_below sub_many)) sub_opt) sub_opt)

theorem within_component (v : SpecVersion) (x : Component) : Subparts ((Elem.component x).located v) (Elem.component x).checked := by
  rw [checked_component]; show Subparts (oneAt "component_type" (.classification x.componentType) ++ optAt "mime_type" .mimeType x.mimeType ++ optAt "supplier" .organizationalEntity x.supplier ++ optAt "author" .normalizedString x.author ++ optAt "publisher" .normalizedString x.publisher ++ optAt "group" .normalizedString x.group ++ oneAt "name" (.normalizedString x.name) ++ optAt "version" .normalizedString x.version ++ optAt "description" .normalizedString x.description ++ optAt "scope" .scope x.scope ++ below "hashes" (manyAt "inner" .hash x.hashes) ++ optAt "licenses" .licenses x.licenses ++ optAt "copyright" .normalizedString x.copyright ++ optAt "cpe" .cpe x.cpe ++ optAt "purl" .purl x.purl ++ optAt "swid" .swid x.swid ++ optAt "pedigree" .pedigree x.pedigree ++ below "external_references" (manyAt "inner" .externalReference x.externalReferences) ++ below "properties" (manyAt "inner" .property x.properties) ++ below "components" (manyAt "inner" .component x.components) ++ optAt "evidence" .componentEvidence x.evidence) _
  exact (Subparts.append (Subparts.append (Subparts.append (Subparts.append (Subparts.append (Subparts.append (Subparts.append (Subparts.append (Subparts.append (Subparts.append (Subparts.append (Subparts.append (Subparts.append (Subparts.append (Subparts.append (Subparts.append (Subparts.append (Subparts.append (Subparts.append (Subparts.append sub_one sub_opt) sub_opt) sub_opt) sub_opt) sub_opt) sub_one) sub_opt) sub_opt) sub_opt) (sub_below sub_many)) sub_opt) sub_opt) sub_opt) sub_opt) sub_opt) sub_opt) (sub_below sub_many)) (sub_below sub_many)) (sub_below sub_many)) sub_opt)

theorem within_pedigree (v : SpecVersion) (x : Pedigree) : Subparts ((Elem.pedigree x).located v) (Elem.pedigree x).checked := by
  show Subparts (below "ancestors" (manyAt "inner" .component x.ancestors) ++ below "descendants" (manyAt "inner" .component x.descendants) ++ below "variants" (manyAt "inner" .component x.variants) ++ below "commits" (manyAt "inner" .commit x.commits) ++ below "patches" (manyAt "inner" .patch x.patches)) (many .component x.ancestors ++ many .component x.descendants ++ many .component x.variants ++ many .commit x.commits ++ many .patch x.patches)
  exact (Subparts.append (Subparts.append (Subparts.append (Subparts.append (sub_below sub_many) (sub_below sub_many)) (sub_below sub_many)) (sub_below sub_many)) (sub_below sub_many))

theorem within_dataClassification (v : SpecVersion) (x : DataClassification) : Subparts ((Elem.dataClassification x).located v) (Elem.dataClassification x).checked := by
  show Subparts (oneAt "flow" (.dataFlowType x.flow) ++ oneAt "classification" (.normalizedString x.classification)) ([.dataFlowType x.flow] ++ [.normalizedString x.classification])
  exact (Subparts.append sub_one sub_one)

theorem within_serviceData (v : SpecVersion) (x : ServiceData) : Subparts ((Elem.serviceData x).located v) (Elem.serviceData x).checked := by
  show Subparts (optAt "name" .normalizedString x.name ++ optAt "description" .normalizedString x.description ++ oneAt "classification" (.dataClassification x.classification) ++ optAt "governance" .dataGovernance x.governance ++ manyAt "source" .uri x.source ++ manyAt "destination" .uri x.destination) (opt .normalizedString x.name ++ opt .normalizedString x.description ++ [.dataClassification x.classification] ++ opt .dataGovernance x.governance ++ many .uri x.source ++ many .uri x.destination)
  exact (Subparts.append (Subparts.append (Subparts.append (Subparts.append (Subparts.append sub_opt sub_opt) sub_one) sub_opt) sub_many) sub_many)

theorem within_service (v : SpecVersion) (x : Service) : Subparts ((Elem.service x).located v) (Elem.service x).checked := by
  show Subparts (optAt "provider" .organizationalEntity x.provider ++ optAt "group" .normalizedString x.group ++ oneAt "name" (.normalizedString x.name) ++ optAt "version" .normalizedString x.version ++ optAt "description" .normalizedString x.description ++ manyAt "endpoints" .uri x.endpoints ++ optAt "data" .serviceDataChoice x.data ++ optAt "licenses" .licenses x.licenses ++ below "external_references" (manyAt "inner" .externalReference x.externalReferences) ++ below "properties" (manyAt "inner" .property x.properties) ++ below "services" (manyAt "inner" .service x.services) ++ optAt "trust_zone" .normalizedString x.trustZone) (opt .organizationalEntity x.provider ++ opt .normalizedString x.group ++ [.normalizedString x.name] ++ opt .normalizedString x.version ++ opt .normalizedString x.description ++ many .uri x.endpoints ++ opt .serviceDataChoice x.data ++ opt .licenses x.licenses ++ many .externalReference x.externalReferences ++ many .property x.properties ++ many .service x.services ++ opt .normalizedString x.trustZone)
  exact (Subparts.append (Subparts.append (Subparts.append (Subparts.append (Subparts.append (Subparts.append (Subparts.append (Subparts.append (Subparts.append (Subparts.append (Subparts.append sub_opt sub_opt) sub_one) sub_opt) sub_opt) sub_many) sub_opt) sub_opt) (sub_below sub_many)) (sub_below sub_many)) (sub_below sub_many)) sub_opt)

theorem within_tool (v : SpecVersion) (x : Tool) : Subparts ((Elem.tool x).located v) (Elem.tool x).checked := by
  show Subparts (optAt "vendor" .normalizedString x.vendor ++ optAt "name" .normalizedString x.name ++ optAt "version" .normalizedString x.version ++ soleAt "hashes" (manyAt "inner" .hash x.hashes) ++ below "external_references" (manyAt "inner" .externalReference x.externalReferences)) (opt .normalizedString x.vendor ++ opt .normalizedString x.name ++ opt .normalizedString x.version ++ many .hash x.hashes ++ many .externalReference x.externalReferences)
  exact (Subparts.append (Subparts.append (Subparts.append (Subparts.append sub_opt sub_opt) sub_opt) (sub_sole sub_many)) (sub_below sub_many))

theorem within_metadata (v : SpecVersion) (x : Metadata) : Subparts ((Elem.metadata x).located v) (Elem.metadata x).checked := by
  show Subparts (optAt "timestamp" .dateTime x.timestamp ++ soleAt "tools" (optAt "" .tools x.tools) ++ manyAt "authors" .organizationalContact x.authors ++ optAt "component" .component x.component ++ optAt "manufacture" .organizationalEntity x.manufacture ++ optAt "supplier" .organizationalEntity x.supplier ++ soleAt "licenses" (optAt "" .licenses x.licenses) ++ soleAt "properties" (manyAt "inner" .property x.properties)) (opt .dateTime x.timestamp ++ opt .tools x.tools ++ many .organizationalContact x.authors ++ opt .component x.component ++ opt .organizationalEntity x.manufacture ++ opt .organizationalEntity x.supplier ++ opt .licenses x.licenses ++ many .property x.properties)
  exact (Subparts.append (Subparts.append (Subparts.append (Subparts.append (Subparts.append (Subparts.append (Subparts.append sub_opt (sub_sole sub_opt)) sub_many) sub_opt) sub_opt) sub_opt) (sub_sole sub_opt)) (sub_sole sub_many))

theorem within_composition (v : SpecVersion) (x : Composition) : Subparts ((Elem.composition x).located v) (Elem.composition x).checked := by
  show Subparts (oneAt "aggregate" (.aggregateType x.aggregate) ++ optAt "signature" .signature x.signature) ([.aggregateType x.aggregate] ++ opt .signature x.signature)
  exact (Subparts.append sub_one sub_opt)

theorem within_advisory (v : SpecVersion) (x : Advisory) : Subparts ((Elem.advisory x).located v) (Elem.advisory x).checked := by
  show Subparts (optAt "title" .normalizedString x.title ++ oneAt "url" (.uri x.url)) (opt .normalizedString x.title ++ [.uri x.url])
  exact (Subparts.append sub_opt sub_one)

theorem within_vulnerabilitySource (v : SpecVersion) (x : VulnerabilitySource) : Subparts ((Elem.vulnerabilitySource x).located v) (Elem.vulnerabilitySource x).checked := by
  show Subparts (optAt "name" .normalizedString x.name ++ optAt "url" .uri x.url) (opt .normalizedString x.name ++ opt .uri x.url)
  exact (Subparts.append sub_opt sub_opt)

theorem within_vulnerabilityReference (v : SpecVersion) (x : VulnerabilityReference) : Subparts ((Elem.vulnerabilityReference x).located v) (Elem.vulnerabilityReference x).checked := by
  show Subparts (oneAt "id" (.normalizedString x.id) ++ oneAt "vulnerability_source" (.vulnerabilitySource x.vulnerabilitySource)) ([.normalizedString x.id] ++ [.vulnerabilitySource x.vulnerabilitySource])
  exact (Subparts.append sub_one sub_one)

theorem within_vulnerabilityRating (v : SpecVersion) (x : VulnerabilityRating) : Subparts ((Elem.vulnerabilityRating x).located v) (Elem.vulnerabilityRating x).checked := by
  show Subparts (optAt "vulnerability_source" .vulnerabilitySource x.vulnerabilitySource ++ optAt "severity" .severity x.severity ++ optAt "score_method" .scoreMethod x.scoreMethod ++ optAt "vector" .normalizedString x.vector) (opt .vulnerabilitySource x.vulnerabilitySource ++ opt .severity x.severity ++ opt .scoreMethod x.scoreMethod ++ opt .normalizedString x.vector)
  exact (Subparts.append (Subparts.append (Subparts.append sub_opt sub_opt) sub_opt) sub_opt)

theorem within_vulnerabilityCredits (v : SpecVersion) (x : VulnerabilityCredits) : Subparts ((Elem.vulnerabilityCredits x).located v) (Elem.vulnerabilityCredits x).checked := by
  show Subparts (manyAt "organizations" .organizationalEntity x.organizations ++ manyAt "individuals" .organizationalContact x.individuals) (many .organizationalEntity x.organizations ++ many .organizationalContact x.individuals)
  exact (Subparts.append sub_many sub_many)

theorem within_vulnerabilityAnalysis (v : SpecVersion) (x : VulnerabilityAnalysis) : Subparts ((Elem.vulnerabilityAnalysis x).located v) (Elem.vulnerabilityAnalysis x).checked := by
  show Subparts (optAt "state" .impactAnalysisState x.state ++ optAt "justification" .impactAnalysisJustification x.justification ++ manyAt "responses" .impactAnalysisResponse x.responses ++ optAt "first_issued" .dateTime x.firstIssued) (opt .impactAnalysisState x.state ++ opt .impactAnalysisJustification x.justification ++ many .impactAnalysisResponse x.responses ++ opt .dateTime x.firstIssued)
  exact (Subparts.append (Subparts.append (Subparts.append sub_opt sub_opt) sub_many) sub_opt)

theorem within_targetVersion (v : SpecVersion) (x : TargetVersion) : Subparts ((Elem.targetVersion x).located v) (Elem.targetVersion x).checked := by
  show Subparts (oneAt "version_range" (.versionRange x.versionRange) ++ oneAt "status" (.status x.status)) ([.versionRange x.versionRange] ++ [.status x.status])
  exact (Subparts.append sub_one sub_one)

theorem within_vulnerabilityTarget (v : SpecVersion) (x : VulnerabilityTarget) : Subparts ((Elem.vulnerabilityTarget x).located v) (Elem.vulnerabilityTarget x).checked := by
  show Subparts (below "versions" (manyAt "inner" .targetVersion x.versions)) (many .targetVersion x.versions)
  exact (sub_below sub_many)

theorem within_vulnerability (v : SpecVersion) (x : Vulnerability) : Subparts ((Elem.vulnerability x).located v) (Elem.vulnerability x).checked := by
  show Subparts (optAt "id" .normalizedString x.id ++ optAt "vulnerability_source" .vulnerabilitySource x.vulnerabilitySource ++ soleAt "vulnerability_references" (manyAt "inner" .vulnerabilityReference x.vulnerabilityReferences) ++ soleAt "vulnerability_ratings" (manyAt "inner" .vulnerabilityRating x.vulnerabilityRatings) ++ soleAt "advisories" (manyAt "inner" .advisory x.advisories) ++ optAt "created" .dateTime x.created ++ optAt "published" .dateTime x.published ++ optAt "updated" .dateTime x.updated ++ optAt "vulnerability_credits" .vulnerabilityCredits x.vulnerabilityCredits ++ optAt "tools" .tools x.tools ++ optAt "vulnerability_analysis" .vulnerabilityAnalysis x.vulnerabilityAnalysis ++ below "vulnerability_targets" (manyAt "inner" .vulnerabilityTarget x.vulnerabilityTargets) ++ below "properties" (manyAt "inner" .property x.properties)) (opt .normalizedString x.id ++ opt .vulnerabilitySource x.vulnerabilitySource ++ many .vulnerabilityReference x.vulnerabilityReferences ++ many .vulnerabilityRating x.vulnerabilityRatings ++ many .advisory x.advisories ++ opt .dateTime x.created ++ opt .dateTime x.published ++ opt .dateTime x.updated ++ opt .vulnerabilityCredits x.vulnerabilityCredits ++ opt .tools x.tools ++ opt .vulnerabilityAnalysis x.vulnerabilityAnalysis ++ many .vulnerabilityTarget x.vulnerabilityTargets ++ many .property x.properties)
  exact (Subparts.append (Subparts.append (Subparts.append (Subparts.append (Subparts.append (Subparts.append (Subparts.append (Subparts.append (Subparts.append (Subparts.append (Subparts.append (Subparts.append sub_opt sub_opt) (sub_sole sub_many)) (sub_sole sub_many)) (sub_sole sub_many)) sub_opt) sub_opt) sub_opt) sub_opt) sub_opt) sub_opt) (sub_below sub_many)) (sub_below sub_many))

theorem within_input (v : SpecVersion) (x : Input) : Subparts ((Elem.input x).located v) (Elem.input x).checked := by
  show Subparts (inputAt x.required ++ optAt "source" .resourceReference x.source ++ optAt "target" .resourceReference x.target ++ below "properties" (manyAt "inner" .property x.properties)) (inputParts x.required ++ opt .resourceReference x.source ++ opt .resourceReference x.target ++ many .property x.properties)
  exact (Subparts.append (Subparts.append (Subparts.append sub_input sub_opt) sub_opt) (sub_below sub_many))

theorem within_output (v : SpecVersion) (x : Output) : Subparts ((Elem.output x).located v) (Elem.output x).checked := by
  show Subparts (outputAt x.required ++ optAt "type" .outputType x.type ++ optAt "source" .resourceReference x.source ++ optAt "target" .resourceReference x.target ++ below "properties" (manyAt "inner" .property x.properties)) (outputParts x.required ++ opt .outputType x.type ++ opt .resourceReference x.source ++ opt .resourceReference x.target ++ many .property x.properties)
  exact (Subparts.append (Subparts.append (Subparts.append (Subparts.append sub_output sub_opt) sub_opt) sub_opt) (sub_below sub_many))

theorem within_command (v : SpecVersion) (x : Command) : Subparts ((Elem.command x).located v) (Elem.command x).checked := by
  show Subparts (below "properties" (manyAt "inner" .property x.properties)) (many .property x.properties)
  exact (sub_below sub_many)

theorem within_step (v : SpecVersion) (x : Step) : Subparts ((Elem.step x).located v) (Elem.step x).checked := by
  show Subparts (manyAt "commands" .command x.commands ++ below "properties" (manyAt "inner" .property x.properties)) (many .command x.commands ++ many .property x.properties)
  exact (Subparts.append sub_many (sub_below sub_many))

theorem within_triggerEvent (v : SpecVersion) (x : TriggerEvent) : Subparts ((Elem.triggerEvent x).located v) (Elem.triggerEvent x).checked := by
  show Subparts (optAt "time_received" .dateTime x.timeReceived ++ optAt "data" .attachment x.data ++ optAt "source" .resourceReference x.source ++ optAt "target" .resourceReference x.target ++ below "properties" (manyAt "inner" .property x.properties)) (opt .dateTime x.timeReceived ++ opt .attachment x.data ++ opt .resourceReference x.source ++ opt .resourceReference x.target ++ many .property x.properties)
  exact (Subparts.append (Subparts.append (Subparts.append (Subparts.append sub_opt sub_opt) sub_opt) sub_opt) (sub_below sub_many))

theorem within_condition (v : SpecVersion) (x : Condition) : Subparts ((Elem.condition x).located v) (Elem.condition x).checked := by
  show Subparts (below "properties" (manyAt "inner" .property x.properties)) (many .property x.properties)
  exact (sub_below sub_many)

theorem within_trigger (v : SpecVersion) (x : Trigger) : Subparts ((Elem.trigger x).located v) (Elem.trigger x).checked := by
  show Subparts (oneAt "bom_ref" (.bomRefAttribute x.bomRef) ++ manyAt "resource_reference" .resourceReference x.resourceReferences ++ oneAt "type" (.triggerType x.type) ++ optAt "event" .triggerEvent x.event ++ firstAt "conditions" .condition x.conditions ++ optAt "time_activated" .dateTime x.timeActivated ++ firstAt "inputs" .input x.inputs ++ firstAt "outputs" .output x.outputs ++ below "properties" (manyAt "inner" .property x.properties)) ([.bomRefAttribute x.bomRef] ++ many .resourceReference x.resourceReferences ++ [.triggerType x.type] ++ opt .triggerEvent x.event ++ many .condition x.conditions ++ opt .dateTime x.timeActivated ++ many .input x.inputs ++ many .output x.outputs ++ many .property x.properties)
  exact (Subparts.append (Subparts.append (Subparts.append (Subparts.append (Subparts.append (Subparts.append (Subparts.append (Subparts.append sub_one sub_many) sub_one) sub_opt) sub_first) sub_opt) sub_first) sub_first) (sub_below sub_many))

theorem within_volume (v : SpecVersion) (x : Volume) : Subparts ((Elem.volume x).located v) (Elem.volume x).checked := by
  show Subparts (oneAt "mode" (.volumeMode x.mode)) ([.volumeMode x.mode])
  exact sub_one

theorem within_workspace (v : SpecVersion) (x : Workspace) : Subparts ((Elem.workspace x).located v) (Elem.workspace x).checked := by
  show Subparts (firstAt "resource_references" .resourceReference x.resourceReferences ++ optAt "access_mode" .accessMode x.accessMode) (many .resourceReference x.resourceReferences ++ opt .accessMode x.accessMode)
  exact (Subparts.append sub_first sub_opt)

theorem within_workflowTask (v : SpecVersion) (x : WorkflowTask) : Subparts ((Elem.workflowTask x).located v) (Elem.workflowTask x).checked := by
  show Subparts (manyAt "resource_references" .resourceReference x.resourceReferences ++ listAt "task_types" .taskType x.taskTypes ++ optAt "trigger" .trigger x.trigger ++ firstAt "steps" .step x.steps ++ firstAt "inputs" .input x.inputs ++ firstAt "outputs" .output x.outputs ++ optAt "time_start" .dateTime x.timeStart ++ optAt "time_end" .dateTime x.timeEnd ++ firstAt "workspaces" .workspace x.workspaces) (many .resourceReference x.resourceReferences ++ x.taskTypes.map .taskType ++ opt .trigger x.trigger ++ many .step x.steps ++ many .input x.inputs ++ many .output x.outputs ++ opt .dateTime x.timeStart ++ opt .dateTime x.timeEnd ++ many .workspace x.workspaces)
  exact (Subparts.append (Subparts.append (Subparts.append (Subparts.append (Subparts.append (Subparts.append (Subparts.append (Subparts.append sub_many sub_list) sub_opt) sub_first) sub_first) sub_first) sub_opt) sub_opt) sub_first)

theorem within_workflow (v : SpecVersion) (x : Workflow) : Subparts ((Elem.workflow x).located v) (Elem.workflow x).checked := by
  show Subparts (manyAt "resource_references" .resourceReference x.resourceReferences ++ firstAt "tasks" .workflowTask x.tasks ++ listAt "task_types" .taskType x.taskTypes ++ optAt "trigger" .trigger x.trigger ++ firstAt "steps" .step x.steps ++ firstAt "inputs" .input x.inputs ++ firstAt "outputs" .output x.outputs ++ optAt "time_start" .dateTime x.timeStart ++ optAt "time_end" .dateTime x.timeEnd ++ firstAt "workspaces" .workspace x.workspaces) (many .resourceReference x.resourceReferences ++ many .workflowTask x.tasks ++ x.taskTypes.map .taskType ++ opt .trigger x.trigger ++ many .step x.steps ++ many .input x.inputs ++ many .output x.outputs ++ opt .dateTime x.timeStart ++ opt .dateTime x.timeEnd ++ many .workspace x.workspaces)
  exact (Subparts.append (Subparts.append (Subparts.append (Subparts.append (Subparts.append (Subparts.append (Subparts.append (Subparts.append (Subparts.append sub_many sub_first) sub_list) sub_opt) sub_first) sub_first) sub_first) sub_opt) sub_opt) sub_first)

theorem within_formula (v : SpecVersion) (x : Formula) : Subparts ((Elem.formula x).located v) (Elem.formula x).checked := by
  refine sub_if (l := firstAt "components" .component x.components ++ firstAt "services" .service x.services ++ firstAt "workflows" .workflow x.workflows ++ below "properties" (manyAt "inner" .property x.properties)) (d := many .component x.components ++ many .service x.services ++ many .workflow x.workflows ++ many .property x.properties) ?_
  exact (Subparts.append (Subparts.append (Subparts.append sub_first sub_first) sub_first) (sub_below sub_many))

theorem within_bom (v : SpecVersion) (x : Bom) : Subparts ((Elem.bom x).located v) (Elem.bom x).checked := by
  show Subparts (optAt "serial_number" .serialNumber x.serialNumber ++ optAt "metadata" .metadata x.metadata ++ below "components" (manyAt "inner" .component x.components) ++ below "services" (manyAt "inner" .service x.services) ++ below "external_references" (manyAt "inner" .externalReference x.externalReferences) ++ below "compositions" (manyAt "composition" .composition x.compositions) ++ below "properties" (manyAt "inner" .property x.properties) ++ below "vulnerabilities" (manyAt "inner" .vulnerability x.vulnerabilities)) (opt .serialNumber x.serialNumber ++ opt .metadata x.metadata ++ many .component x.components ++ many .service x.services ++ many .externalReference x.externalReferences ++ many .composition x.compositions ++ many .property x.properties ++ many .vulnerability x.vulnerabilities)
  exact (Subparts.append (Subparts.append (Subparts.append (Subparts.append (Subparts.append (Subparts.append (Subparts.append sub_opt sub_opt) (sub_below sub_many)) (sub_below sub_many)) (sub_below sub_many)) (sub_below sub_many)) (sub_below sub_many)) (sub_below sub_many))

theorem within_licenses (v : SpecVersion) (l : Licenses) : Subparts ((Elem.licenses l).located v) (Elem.licenses l).checked := by
  show Subparts (listAt "inner" .licenseChoice l) (l.map .licenseChoice)
  exact sub_list

theorem located_checked (v : SpecVersion) (e : Elem) : Subparts (e.located v) e.checked := by
  cases e with
  | normalizedString x => exact sub_nil _
  | uri x => exact sub_nil _
  | dateTime x => exact sub_nil _
  | purl x => exact sub_nil _
  | cpe x => exact sub_nil _
  | mimeType x => exact sub_nil _
  | bomRefAttribute x => exact sub_nil _
  | serialNumber x => exact sub_nil _
  | hashValue x => exact sub_nil _
  | attachmentEncoding x => exact sub_nil _
  | confidence x => exact sub_nil _
  | spdxId x => exact sub_nil _
  | spdxExpression x => exact sub_nil _
  | refUri x => exact sub_nil _
  | classification x => exact sub_nil _
  | aggregateType x => exact sub_nil _
  | scoreMethod x => exact sub_nil _
  | scope x => exact sub_nil _
  | hashAlgorithm x => exact sub_nil _
  | externalReferenceType x => exact sub_nil _
  | identityField x => exact sub_nil _
  | algorithm x => exact sub_nil _
  | licenseType x => exact sub_nil _
  | approachType x => exact sub_nil _
  | componentDataType x => exact sub_nil _
  | issueClassification x => exact sub_nil _
  | patchClassification x => exact sub_nil _
  | dataFlowType x => exact sub_nil _
  | impactAnalysisState x => exact sub_nil _
  | impactAnalysisJustification x => exact sub_nil _
  | impactAnalysisResponse x => exact sub_nil _
  | severity x => exact sub_nil _
  | status x => exact sub_nil _
  | taskType x => exact sub_nil _
  | outputType x => exact sub_nil _
  | triggerType x => exact sub_nil _
  | accessMode x => exact sub_nil _
  | volumeMode x => exact sub_nil _
  | versionRange x => exact sub_nil _
  | attachedText x => exact within_attachedText v x
  | attachment x => exact within_attachment v x
  | organizationalContact x => exact within_organizationalContact v x
  | organizationalEntity x => exact within_organizationalEntity v x
  | property x => exact within_property v x
  | hash x => exact within_hash v x
  | externalReference x => exact within_externalReference v x
  | licensing x => exact within_licensing v x
  | license x => exact within_license v x
  | identifiableAction x => exact within_identifiableAction v x
  | commit x => exact within_commit v x
  | diff x => exact within_diff v x
  | source x => exact within_source v x
  | issue x => exact within_issue v x
  | patch x => exact within_patch v x
  | signer x => exact within_signer v x
  | dataGovernance x => exact within_dataGovernance v x
  | graphic x => exact within_graphic v x
  | graphicsCollection x => exact within_graphicsCollection v x
  | dataContents x => exact within_dataContents v x
  | componentData x => exact within_componentData v x
  | modelParametersApproach x => exact within_modelParametersApproach v x
  | modelParameters x => exact within_modelParameters v x
  | quantitativeAnalysis x => exact within_quantitativeAnalysis v x
  | modelCard x => exact within_modelCard v x
  | swid x => exact within_swid v x
  | occurrence x => exact within_occurrence v x
  | frame x => exact within_frame v x
  | callstack x => exact within_callstack v x
  | identity x => exact within_identity v x
  | componentEvidence x => exact within_componentEvidence v x
  | component x => exact within_component v x
  | pedigree x => exact within_pedigree v x
  | dataClassification x => exact within_dataClassification v x
  | serviceData x => exact within_serviceData v x
  | service x => exact within_service v x
  | tool x => exact within_tool v x
  | metadata x => exact within_metadata v x
  | composition x => exact within_composition v x
  | advisory x => exact within_advisory v x
  | vulnerabilitySource x => exact within_vulnerabilitySource v x
  | vulnerabilityReference x => exact within_vulnerabilityReference v x
  | vulnerabilityRating x => exact within_vulnerabilityRating v x
  | vulnerabilityCredits x => exact within_vulnerabilityCredits v x
  | vulnerabilityAnalysis x => exact within_vulnerabilityAnalysis v x
  | targetVersion x => exact within_targetVersion v x
  | vulnerabilityTarget x => exact within_vulnerabilityTarget v x
  | vulnerability x => exact within_vulnerability v x
  | annotation x => exact Subparts.comm (Subparts.append sub_one sub_one)
  | input x => exact within_input v x
  | output x => exact within_output v x
  | command x => exact within_command v x
  | step x => exact within_step v x
  | triggerEvent x => exact within_triggerEvent v x
  | condition x => exact within_condition v x
  | trigger x => exact within_trigger v x
  | volume x => exact within_volume v x
  | workspace x => exact within_workspace v x
  | workflowTask x => exact within_workflowTask v x
  | workflow x => exact within_workflow v x
  | formula x => exact within_formula v x
  | bom x => exact within_bom v x
  | licenseIdentifier x => cases x <;> first | exact sub_one | exact sub_list | exact sub_nil _
  | licenseContact x => cases x <;> first | exact sub_one | exact sub_list | exact sub_nil _
  | licenseChoice x => cases x <;> first | exact sub_one | exact sub_list | exact sub_nil _
  | licenses l => exact within_licenses v l
  | signature x => cases x <;> first | exact sub_one | exact sub_list | exact sub_nil _
  | dataGovernanceResponsibleParty x => cases x <;> first | exact sub_one | exact sub_list | exact sub_nil _
  | dataset x => cases x <;> first | exact sub_one | exact sub_list | exact sub_nil _
  | serviceDataChoice x => cases x <;> first | exact sub_one | exact sub_list | exact sub_nil _
  | tools x =>
    cases x with
    | list l => exact sub_list
    | object services components =>
      exact sub_if (Subparts.comm (Subparts.append (sub_below sub_many) (sub_below sub_many)))
  | annotator x => cases x <;> first | exact sub_one | exact sub_list | exact sub_nil _
  | resourceReference x => cases x <;> first | exact sub_one | exact sub_list | exact sub_nil _

theorem Leads.append {v : SpecVersion} {a b c : Elem} {p q : Place} (h : Leads v a p b)
    (h' : Leads v b q c) : Leads v a (p ++ q) c := by
  induction h with
  | here e => exact h'
  | part hm _ ih => rw [List.append_assoc]; exact .part hm (ih h')

/-- Messages of an element: at the places of the violations of the elements in it. -/
theorem Elem.all_places (E : VEnv) (v : SpecVersion) (a : Elem) (p : Place) :
    TellsOf (a.outcome E v) p ↔
      ∃ q b s, Leads v a q b ∧ (b.fault E v s ∨ Elem.mislocated E v b s) ∧ p = q ++ s := by
  constructor
  · intro h
    induction hn : sizeOf a using Nat.strongRecOn generalizing a p with
    | _ n ih =>
      rcases (Elem.places E v a p).mp h with hf | ⟨y, hy, s, rfl, hs⟩ | hm
      · exact ⟨[], a, p, .here a, .inl hf, rfl⟩
      · have hlt := Elem.small a y.2 (located_checked v a y hy)
        obtain ⟨q, b, t, hl, hf, rfl⟩ := ih _ (hn ▸ hlt) y.2 s hs rfl
        exact ⟨y.1 ++ q, b, t, .part hy hl, hf, by simp⟩
      · exact ⟨[], a, p, .here a, .inr hm, rfl⟩
  · rintro ⟨q, b, s, hl, hf, rfl⟩
    induction hl with
    | here e =>
      refine (Elem.places E v e s).mpr ?_
      rcases hf with hf | hf
      · exact .inl hf
      · exact .inr (.inr hf)
    | part hm _ ih =>
      refine (Elem.places E v _ _).mpr (.inr (.inl ⟨_, hm, _, List.append_assoc .., ih hf⟩))

theorem mislocated_iff {E : VEnv} {v : SpecVersion} {b : Elem} {s : Place} :
    Elem.mislocated E v b s ↔ ∃ x t, b = .vulnerabilityAnalysis x ∧ x.firstIssued = some t ∧
      E.dateTimeOk t = false ∧ s = [.field "last_updated"] := by
  constructor
  · intro h
    cases b with
    | vulnerabilityAnalysis x =>
      obtain ⟨y, hy, u, rfl, hs⟩ := h
      obtain ⟨t, ht, rfl⟩ := List.mem_map.mp hy
      have := (tells_ofCheck (validateDateTime E t) u).mp hs
      obtain ⟨rfl, hne⟩ := this
      refine ⟨x, t, rfl, by simpa using ht, ?_, by simp [hop]⟩
      cases hd : E.dateTimeOk t with
      | false => rfl
      | true => exact absurd ((require_ok _ _).mpr hd) hne
    | _ => exact h.elim
  · rintro ⟨x, t, rfl, ht, hd, rfl⟩
    refine ⟨(hop "last_updated", .dateTime t), List.mem_map.mpr ⟨t, by simp [ht], rfl⟩, [],
      by simp [hop], (tells_ofCheck (validateDateTime E t) []).mpr ⟨rfl, fun h => ?_⟩⟩
    have := (require_ok _ _).mp h
    rw [hd] at this
    cases this

end Cdx
