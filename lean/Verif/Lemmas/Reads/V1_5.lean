import Verif.Lemmas.Readable

/-!
# Lemmas: the readers accept what the schema of CycloneDX 1.5 accepts

One theorem for each definition of the schema and each reader that meets it.
-/

namespace Cdx

open Spec

set_option linter.unusedVariables false
set_option linter.unusedSectionVars false
set_option linter.unusedSimpArgs false

variable [F32Format] [ReadLimit] {F : Formats}

theorem v15_ref_metadata {j : Json} (h : Valid (schemaContext F .v1_5) (.ref "metadata") j) :
    Valid (schemaContext F .v1_5) Schema15.metadata j := valid_unref h rfl

theorem v15_ref_hash {j : Json} (h : Valid (schemaContext F .v1_5) (.ref "hash") j) :
    Valid (schemaContext F .v1_5) Schema15.hash j := valid_unref h rfl

theorem v15_ref_hash_alg {j : Json} (h : Valid (schemaContext F .v1_5) (.ref "hash-alg") j) :
    Valid (schemaContext F .v1_5) Schema15.hashAlg j := valid_unref h rfl

theorem v15_ref_hash_content {j : Json} (h : Valid (schemaContext F .v1_5) (.ref "hash-content") j) :
    Valid (schemaContext F .v1_5) Schema15.hashContent j := valid_unref h rfl

theorem v15_ref_externalReference {j : Json} (h : Valid (schemaContext F .v1_5) (.ref "externalReference") j) :
    Valid (schemaContext F .v1_5) Schema15.externalReference j := valid_unref h rfl

theorem v15_ref_bomLink {j : Json} (h : Valid (schemaContext F .v1_5) (.ref "bomLink") j) :
    Valid (schemaContext F .v1_5) Schema15.bomLink j := valid_unref h rfl

theorem v15_ref_bomLinkDocumentType {j : Json} (h : Valid (schemaContext F .v1_5) (.ref "bomLinkDocumentType") j) :
    Valid (schemaContext F .v1_5) Schema15.bomLinkDocumentType j := valid_unref h rfl

theorem v15_ref_bomLinkElementType {j : Json} (h : Valid (schemaContext F .v1_5) (.ref "bomLinkElementType") j) :
    Valid (schemaContext F .v1_5) Schema15.bomLinkElementType j := valid_unref h rfl

theorem v15_ref_service {j : Json} (h : Valid (schemaContext F .v1_5) (.ref "service") j) :
    Valid (schemaContext F .v1_5) Schema15.service j := valid_unref h rfl

theorem v15_ref_refType {j : Json} (h : Valid (schemaContext F .v1_5) (.ref "refType") j) :
    Valid (schemaContext F .v1_5) Schema15.refType j := valid_unref h rfl

theorem v15_ref_organizationalEntity {j : Json} (h : Valid (schemaContext F .v1_5) (.ref "organizationalEntity") j) :
    Valid (schemaContext F .v1_5) Schema15.organizationalEntity j := valid_unref h rfl

theorem v15_ref_organizationalContact {j : Json} (h : Valid (schemaContext F .v1_5) (.ref "organizationalContact") j) :
    Valid (schemaContext F .v1_5) Schema15.organizationalContact j := valid_unref h rfl

theorem v15_ref_dataFlowDirection {j : Json} (h : Valid (schemaContext F .v1_5) (.ref "dataFlowDirection") j) :
    Valid (schemaContext F .v1_5) Schema15.dataFlowDirection j := valid_unref h rfl

theorem v15_ref_dataClassification {j : Json} (h : Valid (schemaContext F .v1_5) (.ref "dataClassification") j) :
    Valid (schemaContext F .v1_5) Schema15.dataClassification j := valid_unref h rfl

theorem v15_ref_serviceData {j : Json} (h : Valid (schemaContext F .v1_5) (.ref "serviceData") j) :
    Valid (schemaContext F .v1_5) Schema15.serviceData j := valid_unref h rfl

theorem v15_ref_licenseChoice {j : Json} (h : Valid (schemaContext F .v1_5) (.ref "licenseChoice") j) :
    Valid (schemaContext F .v1_5) Schema15.licenseChoice j := valid_unref h rfl

theorem v15_ref_spdx {j : Json} (h : Valid (schemaContext F .v1_5) (.ref "spdx") j) :
    Valid (schemaContext F .v1_5) SchemaSpdx.spdx j := valid_unref h rfl

theorem v15_ref_attachment {j : Json} (h : Valid (schemaContext F .v1_5) (.ref "attachment") j) :
    Valid (schemaContext F .v1_5) Schema15.attachment j := valid_unref h rfl

theorem v15_ref_property {j : Json} (h : Valid (schemaContext F .v1_5) (.ref "property") j) :
    Valid (schemaContext F .v1_5) Schema15.property j := valid_unref h rfl

theorem v15_ref_license {j : Json} (h : Valid (schemaContext F .v1_5) (.ref "license") j) :
    Valid (schemaContext F .v1_5) Schema15.license j := valid_unref h rfl

theorem v15_ref_signature {j : Json} (h : Valid (schemaContext F .v1_5) (.ref "signature") j) :
    Valid (schemaContext F .v1_5) Schema15.signature j := valid_unref h rfl

theorem v15_ref_jsf_signature {j : Json} (h : Valid (schemaContext F .v1_5) (.ref "jsf/signature") j) :
    Valid (schemaContext F .v1_5) SchemaJsf.jsfSignature j := valid_unref h rfl

theorem v15_ref_component {j : Json} (h : Valid (schemaContext F .v1_5) (.ref "component") j) :
    Valid (schemaContext F .v1_5) Schema15.component j := valid_unref h rfl

theorem v15_ref_swid {j : Json} (h : Valid (schemaContext F .v1_5) (.ref "swid") j) :
    Valid (schemaContext F .v1_5) Schema15.swid j := valid_unref h rfl

theorem v15_ref_commit {j : Json} (h : Valid (schemaContext F .v1_5) (.ref "commit") j) :
    Valid (schemaContext F .v1_5) Schema15.commit j := valid_unref h rfl

theorem v15_ref_identifiableAction {j : Json} (h : Valid (schemaContext F .v1_5) (.ref "identifiableAction") j) :
    Valid (schemaContext F .v1_5) Schema15.identifiableAction j := valid_unref h rfl

theorem v15_ref_patch {j : Json} (h : Valid (schemaContext F .v1_5) (.ref "patch") j) :
    Valid (schemaContext F .v1_5) Schema15.patch j := valid_unref h rfl

theorem v15_ref_diff {j : Json} (h : Valid (schemaContext F .v1_5) (.ref "diff") j) :
    Valid (schemaContext F .v1_5) Schema15.diff j := valid_unref h rfl

theorem v15_ref_issue {j : Json} (h : Valid (schemaContext F .v1_5) (.ref "issue") j) :
    Valid (schemaContext F .v1_5) Schema15.issue j := valid_unref h rfl

theorem v15_ref_componentEvidence {j : Json} (h : Valid (schemaContext F .v1_5) (.ref "componentEvidence") j) :
    Valid (schemaContext F .v1_5) Schema15.componentEvidence j := valid_unref h rfl

theorem v15_ref_copyright {j : Json} (h : Valid (schemaContext F .v1_5) (.ref "copyright") j) :
    Valid (schemaContext F .v1_5) Schema15.copyright j := valid_unref h rfl

theorem v15_ref_refLinkType {j : Json} (h : Valid (schemaContext F .v1_5) (.ref "refLinkType") j) :
    Valid (schemaContext F .v1_5) Schema15.refLinkType j := valid_unref h rfl

theorem v15_ref_modelCard {j : Json} (h : Valid (schemaContext F .v1_5) (.ref "modelCard") j) :
    Valid (schemaContext F .v1_5) Schema15.modelCard j := valid_unref h rfl

theorem v15_ref_graphicsCollection {j : Json} (h : Valid (schemaContext F .v1_5) (.ref "graphicsCollection") j) :
    Valid (schemaContext F .v1_5) Schema15.graphicsCollection j := valid_unref h rfl

theorem v15_ref_graphic {j : Json} (h : Valid (schemaContext F .v1_5) (.ref "graphic") j) :
    Valid (schemaContext F .v1_5) Schema15.graphic j := valid_unref h rfl

theorem v15_ref_dataGovernance {j : Json} (h : Valid (schemaContext F .v1_5) (.ref "dataGovernance") j) :
    Valid (schemaContext F .v1_5) Schema15.dataGovernance j := valid_unref h rfl

theorem v15_ref_componentData {j : Json} (h : Valid (schemaContext F .v1_5) (.ref "componentData") j) :
    Valid (schemaContext F .v1_5) Schema15.componentData j := valid_unref h rfl

theorem v15_ref_inputOutputMLParameters {j : Json} (h : Valid (schemaContext F .v1_5) (.ref "inputOutputMLParameters") j) :
    Valid (schemaContext F .v1_5) Schema15.inputOutputMLParameters j := valid_unref h rfl

theorem v15_ref_performanceMetric {j : Json} (h : Valid (schemaContext F .v1_5) (.ref "performanceMetric") j) :
    Valid (schemaContext F .v1_5) Schema15.performanceMetric j := valid_unref h rfl

theorem v15_ref_tool {j : Json} (h : Valid (schemaContext F .v1_5) (.ref "tool") j) :
    Valid (schemaContext F .v1_5) Schema15.tool j := valid_unref h rfl

theorem v15_ref_dependency {j : Json} (h : Valid (schemaContext F .v1_5) (.ref "dependency") j) :
    Valid (schemaContext F .v1_5) Schema15.dependency j := valid_unref h rfl

theorem v15_ref_compositions {j : Json} (h : Valid (schemaContext F .v1_5) (.ref "compositions") j) :
    Valid (schemaContext F .v1_5) Schema15.compositions j := valid_unref h rfl

theorem v15_ref_aggregateType {j : Json} (h : Valid (schemaContext F .v1_5) (.ref "aggregateType") j) :
    Valid (schemaContext F .v1_5) Schema15.aggregateType j := valid_unref h rfl

theorem v15_ref_vulnerability {j : Json} (h : Valid (schemaContext F .v1_5) (.ref "vulnerability") j) :
    Valid (schemaContext F .v1_5) Schema15.vulnerability j := valid_unref h rfl

theorem v15_ref_vulnerabilitySource {j : Json} (h : Valid (schemaContext F .v1_5) (.ref "vulnerabilitySource") j) :
    Valid (schemaContext F .v1_5) Schema15.vulnerabilitySource j := valid_unref h rfl

theorem v15_ref_rating {j : Json} (h : Valid (schemaContext F .v1_5) (.ref "rating") j) :
    Valid (schemaContext F .v1_5) Schema15.rating j := valid_unref h rfl

theorem v15_ref_severity {j : Json} (h : Valid (schemaContext F .v1_5) (.ref "severity") j) :
    Valid (schemaContext F .v1_5) Schema15.severity j := valid_unref h rfl

theorem v15_ref_scoreMethod {j : Json} (h : Valid (schemaContext F .v1_5) (.ref "scoreMethod") j) :
    Valid (schemaContext F .v1_5) Schema15.scoreMethod j := valid_unref h rfl

theorem v15_ref_advisory {j : Json} (h : Valid (schemaContext F .v1_5) (.ref "advisory") j) :
    Valid (schemaContext F .v1_5) Schema15.advisory j := valid_unref h rfl

theorem v15_ref_impactAnalysisState {j : Json} (h : Valid (schemaContext F .v1_5) (.ref "impactAnalysisState") j) :
    Valid (schemaContext F .v1_5) Schema15.impactAnalysisState j := valid_unref h rfl

theorem v15_ref_impactAnalysisJustification {j : Json} (h : Valid (schemaContext F .v1_5) (.ref "impactAnalysisJustification") j) :
    Valid (schemaContext F .v1_5) Schema15.impactAnalysisJustification j := valid_unref h rfl

theorem v15_ref_range {j : Json} (h : Valid (schemaContext F .v1_5) (.ref "range") j) :
    Valid (schemaContext F .v1_5) Schema15.range j := valid_unref h rfl

theorem v15_ref_version {j : Json} (h : Valid (schemaContext F .v1_5) (.ref "version") j) :
    Valid (schemaContext F .v1_5) Schema15.version j := valid_unref h rfl

theorem v15_ref_affectedStatus {j : Json} (h : Valid (schemaContext F .v1_5) (.ref "affectedStatus") j) :
    Valid (schemaContext F .v1_5) Schema15.affectedStatus j := valid_unref h rfl

theorem v15_ref_annotations {j : Json} (h : Valid (schemaContext F .v1_5) (.ref "annotations") j) :
    Valid (schemaContext F .v1_5) Schema15.annotations j := valid_unref h rfl

theorem v15_ref_formula {j : Json} (h : Valid (schemaContext F .v1_5) (.ref "formula") j) :
    Valid (schemaContext F .v1_5) Schema15.formula j := valid_unref h rfl

theorem v15_ref_workflow {j : Json} (h : Valid (schemaContext F .v1_5) (.ref "workflow") j) :
    Valid (schemaContext F .v1_5) Schema15.workflow j := valid_unref h rfl

theorem v15_ref_resourceReferenceChoice {j : Json} (h : Valid (schemaContext F .v1_5) (.ref "resourceReferenceChoice") j) :
    Valid (schemaContext F .v1_5) Schema15.resourceReferenceChoice j := valid_unref h rfl

theorem v15_ref_task {j : Json} (h : Valid (schemaContext F .v1_5) (.ref "task") j) :
    Valid (schemaContext F .v1_5) Schema15.task j := valid_unref h rfl

theorem v15_ref_taskType {j : Json} (h : Valid (schemaContext F .v1_5) (.ref "taskType") j) :
    Valid (schemaContext F .v1_5) Schema15.taskType j := valid_unref h rfl

theorem v15_ref_trigger {j : Json} (h : Valid (schemaContext F .v1_5) (.ref "trigger") j) :
    Valid (schemaContext F .v1_5) Schema15.trigger j := valid_unref h rfl

theorem v15_ref_event {j : Json} (h : Valid (schemaContext F .v1_5) (.ref "event") j) :
    Valid (schemaContext F .v1_5) Schema15.event j := valid_unref h rfl

theorem v15_ref_condition {j : Json} (h : Valid (schemaContext F .v1_5) (.ref "condition") j) :
    Valid (schemaContext F .v1_5) Schema15.condition j := valid_unref h rfl

theorem v15_ref_inputType {j : Json} (h : Valid (schemaContext F .v1_5) (.ref "inputType") j) :
    Valid (schemaContext F .v1_5) Schema15.inputType j := valid_unref h rfl

theorem v15_ref_parameter {j : Json} (h : Valid (schemaContext F .v1_5) (.ref "parameter") j) :
    Valid (schemaContext F .v1_5) Schema15.parameter j := valid_unref h rfl

theorem v15_ref_outputType {j : Json} (h : Valid (schemaContext F .v1_5) (.ref "outputType") j) :
    Valid (schemaContext F .v1_5) Schema15.outputType j := valid_unref h rfl

theorem v15_ref_step {j : Json} (h : Valid (schemaContext F .v1_5) (.ref "step") j) :
    Valid (schemaContext F .v1_5) Schema15.step j := valid_unref h rfl

theorem v15_ref_command {j : Json} (h : Valid (schemaContext F .v1_5) (.ref "command") j) :
    Valid (schemaContext F .v1_5) Schema15.command j := valid_unref h rfl

theorem v15_ref_workspace {j : Json} (h : Valid (schemaContext F .v1_5) (.ref "workspace") j) :
    Valid (schemaContext F .v1_5) Schema15.workspace j := valid_unref h rfl

theorem v15_ref_volume {j : Json} (h : Valid (schemaContext F .v1_5) (.ref "volume") j) :
    Valid (schemaContext F .v1_5) Schema15.volume j := valid_unref h rfl

theorem governance_reads_v15 {o : List (String × Json)} (h : Valid (schemaContext F .v1_5) Schema15.dataGovernance (.obj o))
    (hg : ∀ k ∈ ["custodians", "stewards", "owners"], ∀ l, (k, .arr l) ∈ o → l = [])
    (hn : (o.map Prod.fst).Nodup) :
    CanRead DataGovernance.ofJson (.obj o) := by
  refine fields_reads ?_
  refine bind_reads (opt_reads fun x hx => ?_) fun _ => ?_
  · have h := valid_property (valid_part h (.tail _ (.tail _ (.head _)))) (.head _) hx
    obtain ⟨l, rfl⟩ := type_array (valid_part h (.head _))
    obtain rfl := hg _ (by simp) l hx
    exact ⟨[], rfl⟩
  refine bind_reads (opt_reads fun x hx => ?_) fun _ => ?_
  · have h := valid_property (valid_part h (.tail _ (.tail _ (.head _)))) (.tail _ (.head _)) hx
    obtain ⟨l, rfl⟩ := type_array (valid_part h (.head _))
    obtain rfl := hg _ (by simp) l hx
    exact ⟨[], rfl⟩
  refine bind_reads (opt_reads fun x hx => ?_) fun _ => ?_
  · have h := valid_property (valid_part h (.tail _ (.tail _ (.head _)))) (.tail _ (.tail _ (.head _))) hx
    obtain ⟨l, rfl⟩ := type_array (valid_part h (.head _))
    obtain rfl := hg _ (by simp) l hx
    exact ⟨[], rfl⟩
  exact ⟨_, rfl⟩

theorem v15_hash_Hash {n : Nat} {j : Json} (h : Valid (schemaContext F .v1_5) Schema15.hash j) (hs : Sane n j) :
    CanRead (Hash.ofJson) j := by
  obtain ⟨o, rfl⟩ := type_object (valid_part h (.head _))
  have hr := hs.readable
  have hreq := (valid_part h (.tail _ (.head _)))
  refine fields_reads ?_
  refine bind_reads (req_reads (valid_required hreq (by simp)) fun x hx => ?_) fun _ => ?_
  · have h := valid_property (valid_part h (.tail _ (.tail _ (.tail _ (.head _))))) (.head _) hx
    have hs := hs.member hx
    exact enum_reads (type_string (valid_part (v15_ref_hash_alg h) (.head _)))
  refine bind_reads (req_reads (valid_required hreq (by simp)) fun x hx => ?_) fun _ => ?_
  · have h := valid_property (valid_part h (.tail _ (.tail _ (.tail _ (.head _))))) (.tail _ (.head _)) hx
    have hs := hs.member hx
    exact string_reads (type_string (valid_part (v15_ref_hash_content h) (.head _)))
  exact ⟨_, rfl⟩

theorem v15_externalReference_ExternalReference {n : Nat} {j : Json} (h : Valid (schemaContext F .v1_5) Schema15.externalReference j) (hs : Sane n j) :
    CanRead (ExternalReference.ofJson) j := by
  obtain ⟨o, rfl⟩ := type_object (valid_part h (.head _))
  have hr := hs.readable
  have hreq := (valid_part h (.tail _ (.head _)))
  refine fields_reads ?_
  refine bind_reads (req_reads (valid_required hreq (by simp)) fun x hx => ?_) fun _ => ?_
  · have h := valid_property (valid_part h (.tail _ (.tail _ (.tail _ (.head _))))) (.tail _ (.tail _ (.head _))) hx
    have hs := hs.member hx
    exact enum_reads (type_string (valid_part h (.head _)))
  refine bind_reads (req_reads (valid_required hreq (by simp)) fun x hx => ?_) fun _ => ?_
  · have h := valid_property (valid_part h (.tail _ (.tail _ (.tail _ (.head _))))) (.head _) hx
    have hs := hs.member hx
    exact enum_reads ((anyOf_two h).elim (fun h => (type_string (valid_part h (.head _)))) (fun h => ((anyOf_two (v15_ref_bomLink h)).elim (fun h => (type_string (valid_part (v15_ref_bomLinkDocumentType h) (.head _)))) (fun h => (type_string (valid_part (v15_ref_bomLinkElementType h) (.head _)))))))
  refine bind_reads (opt_reads fun x hx => ?_) fun _ => ?_
  · have h := valid_property (valid_part h (.tail _ (.tail _ (.tail _ (.head _))))) (.tail _ (.head _)) hx
    have hs := hs.member hx
    exact string_reads (type_string h)
  refine bind_reads (opt_reads fun x hx => ?_) fun _ => ?_
  · have h := valid_property (valid_part h (.tail _ (.tail _ (.tail _ (.head _))))) (.tail _ (.tail _ (.tail _ (.head _)))) hx
    have hs := hs.member hx
    refine items_reads (valid_part h (.head _)) (valid_part h (.tail _ (.head _))) hs fun l el y hy h hs => ?_
    exact v15_hash_Hash (v15_ref_hash h) hs
  exact ⟨_, rfl⟩

theorem v15_tool_Tool {n : Nat} {j : Json} (h : Valid (schemaContext F .v1_5) Schema15.tool j) (hs : Sane n j) :
    CanRead (Tool.ofJson .v1_5) j := by
  obtain ⟨o, rfl⟩ := type_object (valid_part h (.head _))
  have hr := hs.readable
  refine fields_reads ?_
  refine bind_reads (opt_reads fun x hx => ?_) fun _ => ?_
  · have h := valid_property (valid_part h (.tail _ (.tail _ (.head _)))) (.head _) hx
    have hs := hs.member hx
    exact string_reads (type_string h)
  refine bind_reads (opt_reads fun x hx => ?_) fun _ => ?_
  · have h := valid_property (valid_part h (.tail _ (.tail _ (.head _)))) (.tail _ (.head _)) hx
    have hs := hs.member hx
    exact string_reads (type_string h)
  refine bind_reads (opt_reads fun x hx => ?_) fun _ => ?_
  · have h := valid_property (valid_part h (.tail _ (.tail _ (.head _)))) (.tail _ (.tail _ (.head _))) hx
    have hs := hs.member hx
    exact string_reads (type_string h)
  refine bind_reads (opt_reads fun x hx => ?_) fun _ => ?_
  · have h := valid_property (valid_part h (.tail _ (.tail _ (.head _)))) (.tail _ (.tail _ (.tail _ (.head _)))) hx
    have hs := hs.member hx
    refine items_reads (valid_part h (.head _)) (valid_part h (.tail _ (.head _))) hs fun l el y hy h hs => ?_
    exact v15_hash_Hash (v15_ref_hash h) hs
  refine bind_reads (opt_reads fun x hx => ?_) fun _ => ?_
  · have h := valid_property (valid_part h (.tail _ (.tail _ (.head _)))) (.tail _ (.tail _ (.tail _ (.tail _ (.head _))))) hx
    have hs := hs.member hx
    refine items_reads (valid_part h (.head _)) (valid_part h (.tail _ (.head _))) hs fun l el y hy h hs => ?_
    exact v15_externalReference_ExternalReference (v15_ref_externalReference h) hs
  exact ⟨_, rfl⟩

theorem v15_organizationalContact_OrganizationalContact {n : Nat} {j : Json} (h : Valid (schemaContext F .v1_5) Schema15.organizationalContact j) (hs : Sane n j) :
    CanRead (OrganizationalContact.ofJson) j := by
  obtain ⟨o, rfl⟩ := type_object (valid_part h (.head _))
  have hr := hs.readable
  refine fields_reads ?_
  refine bind_reads (opt_reads fun x hx => ?_) fun _ => ?_
  · have := valid_closed (valid_part h (.tail _ (.head _))) hx
    simp at this
  refine bind_reads (opt_reads fun x hx => ?_) fun _ => ?_
  · have h := valid_property (valid_part h (.tail _ (.tail _ (.head _)))) (.tail _ (.head _)) hx
    have hs := hs.member hx
    exact string_reads (type_string h)
  refine bind_reads (opt_reads fun x hx => ?_) fun _ => ?_
  · have h := valid_property (valid_part h (.tail _ (.tail _ (.head _)))) (.tail _ (.tail _ (.head _))) hx
    have hs := hs.member hx
    exact string_reads (type_string (valid_part h (.head _)))
  refine bind_reads (opt_reads fun x hx => ?_) fun _ => ?_
  · have h := valid_property (valid_part h (.tail _ (.tail _ (.head _)))) (.tail _ (.tail _ (.tail _ (.head _)))) hx
    have hs := hs.member hx
    exact string_reads (type_string h)
  exact ⟨_, rfl⟩

theorem v15_organizationalEntity_OrganizationalEntity {n : Nat} {j : Json} (h : Valid (schemaContext F .v1_5) Schema15.organizationalEntity j) (hs : Sane n j) :
    CanRead (OrganizationalEntity.ofJson) j := by
  obtain ⟨o, rfl⟩ := type_object (valid_part h (.head _))
  have hr := hs.readable
  refine fields_reads ?_
  refine bind_reads (opt_reads fun x hx => ?_) fun _ => ?_
  · have := valid_closed (valid_part h (.tail _ (.head _))) hx
    simp at this
  refine bind_reads (opt_reads fun x hx => ?_) fun _ => ?_
  · have h := valid_property (valid_part h (.tail _ (.tail _ (.head _)))) (.tail _ (.head _)) hx
    have hs := hs.member hx
    exact string_reads (type_string h)
  refine bind_reads (opt_reads fun x hx => ?_) fun _ => ?_
  · have h := valid_property (valid_part h (.tail _ (.tail _ (.head _)))) (.tail _ (.tail _ (.head _))) hx
    have hs := hs.member hx
    refine items_reads (valid_part h (.head _)) (valid_part h (.tail _ (.head _))) hs fun l el y hy h hs => ?_
    exact string_reads (type_string (valid_part h (.head _)))
  refine bind_reads (opt_reads fun x hx => ?_) fun _ => ?_
  · have h := valid_property (valid_part h (.tail _ (.tail _ (.head _)))) (.tail _ (.tail _ (.tail _ (.head _)))) hx
    have hs := hs.member hx
    refine items_reads (valid_part h (.head _)) (valid_part h (.tail _ (.head _))) hs fun l el y hy h hs => ?_
    exact v15_organizationalContact_OrganizationalContact (v15_ref_organizationalContact h) hs
  exact ⟨_, rfl⟩

theorem v15_serviceData_DataClassification {n : Nat} {j : Json} (h : Valid (schemaContext F .v1_5) Schema15.serviceData j) (hs : Sane n j) :
    CanRead (DataClassification.ofJson) j := by
  obtain ⟨o, rfl⟩ := type_object (valid_part h (.head _))
  have hr := hs.readable
  have hreq := (valid_part h (.tail _ (.head _)))
  refine fields_reads ?_
  refine bind_reads (req_reads (valid_required hreq (by simp)) fun x hx => ?_) fun _ => ?_
  · have h := valid_property (valid_part h (.tail _ (.tail _ (.tail _ (.head _))))) (.head _) hx
    have hs := hs.member hx
    exact enum_reads (type_string (valid_part (v15_ref_dataFlowDirection h) (.head _)))
  refine bind_reads (req_reads (valid_required hreq (by simp)) fun x hx => ?_) fun _ => ?_
  · have h := valid_property (valid_part h (.tail _ (.tail _ (.tail _ (.head _))))) (.tail _ (.head _)) hx
    have hs := hs.member hx
    exact string_reads (type_string (v15_ref_dataClassification h))
  exact ⟨_, rfl⟩

theorem v15_attachment_AttachedText {n : Nat} {j : Json} (h : Valid (schemaContext F .v1_5) Schema15.attachment j) (hs : Sane n j) :
    CanRead (AttachedText.ofJson) j := by
  obtain ⟨o, rfl⟩ := type_object (valid_part h (.head _))
  have hr := hs.readable
  have hreq := (valid_part h (.tail _ (.head _)))
  refine fields_reads ?_
  refine bind_reads (opt_reads fun x hx => ?_) fun _ => ?_
  · have h := valid_property (valid_part h (.tail _ (.tail _ (.tail _ (.head _))))) (.head _) hx
    have hs := hs.member hx
    exact string_reads (type_string h)
  refine bind_reads (opt_reads fun x hx => ?_) fun _ => ?_
  · have h := valid_property (valid_part h (.tail _ (.tail _ (.tail _ (.head _))))) (.tail _ (.head _)) hx
    have hs := hs.member hx
    exact enum_reads (type_string (valid_part h (.head _)))
  refine bind_reads (req_reads (valid_required hreq (by simp)) fun x hx => ?_) fun _ => ?_
  · have h := valid_property (valid_part h (.tail _ (.tail _ (.tail _ (.head _))))) (.tail _ (.tail _ (.head _))) hx
    have hs := hs.member hx
    exact string_reads (type_string h)
  exact ⟨_, rfl⟩

theorem v15_property_Property {n : Nat} {j : Json} (h : Valid (schemaContext F .v1_5) Schema15.property j) (hs : Sane n j)
    (hh : Has "name" j ∧ Has "value" j) :
    CanRead (Property.ofJson) j := by
  obtain ⟨o, rfl⟩ := type_object (valid_part h (.head _))
  have hr := hs.readable
  refine fields_reads ?_
  refine bind_reads (req_reads hh.1.lookup fun x hx => ?_) fun _ => ?_
  · have h := valid_property (valid_part h (.tail _ (.head _))) (.head _) hx
    have hs := hs.member hx
    exact string_reads (type_string h)
  refine bind_reads (req_reads hh.2.lookup fun x hx => ?_) fun _ => ?_
  · have h := valid_property (valid_part h (.tail _ (.head _))) (.tail _ (.head _)) hx
    have hs := hs.member hx
    exact string_reads (type_string h)
  exact ⟨_, rfl⟩

theorem v15_license_License {n : Nat} {j : Json} (h : Valid (schemaContext F .v1_5) Schema15.license j) (hs : Sane n j) :
    CanRead (License.ofJson .v1_5) j := by
  obtain ⟨o, rfl⟩ := type_object (valid_part h (.head _))
  have hr := hs.readable
  refine fields_reads ?_
  refine bind_reads (opt_reads fun x hx => ?_) fun _ => ?_
  · have := valid_closed (valid_part h (.tail _ (.head _))) hx
    simp at this
  refine bind_reads (?_ : ∃ y, LicenseIdentifier.ofFields o = .ok y) fun _ => ?_
  ·
    obtain ⟨k, hk, ⟨x, hx⟩, -⟩ := oneOf_member (ks := ["id", "name"]) (valid_part h (.tail _ (.tail _ (.tail _ (.head _)))))
    refine flatVariant_reads ?_ ?_
    · simp only [List.mem_cons, List.not_mem_nil, or_false] at hk
      rcases hk with rfl | rfl
      · exact ⟨_, (.head _), x, hx⟩
      · exact ⟨_, (.tail _ (.head _)), x, hx⟩
    · intro p hp x hx
      simp only [List.mem_cons, List.not_mem_nil, or_false] at hp
      rcases hp with rfl | rfl
      · have h := valid_property (valid_part h (.tail _ (.tail _ (.head _)))) (.tail _ (.head _)) hx
        have hs := hs.member hx
        refine map_reads (?_ : CanRead (Json.string) x)
        exact string_reads (type_string (valid_part (v15_ref_spdx h) (.head _)))
      · have h := valid_property (valid_part h (.tail _ (.tail _ (.head _)))) (.tail _ (.tail _ (.head _))) hx
        have hs := hs.member hx
        refine map_reads (?_ : CanRead (Json.string) x)
        exact string_reads (type_string h)
  refine bind_reads (opt_reads fun x hx => ?_) fun _ => ?_
  · have h := valid_property (valid_part h (.tail _ (.tail _ (.head _)))) (.tail _ (.tail _ (.tail _ (.head _)))) hx
    have hs := hs.member hx
    exact v15_attachment_AttachedText (v15_ref_attachment h) hs
  refine bind_reads (opt_reads fun x hx => ?_) fun _ => ?_
  · have h := valid_property (valid_part h (.tail _ (.tail _ (.head _)))) (.tail _ (.tail _ (.tail _ (.tail _ (.head _))))) hx
    have hs := hs.member hx
    exact string_reads (type_string (valid_part h (.head _)))
  refine bind_reads (opt_reads fun x hx => ?_) fun _ => ?_
  · have h := valid_property (valid_part h (.tail _ (.tail _ (.head _)))) (.tail _ (.tail _ (.tail _ (.tail _ (.tail _ (.head _)))))) hx
    have hs := hs.member hx
    obtain ⟨o, rfl⟩ := type_object (valid_part h (.head _))
    have hr := hs.readable
    refine fields_reads ?_
    refine bind_reads (opt_reads fun x hx => ?_) fun _ => ?_
    · have h := valid_property (valid_part h (.tail _ (.tail _ (.head _)))) (.head _) hx
      have hs := hs.member hx
      refine items_reads (valid_part h (.head _)) (valid_part h (.tail _ (.head _))) hs fun l el y hy h hs => ?_
      exact string_reads (type_string h)
    refine bind_reads (opt_reads fun x hx => ?_) fun _ => ?_
    · have h := valid_property (valid_part h (.tail _ (.tail _ (.head _)))) (.tail _ (.head _)) hx
      have hs := hs.member hx
      obtain ⟨o, rfl⟩ := type_object (valid_part h (.head _))
      obtain ⟨k, hk, x, rfl⟩ := oneOf_single (ks := ["organization", "individual"]) (valid_part h (.tail _ (.tail _ (.tail _ (.head _))))) (valid_part h (.tail _ (.head _))) hs
      simp only [List.mem_cons, List.not_mem_nil, or_false] at hk
      rcases hk with rfl | rfl
      · have h := valid_property (valid_part h (.tail _ (.tail _ (.head _)))) (.head _) (.head _)
        have hs := hs.member (.head _)
        refine tagged_reads rfl rfl (map_reads (?_ : CanRead (OrganizationalEntity.ofJson) x))
        exact v15_organizationalEntity_OrganizationalEntity (v15_ref_organizationalEntity h) hs
      · have h := valid_property (valid_part h (.tail _ (.tail _ (.head _)))) (.tail _ (.head _)) (.head _)
        have hs := hs.member (.head _)
        refine tagged_reads rfl rfl (map_reads (?_ : CanRead (OrganizationalContact.ofJson) x))
        exact v15_organizationalContact_OrganizationalContact (v15_ref_organizationalContact h) hs
    refine bind_reads (opt_reads fun x hx => ?_) fun _ => ?_
    · have h := valid_property (valid_part h (.tail _ (.tail _ (.head _)))) (.tail _ (.tail _ (.head _))) hx
      have hs := hs.member hx
      obtain ⟨o, rfl⟩ := type_object (valid_part h (.head _))
      obtain ⟨k, hk, x, rfl⟩ := oneOf_single (ks := ["organization", "individual"]) (valid_part h (.tail _ (.tail _ (.tail _ (.head _))))) (valid_part h (.tail _ (.head _))) hs
      simp only [List.mem_cons, List.not_mem_nil, or_false] at hk
      rcases hk with rfl | rfl
      · have h := valid_property (valid_part h (.tail _ (.tail _ (.head _)))) (.head _) (.head _)
        have hs := hs.member (.head _)
        refine tagged_reads rfl rfl (map_reads (?_ : CanRead (OrganizationalEntity.ofJson) x))
        exact v15_organizationalEntity_OrganizationalEntity (v15_ref_organizationalEntity h) hs
      · have h := valid_property (valid_part h (.tail _ (.tail _ (.head _)))) (.tail _ (.head _)) (.head _)
        have hs := hs.member (.head _)
        refine tagged_reads rfl rfl (map_reads (?_ : CanRead (OrganizationalContact.ofJson) x))
        exact v15_organizationalContact_OrganizationalContact (v15_ref_organizationalContact h) hs
    refine bind_reads (opt_reads fun x hx => ?_) fun _ => ?_
    · have h := valid_property (valid_part h (.tail _ (.tail _ (.head _)))) (.tail _ (.tail _ (.tail _ (.head _)))) hx
      have hs := hs.member hx
      obtain ⟨o, rfl⟩ := type_object (valid_part h (.head _))
      obtain ⟨k, hk, x, rfl⟩ := oneOf_single (ks := ["organization", "individual"]) (valid_part h (.tail _ (.tail _ (.tail _ (.head _))))) (valid_part h (.tail _ (.head _))) hs
      simp only [List.mem_cons, List.not_mem_nil, or_false] at hk
      rcases hk with rfl | rfl
      · have h := valid_property (valid_part h (.tail _ (.tail _ (.head _)))) (.head _) (.head _)
        have hs := hs.member (.head _)
        refine tagged_reads rfl rfl (map_reads (?_ : CanRead (OrganizationalEntity.ofJson) x))
        exact v15_organizationalEntity_OrganizationalEntity (v15_ref_organizationalEntity h) hs
      · have h := valid_property (valid_part h (.tail _ (.tail _ (.head _)))) (.tail _ (.head _)) (.head _)
        have hs := hs.member (.head _)
        refine tagged_reads rfl rfl (map_reads (?_ : CanRead (OrganizationalContact.ofJson) x))
        exact v15_organizationalContact_OrganizationalContact (v15_ref_organizationalContact h) hs
    refine bind_reads (opt_reads fun x hx => ?_) fun _ => ?_
    · have h := valid_property (valid_part h (.tail _ (.tail _ (.head _)))) (.tail _ (.tail _ (.tail _ (.tail _ (.head _))))) hx
      have hs := hs.member hx
      exact string_reads (type_string h)
    refine bind_reads (opt_reads fun x hx => ?_) fun _ => ?_
    · have h := valid_property (valid_part h (.tail _ (.tail _ (.head _)))) (.tail _ (.tail _ (.tail _ (.tail _ (.tail _ (.head _)))))) hx
      have hs := hs.member hx
      refine items_reads (valid_part h (.head _)) (valid_part h (.tail _ (.head _))) hs fun l el y hy h hs => ?_
      exact enum_reads (type_string (valid_part h (.head _)))
    refine bind_reads (opt_reads fun x hx => ?_) fun _ => ?_
    · have h := valid_property (valid_part h (.tail _ (.tail _ (.head _)))) (.tail _ (.tail _ (.tail _ (.tail _ (.tail _ (.tail _ (.head _))))))) hx
      have hs := hs.member hx
      exact string_reads (type_string (valid_part h (.head _)))
    refine bind_reads (opt_reads fun x hx => ?_) fun _ => ?_
    · have h := valid_property (valid_part h (.tail _ (.tail _ (.head _)))) (.tail _ (.tail _ (.tail _ (.tail _ (.tail _ (.tail _ (.tail _ (.head _)))))))) hx
      have hs := hs.member hx
      exact string_reads (type_string (valid_part h (.head _)))
    exact ⟨_, rfl⟩
  refine bind_reads (opt_reads fun x hx => ?_) fun _ => ?_
  · have h := valid_property (valid_part h (.tail _ (.tail _ (.head _)))) (.tail _ (.tail _ (.tail _ (.tail _ (.tail _ (.tail _ (.head _))))))) hx
    have hs := hs.member hx
    refine items_reads (valid_part h (.head _)) (valid_part h (.tail _ (.head _))) hs fun l el y hy h hs => ?_
    exact v15_property_Property (v15_ref_property h) hs (hr.named _ (el ▸ hx) _ hy)
  exact ⟨_, rfl⟩

theorem v15_licenseChoice_Licenses {n : Nat} {j : Json} (h : Valid (schemaContext F .v1_5) Schema15.licenseChoice j) (hs : Sane n j) :
    CanRead (Licenses.ofJson .v1_5) j := by
  rcases oneOf_two (valid_part h (.tail _ (.head _))) with h | h
  · refine items_reads (valid_part h (.head _)) (valid_part h (.tail _ (.head _))) hs fun l el y hy h hs => ?_
    obtain ⟨o, rfl⟩ := type_object (valid_part h (.head _))
    obtain ⟨x, hx⟩ := valid_required (valid_part h (.tail _ (.head _))) (by simp : "license" ∈ _)
    have e := one_member hs.nodup hx (hs.readable.license ⟨_, _, rfl, hx⟩)
    have h := valid_property (valid_part h (.tail _ (.tail _ (.tail _ (.head _))))) (.head _) hx
    obtain ⟨z, hz⟩ := v15_license_License (v15_ref_license h) (hs.member hx)
    subst e
    exact ⟨.license z, by simp [LicenseChoice.ofJson, Json.tagged, List.lookup, hz, Except.map]⟩
  · obtain ⟨l, rfl⟩ := type_array (valid_part h (.head _))
    have h1 := valid_kw.mp (valid_part h (.tail _ (.head _)))
    have h2 := valid_kw.mp (valid_part h (.tail _ (.tail _ (.head _))))
    have h3 := (valid_part h (.tail _ (.tail _ (.tail _ (.head _)))))
    simp only [Keyword.Holds] at h1 h2
    obtain ⟨y, rfl⟩ := List.length_eq_one_iff.mp (Nat.le_antisymm h2 h1)
    cases h3 with | itemAt h3 =>
    have h := h3 _ y rfl rfl
    have hs := hs.item (.head _)
    refine array_reads fun x hx => ?_
    rw [List.mem_singleton.mp hx]
    have he : CanRead SpdxExpression.ofJson y := by
      obtain ⟨o, rfl⟩ := type_object (valid_part h (.head _))
      have hr := hs.readable
      have hreq := (valid_part h (.tail _ (.head _)))
      refine fields_reads ?_
      refine bind_reads (opt_reads fun x hx => ?_) fun _ => ?_
      · have := valid_closed (valid_part h (.tail _ (.tail _ (.head _)))) hx
        simp at this
      refine bind_reads (req_reads (valid_required hreq (by simp)) fun x hx => ?_) fun _ => ?_
      · have h := valid_property (valid_part h (.tail _ (.tail _ (.tail _ (.head _))))) (.head _) hx
        have hs := hs.member hx
        exact string_reads (type_string h)
      exact ⟨_, rfl⟩
    obtain ⟨z, hz⟩ := he
    unfold CanRead LicenseChoice.ofJson
    split
    · exact ⟨_, rfl⟩
    · exact ⟨_, by rw [hz]; rfl⟩

theorem v15_service_Service_n (n : Nat) : ∀ {j : Json}, Valid (schemaContext F .v1_5) Schema15.service j → Sane n j →
    CanRead (Service.ofJsonN .v1_5 n) j := by
  induction n with
  | zero =>
    intro j h hs
    obtain ⟨o, rfl⟩ := type_object (valid_part h (.head _))
    cases hs.within
  | succ n ih =>
    intro j h hs
    show CanRead (Service.ofJsonWith (Service.ofJsonN .v1_5 n) .v1_5) j
    obtain ⟨o, rfl⟩ := type_object (valid_part h (.head _))
    have hr := hs.readable
    have hreq := (valid_part h (.tail _ (.head _)))
    refine fields_reads ?_
    refine bind_reads (opt_reads fun x hx => ?_) fun _ => ?_
    · have h := valid_property (valid_part h (.tail _ (.tail _ (.tail _ (.head _))))) (.head _) hx
      have hs := hs.down hx
      exact string_reads (type_string (valid_part (v15_ref_refType h) (.head _)))
    refine bind_reads (opt_reads fun x hx => ?_) fun _ => ?_
    · have h := valid_property (valid_part h (.tail _ (.tail _ (.tail _ (.head _))))) (.tail _ (.head _)) hx
      have hs := hs.down hx
      exact v15_organizationalEntity_OrganizationalEntity (v15_ref_organizationalEntity h) hs
    refine bind_reads (opt_reads fun x hx => ?_) fun _ => ?_
    · have h := valid_property (valid_part h (.tail _ (.tail _ (.tail _ (.head _))))) (.tail _ (.tail _ (.head _))) hx
      have hs := hs.down hx
      exact string_reads (type_string h)
    refine bind_reads (req_reads (valid_required hreq (by simp)) fun x hx => ?_) fun _ => ?_
    · have h := valid_property (valid_part h (.tail _ (.tail _ (.tail _ (.head _))))) (.tail _ (.tail _ (.tail _ (.head _)))) hx
      have hs := hs.down hx
      exact string_reads (type_string h)
    refine bind_reads (opt_reads fun x hx => ?_) fun _ => ?_
    · have h := valid_property (valid_part h (.tail _ (.tail _ (.tail _ (.head _))))) (.tail _ (.tail _ (.tail _ (.tail _ (.head _))))) hx
      have hs := hs.down hx
      exact string_reads (type_string h)
    refine bind_reads (opt_reads fun x hx => ?_) fun _ => ?_
    · have h := valid_property (valid_part h (.tail _ (.tail _ (.tail _ (.head _))))) (.tail _ (.tail _ (.tail _ (.tail _ (.tail _ (.head _)))))) hx
      have hs := hs.down hx
      exact string_reads (type_string h)
    refine bind_reads (opt_reads fun x hx => ?_) fun _ => ?_
    · have h := valid_property (valid_part h (.tail _ (.tail _ (.tail _ (.head _))))) (.tail _ (.tail _ (.tail _ (.tail _ (.tail _ (.tail _ (.head _))))))) hx
      have hs := hs.down hx
      refine items_reads (valid_part h (.head _)) (valid_part h (.tail _ (.head _))) hs fun l el y hy h hs => ?_
      exact string_reads (type_string (valid_part h (.head _)))
    refine bind_reads (opt_reads fun x hx => ?_) fun _ => ?_
    · have h := valid_property (valid_part h (.tail _ (.tail _ (.tail _ (.head _))))) (.tail _ (.tail _ (.tail _ (.tail _ (.tail _ (.tail _ (.tail _ (.head _)))))))) hx
      have hs := hs.down hx
      exact boolean_reads h
    refine bind_reads (opt_reads fun x hx => ?_) fun _ => ?_
    · have h := valid_property (valid_part h (.tail _ (.tail _ (.tail _ (.head _))))) (.tail _ (.tail _ (.tail _ (.tail _ (.tail _ (.tail _ (.tail _ (.tail _ (.head _))))))))) hx
      have hs := hs.down hx
      exact boolean_reads h
    refine bind_reads (opt_reads fun x hx => ?_) fun _ => ?_
    · have h := valid_property (valid_part h (.tail _ (.tail _ (.tail _ (.head _))))) (.tail _ (.tail _ (.tail _ (.tail _ (.tail _ (.tail _ (.tail _ (.tail _ (.tail _ (.tail _ (.head _))))))))))) hx
      have hs := hs.down hx
      have hl : CanRead (Json.array DataClassification.ofJson) _ := items_reads (valid_part h (.head _)) (valid_part h (.tail _ (.head _))) hs fun l el y hy h hs => v15_serviceData_DataClassification (v15_ref_serviceData h) hs
      obtain ⟨z, hz⟩ := hl
      exact ⟨.classification z, by simp only [ServiceDataChoice.ofJson, hz]⟩
    refine bind_reads (opt_reads fun x hx => ?_) fun _ => ?_
    · have h := valid_property (valid_part h (.tail _ (.tail _ (.tail _ (.head _))))) (.tail _ (.tail _ (.tail _ (.tail _ (.tail _ (.tail _ (.tail _ (.tail _ (.tail _ (.tail _ (.tail _ (.head _)))))))))))) hx
      have hs := hs.down hx
      exact v15_licenseChoice_Licenses (v15_ref_licenseChoice h) hs
    refine bind_reads (opt_reads fun x hx => ?_) fun _ => ?_
    · have h := valid_property (valid_part h (.tail _ (.tail _ (.tail _ (.head _))))) (.tail _ (.tail _ (.tail _ (.tail _ (.tail _ (.tail _ (.tail _ (.tail _ (.tail _ (.tail _ (.tail _ (.tail _ (.head _))))))))))))) hx
      have hs := hs.down hx
      refine items_reads (valid_part h (.head _)) (valid_part h (.tail _ (.head _))) hs fun l el y hy h hs => ?_
      exact v15_externalReference_ExternalReference (v15_ref_externalReference h) hs
    refine bind_reads (opt_reads fun x hx => ?_) fun _ => ?_
    · have h := valid_property (valid_part h (.tail _ (.tail _ (.tail _ (.head _))))) (.tail _ (.tail _ (.tail _ (.tail _ (.tail _ (.tail _ (.tail _ (.tail _ (.tail _ (.tail _ (.tail _ (.tail _ (.tail _ (.tail _ (.tail _ (.head _)))))))))))))))) hx
      have hs := hs.down hx
      refine items_reads (valid_part h (.head _)) (valid_part h (.tail _ (.head _))) hs fun l el y hy h hs => ?_
      exact v15_property_Property (v15_ref_property h) hs (hr.named _ (el ▸ hx) _ hy)
    refine bind_reads (opt_reads fun x hx => ?_) fun _ => ?_
    · have h := valid_property (valid_part h (.tail _ (.tail _ (.tail _ (.head _))))) (.tail _ (.tail _ (.tail _ (.tail _ (.tail _ (.tail _ (.tail _ (.tail _ (.tail _ (.tail _ (.tail _ (.tail _ (.tail _ (.head _)))))))))))))) hx
      have hs := hs.down hx
      refine items_reads (valid_part h (.head _)) (valid_part h (.tail _ (.tail _ (.head _)))) hs fun l el y hy h hs => ?_
      exact ih (v15_ref_service h) hs
    refine bind_reads (opt_reads fun x hx => ?_) fun _ => ?_
    · have h := valid_property (valid_part h (.tail _ (.tail _ (.tail _ (.head _))))) (.tail _ (.tail _ (.tail _ (.tail _ (.tail _ (.tail _ (.tail _ (.tail _ (.tail _ (.tail _ (.tail _ (.tail _ (.tail _ (.tail _ (.tail _ (.tail _ (.head _))))))))))))))))) hx
      have hs := hs.down hx
      replace h := (v15_ref_signature h)
      exact signature_reads (v15_ref_jsf_signature h) hs (hr.signature _ hx)
    refine bind_reads (opt_reads fun x hx => ?_) fun _ => ?_
    · have h := valid_property (valid_part h (.tail _ (.tail _ (.tail _ (.head _))))) (.tail _ (.tail _ (.tail _ (.tail _ (.tail _ (.tail _ (.tail _ (.tail _ (.tail _ (.head _)))))))))) hx
      have hs := hs.down hx
      exact string_reads (type_string h)
    exact ⟨_, rfl⟩

theorem v15_service_Service {j : Json} (h : Valid (schemaContext F .v1_5) Schema15.service j) (hs : Sane ReadLimit.limit j) :
    CanRead (Service.ofJson .v1_5) j := v15_service_Service_n _ h hs

theorem v15_swid_Swid {n : Nat} {j : Json} (h : Valid (schemaContext F .v1_5) Schema15.swid j) (hs : Sane n j) :
    CanRead (Swid.ofJson) j := by
  obtain ⟨o, rfl⟩ := type_object (valid_part h (.head _))
  have hr := hs.readable
  have hreq := (valid_part h (.tail _ (.head _)))
  refine fields_reads ?_
  refine bind_reads (req_reads (valid_required hreq (by simp)) fun x hx => ?_) fun _ => ?_
  · have h := valid_property (valid_part h (.tail _ (.tail _ (.tail _ (.head _))))) (.head _) hx
    have hs := hs.member hx
    exact string_reads (type_string h)
  refine bind_reads (req_reads (valid_required hreq (by simp)) fun x hx => ?_) fun _ => ?_
  · have h := valid_property (valid_part h (.tail _ (.tail _ (.tail _ (.head _))))) (.tail _ (.head _)) hx
    have hs := hs.member hx
    exact string_reads (type_string h)
  refine bind_reads (opt_reads fun x hx => ?_) fun _ => ?_
  · have h := valid_property (valid_part h (.tail _ (.tail _ (.tail _ (.head _))))) (.tail _ (.tail _ (.head _))) hx
    have hs := hs.member hx
    exact string_reads (type_string h)
  refine bind_reads (opt_reads fun x hx => ?_) fun _ => ?_
  · have h := valid_property (valid_part h (.tail _ (.tail _ (.tail _ (.head _))))) (.tail _ (.tail _ (.tail _ (.head _)))) hx
    have hs := hs.member hx
    exact u32_reads (hr.small _ _ hx (by simp) (integer_number h))
  refine bind_reads (opt_reads fun x hx => ?_) fun _ => ?_
  · have h := valid_property (valid_part h (.tail _ (.tail _ (.tail _ (.head _))))) (.tail _ (.tail _ (.tail _ (.tail _ (.head _))))) hx
    have hs := hs.member hx
    exact boolean_reads h
  refine bind_reads (opt_reads fun x hx => ?_) fun _ => ?_
  · have h := valid_property (valid_part h (.tail _ (.tail _ (.tail _ (.head _))))) (.tail _ (.tail _ (.tail _ (.tail _ (.tail _ (.head _)))))) hx
    have hs := hs.member hx
    exact v15_attachment_AttachedText (v15_ref_attachment h) hs
  refine bind_reads (opt_reads fun x hx => ?_) fun _ => ?_
  · have h := valid_property (valid_part h (.tail _ (.tail _ (.tail _ (.head _))))) (.tail _ (.tail _ (.tail _ (.tail _ (.tail _ (.tail _ (.head _))))))) hx
    have hs := hs.member hx
    exact string_reads (type_string (valid_part h (.head _)))
  exact ⟨_, rfl⟩

theorem v15_identifiableAction_IdentifiableAction {n : Nat} {j : Json} (h : Valid (schemaContext F .v1_5) Schema15.identifiableAction j) (hs : Sane n j) :
    CanRead (IdentifiableAction.ofJson) j := by
  obtain ⟨o, rfl⟩ := type_object (valid_part h (.head _))
  have hr := hs.readable
  refine fields_reads ?_
  refine bind_reads (opt_reads fun x hx => ?_) fun _ => ?_
  · have h := valid_property (valid_part h (.tail _ (.tail _ (.head _)))) (.head _) hx
    have hs := hs.member hx
    exact string_reads (type_string (valid_part h (.head _)))
  refine bind_reads (opt_reads fun x hx => ?_) fun _ => ?_
  · have h := valid_property (valid_part h (.tail _ (.tail _ (.head _)))) (.tail _ (.head _)) hx
    have hs := hs.member hx
    exact string_reads (type_string h)
  refine bind_reads (opt_reads fun x hx => ?_) fun _ => ?_
  · have h := valid_property (valid_part h (.tail _ (.tail _ (.head _)))) (.tail _ (.tail _ (.head _))) hx
    have hs := hs.member hx
    exact string_reads (type_string (valid_part h (.head _)))
  exact ⟨_, rfl⟩

theorem v15_commit_Commit {n : Nat} {j : Json} (h : Valid (schemaContext F .v1_5) Schema15.commit j) (hs : Sane n j) :
    CanRead (Commit.ofJson) j := by
  obtain ⟨o, rfl⟩ := type_object (valid_part h (.head _))
  have hr := hs.readable
  refine fields_reads ?_
  refine bind_reads (opt_reads fun x hx => ?_) fun _ => ?_
  · have h := valid_property (valid_part h (.tail _ (.tail _ (.head _)))) (.head _) hx
    have hs := hs.member hx
    exact string_reads (type_string h)
  refine bind_reads (opt_reads fun x hx => ?_) fun _ => ?_
  · have h := valid_property (valid_part h (.tail _ (.tail _ (.head _)))) (.tail _ (.head _)) hx
    have hs := hs.member hx
    exact string_reads (type_string (valid_part h (.head _)))
  refine bind_reads (opt_reads fun x hx => ?_) fun _ => ?_
  · have h := valid_property (valid_part h (.tail _ (.tail _ (.head _)))) (.tail _ (.tail _ (.head _))) hx
    have hs := hs.member hx
    exact v15_identifiableAction_IdentifiableAction (v15_ref_identifiableAction h) hs
  refine bind_reads (opt_reads fun x hx => ?_) fun _ => ?_
  · have h := valid_property (valid_part h (.tail _ (.tail _ (.head _)))) (.tail _ (.tail _ (.tail _ (.head _)))) hx
    have hs := hs.member hx
    exact v15_identifiableAction_IdentifiableAction (v15_ref_identifiableAction h) hs
  refine bind_reads (opt_reads fun x hx => ?_) fun _ => ?_
  · have h := valid_property (valid_part h (.tail _ (.tail _ (.head _)))) (.tail _ (.tail _ (.tail _ (.tail _ (.head _))))) hx
    have hs := hs.member hx
    exact string_reads (type_string h)
  exact ⟨_, rfl⟩

theorem v15_diff_Diff {n : Nat} {j : Json} (h : Valid (schemaContext F .v1_5) Schema15.diff j) (hs : Sane n j) :
    CanRead (Diff.ofJson) j := by
  obtain ⟨o, rfl⟩ := type_object (valid_part h (.head _))
  have hr := hs.readable
  refine fields_reads ?_
  refine bind_reads (opt_reads fun x hx => ?_) fun _ => ?_
  · have h := valid_property (valid_part h (.tail _ (.tail _ (.head _)))) (.head _) hx
    have hs := hs.member hx
    exact v15_attachment_AttachedText (v15_ref_attachment h) hs
  refine bind_reads (opt_reads fun x hx => ?_) fun _ => ?_
  · have h := valid_property (valid_part h (.tail _ (.tail _ (.head _)))) (.tail _ (.head _)) hx
    have hs := hs.member hx
    exact string_reads (type_string (valid_part h (.head _)))
  exact ⟨_, rfl⟩

theorem v15_issue_Issue {n : Nat} {j : Json} (h : Valid (schemaContext F .v1_5) Schema15.issue j) (hs : Sane n j) :
    CanRead (Issue.ofJson) j := by
  obtain ⟨o, rfl⟩ := type_object (valid_part h (.head _))
  have hr := hs.readable
  have hreq := (valid_part h (.tail _ (.head _)))
  refine fields_reads ?_
  refine bind_reads (req_reads (valid_required hreq (by simp)) fun x hx => ?_) fun _ => ?_
  · have h := valid_property (valid_part h (.tail _ (.tail _ (.tail _ (.head _))))) (.head _) hx
    have hs := hs.member hx
    exact enum_reads (type_string (valid_part h (.head _)))
  refine bind_reads (opt_reads fun x hx => ?_) fun _ => ?_
  · have h := valid_property (valid_part h (.tail _ (.tail _ (.tail _ (.head _))))) (.tail _ (.head _)) hx
    have hs := hs.member hx
    exact string_reads (type_string h)
  refine bind_reads (opt_reads fun x hx => ?_) fun _ => ?_
  · have h := valid_property (valid_part h (.tail _ (.tail _ (.tail _ (.head _))))) (.tail _ (.tail _ (.head _))) hx
    have hs := hs.member hx
    exact string_reads (type_string h)
  refine bind_reads (opt_reads fun x hx => ?_) fun _ => ?_
  · have h := valid_property (valid_part h (.tail _ (.tail _ (.tail _ (.head _))))) (.tail _ (.tail _ (.tail _ (.head _)))) hx
    have hs := hs.member hx
    exact string_reads (type_string h)
  refine bind_reads (opt_reads fun x hx => ?_) fun _ => ?_
  · have h := valid_property (valid_part h (.tail _ (.tail _ (.tail _ (.head _))))) (.tail _ (.tail _ (.tail _ (.tail _ (.head _))))) hx
    have hs := hs.member hx
    obtain ⟨o, rfl⟩ := type_object (valid_part h (.head _))
    have hr := hs.readable
    refine fields_reads ?_
    refine bind_reads (opt_reads fun x hx => ?_) fun _ => ?_
    · have h := valid_property (valid_part h (.tail _ (.tail _ (.head _)))) (.head _) hx
      have hs := hs.member hx
      exact string_reads (type_string h)
    refine bind_reads (opt_reads fun x hx => ?_) fun _ => ?_
    · have h := valid_property (valid_part h (.tail _ (.tail _ (.head _)))) (.tail _ (.head _)) hx
      have hs := hs.member hx
      exact string_reads (type_string (valid_part h (.head _)))
    exact ⟨_, rfl⟩
  refine bind_reads (opt_reads fun x hx => ?_) fun _ => ?_
  · have h := valid_property (valid_part h (.tail _ (.tail _ (.tail _ (.head _))))) (.tail _ (.tail _ (.tail _ (.tail _ (.tail _ (.head _)))))) hx
    have hs := hs.member hx
    refine items_reads (valid_part h (.head _)) (valid_part h (.tail _ (.head _))) hs fun l el y hy h hs => ?_
    exact string_reads (type_string (valid_part h (.head _)))
  exact ⟨_, rfl⟩

theorem v15_patch_Patch {n : Nat} {j : Json} (h : Valid (schemaContext F .v1_5) Schema15.patch j) (hs : Sane n j) :
    CanRead (Patch.ofJson) j := by
  obtain ⟨o, rfl⟩ := type_object (valid_part h (.head _))
  have hr := hs.readable
  have hreq := (valid_part h (.tail _ (.head _)))
  refine fields_reads ?_
  refine bind_reads (req_reads (valid_required hreq (by simp)) fun x hx => ?_) fun _ => ?_
  · have h := valid_property (valid_part h (.tail _ (.tail _ (.tail _ (.head _))))) (.head _) hx
    have hs := hs.member hx
    exact enum_reads (type_string (valid_part h (.head _)))
  refine bind_reads (opt_reads fun x hx => ?_) fun _ => ?_
  · have h := valid_property (valid_part h (.tail _ (.tail _ (.tail _ (.head _))))) (.tail _ (.head _)) hx
    have hs := hs.member hx
    exact v15_diff_Diff (v15_ref_diff h) hs
  refine bind_reads (opt_reads fun x hx => ?_) fun _ => ?_
  · have h := valid_property (valid_part h (.tail _ (.tail _ (.tail _ (.head _))))) (.tail _ (.tail _ (.head _))) hx
    have hs := hs.member hx
    refine items_reads (valid_part h (.head _)) (valid_part h (.tail _ (.head _))) hs fun l el y hy h hs => ?_
    exact v15_issue_Issue (v15_ref_issue h) hs
  exact ⟨_, rfl⟩

theorem v15_copyright_Copyright {n : Nat} {j : Json} (h : Valid (schemaContext F .v1_5) Schema15.copyright j) (hs : Sane n j) :
    CanRead (Copyright.ofJson) j := by
  obtain ⟨o, rfl⟩ := type_object (valid_part h (.head _))
  have hr := hs.readable
  have hreq := (valid_part h (.tail _ (.head _)))
  refine fields_reads ?_
  exact req_reads (valid_required hreq (by simp)) fun x hx => string_reads (type_string (valid_property (valid_part h (.tail _ (.tail _ (.tail _ (.head _))))) (.head _) hx))

theorem v15_componentEvidence_ComponentEvidence {n : Nat} {j : Json} (h : Valid (schemaContext F .v1_5) Schema15.componentEvidence j) (hs : Sane n j) :
    CanRead (ComponentEvidence.ofJson .v1_5) j := by
  obtain ⟨o, rfl⟩ := type_object (valid_part h (.head _))
  have hr := hs.readable
  refine fields_reads ?_
  refine bind_reads (opt_reads fun x hx => ?_) fun _ => ?_
  · have h := valid_property (valid_part h (.tail _ (.tail _ (.head _)))) (.tail _ (.tail _ (.tail _ (.head _)))) hx
    have hs := hs.member hx
    exact v15_licenseChoice_Licenses (v15_ref_licenseChoice h) hs
  refine bind_reads (opt_reads fun x hx => ?_) fun _ => ?_
  · have h := valid_property (valid_part h (.tail _ (.tail _ (.head _)))) (.tail _ (.tail _ (.tail _ (.tail _ (.head _))))) hx
    have hs := hs.member hx
    refine items_reads (valid_part h (.head _)) (valid_part h (.tail _ (.head _))) hs fun l el y hy h hs => ?_
    exact v15_copyright_Copyright (v15_ref_copyright h) hs
  refine bind_reads (opt_reads fun x hx => ?_) fun _ => ?_
  · have h := valid_property (valid_part h (.tail _ (.tail _ (.head _)))) (.tail _ (.head _)) hx
    have hs := hs.member hx
    refine items_reads (valid_part h (.head _)) (valid_part h (.tail _ (.head _))) hs fun l el y hy h hs => ?_
    obtain ⟨o, rfl⟩ := type_object (valid_part h (.head _))
    have hr := hs.readable
    have hreq := (valid_part h (.tail _ (.head _)))
    refine fields_reads ?_
    refine bind_reads (opt_reads fun x hx => ?_) fun _ => ?_
    · have := valid_closed (valid_part h (.tail _ (.tail _ (.head _)))) hx
      simp at this
    refine bind_reads (req_reads (valid_required hreq (by simp)) fun x hx => ?_) fun _ => ?_
    · have h := valid_property (valid_part h (.tail _ (.tail _ (.tail _ (.head _))))) (.tail _ (.head _)) hx
      have hs := hs.member hx
      exact string_reads (type_string h)
    exact ⟨_, rfl⟩
  refine bind_reads (opt_reads fun x hx => ?_) fun _ => ?_
  · have h := valid_property (valid_part h (.tail _ (.tail _ (.head _)))) (.tail _ (.tail _ (.head _))) hx
    have hs := hs.member hx
    have hh := hr.frames _ hx
    obtain ⟨o, rfl⟩ := type_object (valid_part h (.head _))
    have hr := hs.readable
    refine fields_reads ?_
    refine bind_reads (req_reads hh.lookup fun x hx => ?_) fun _ => ?_
    · have h := valid_property (valid_part h (.tail _ (.tail _ (.head _)))) (.head _) hx
      have hs := hs.member hx
      refine items_reads (valid_part h (.head _)) (valid_part h (.tail _ (.head _))) hs fun l el y hy h hs => ?_
      obtain ⟨o, rfl⟩ := type_object (valid_part h (.head _))
      have hr := hs.readable
      have hreq := (valid_part h (.tail _ (.head _)))
      refine fields_reads ?_
      refine bind_reads (opt_reads fun x hx => ?_) fun _ => ?_
      · have h := valid_property (valid_part h (.tail _ (.tail _ (.tail _ (.head _))))) (.head _) hx
        have hs := hs.member hx
        exact string_reads (type_string h)
      refine bind_reads (req_reads (valid_required hreq (by simp)) fun x hx => ?_) fun _ => ?_
      · have h := valid_property (valid_part h (.tail _ (.tail _ (.tail _ (.head _))))) (.tail _ (.head _)) hx
        have hs := hs.member hx
        exact string_reads (type_string h)
      refine bind_reads (opt_reads fun x hx => ?_) fun _ => ?_
      · have h := valid_property (valid_part h (.tail _ (.tail _ (.tail _ (.head _))))) (.tail _ (.tail _ (.head _))) hx
        have hs := hs.member hx
        exact string_reads (type_string h)
      refine bind_reads (opt_reads fun x hx => ?_) fun _ => ?_
      · have h := valid_property (valid_part h (.tail _ (.tail _ (.tail _ (.head _))))) (.tail _ (.tail _ (.tail _ (.head _)))) hx
        have hs := hs.member hx
        refine items_reads (valid_part h (.head _)) (valid_part h (.tail _ (.head _))) hs fun l el y hy h hs => ?_
        exact string_reads (type_string h)
      refine bind_reads (opt_reads fun x hx => ?_) fun _ => ?_
      · have h := valid_property (valid_part h (.tail _ (.tail _ (.tail _ (.head _))))) (.tail _ (.tail _ (.tail _ (.tail _ (.head _))))) hx
        have hs := hs.member hx
        exact u32_reads (hr.small _ _ hx (by simp) (integer_number h))
      refine bind_reads (opt_reads fun x hx => ?_) fun _ => ?_
      · have h := valid_property (valid_part h (.tail _ (.tail _ (.tail _ (.head _))))) (.tail _ (.tail _ (.tail _ (.tail _ (.tail _ (.head _)))))) hx
        have hs := hs.member hx
        exact u32_reads (hr.small _ _ hx (by simp) (integer_number h))
      refine bind_reads (opt_reads fun x hx => ?_) fun _ => ?_
      · have h := valid_property (valid_part h (.tail _ (.tail _ (.tail _ (.head _))))) (.tail _ (.tail _ (.tail _ (.tail _ (.tail _ (.tail _ (.head _))))))) hx
        have hs := hs.member hx
        exact string_reads (type_string h)
      exact ⟨_, rfl⟩
    exact ⟨_, rfl⟩
  refine bind_reads (opt_reads fun x hx => ?_) fun _ => ?_
  · have h := valid_property (valid_part h (.tail _ (.tail _ (.head _)))) (.head _) hx
    have hs := hs.member hx
    obtain ⟨o, rfl⟩ := type_object (valid_part h (.head _))
    have hr := hs.readable
    have hreq := (valid_part h (.tail _ (.head _)))
    refine fields_reads ?_
    refine bind_reads (req_reads (valid_required hreq (by simp)) fun x hx => ?_) fun _ => ?_
    · have h := valid_property (valid_part h (.tail _ (.tail _ (.tail _ (.head _))))) (.head _) hx
      have hs := hs.member hx
      exact enum_reads (type_string (valid_part h (.head _)))
    refine bind_reads (opt_reads fun x hx => ?_) fun _ => ?_
    · have h := valid_property (valid_part h (.tail _ (.tail _ (.tail _ (.head _))))) (.tail _ (.head _)) hx
      have hs := hs.member hx
      exact f32_reads (type_number (valid_part h (.head _))) (fun e => hr.numbers _ (e ▸ hx))
    refine bind_reads (opt_reads fun x hx => ?_) fun _ => ?_
    · have h := valid_property (valid_part h (.tail _ (.tail _ (.tail _ (.head _))))) (.tail _ (.tail _ (.head _))) hx
      have hs := hs.member hx
      refine items_reads (valid_part h (.head _)) (valid_part h (.tail _ (.head _))) hs fun l el y hy h hs => ?_
      obtain ⟨o, rfl⟩ := type_object (valid_part h (.head _))
      have hr := hs.readable
      have hreq := (valid_part h (.tail _ (.head _)))
      refine fields_reads ?_
      refine bind_reads (req_reads (valid_required hreq (by simp)) fun x hx => ?_) fun _ => ?_
      · have h := valid_property (valid_part h (.tail _ (.tail _ (.tail _ (.head _))))) (.head _) hx
        have hs := hs.member hx
        exact string_reads (type_string (valid_part h (.head _)))
      refine bind_reads (req_reads (valid_required hreq (by simp)) fun x hx => ?_) fun _ => ?_
      · have h := valid_property (valid_part h (.tail _ (.tail _ (.tail _ (.head _))))) (.tail _ (.head _)) hx
        have hs := hs.member hx
        exact f32_reads (type_number (valid_part h (.head _))) (fun e => hr.numbers _ (e ▸ hx))
      refine bind_reads (opt_reads fun x hx => ?_) fun _ => ?_
      · have h := valid_property (valid_part h (.tail _ (.tail _ (.tail _ (.head _))))) (.tail _ (.tail _ (.head _))) hx
        have hs := hs.member hx
        exact string_reads (type_string h)
      exact ⟨_, rfl⟩
    refine bind_reads (opt_reads fun x hx => ?_) fun _ => ?_
    · have h := valid_property (valid_part h (.tail _ (.tail _ (.tail _ (.head _))))) (.tail _ (.tail _ (.tail _ (.head _)))) hx
      have hs := hs.member hx
      refine items_reads (valid_part h (.head _)) (valid_part h (.tail _ (.tail _ (.head _)))) hs fun l el y hy h hs => ?_
      exact string_reads ((anyOf_two h).elim (fun h => (type_string (valid_part (v15_ref_refType (valid_part (v15_ref_refLinkType h) (.head _))) (.head _)))) (fun h => (type_string (valid_part (v15_ref_bomLinkElementType h) (.head _)))))
    exact ⟨_, rfl⟩
  exact ⟨_, rfl⟩

theorem v15_attachment_Attachment {n : Nat} {j : Json} (h : Valid (schemaContext F .v1_5) Schema15.attachment j) (hs : Sane n j) :
    CanRead (Attachment.ofJson) j := by
  obtain ⟨o, rfl⟩ := type_object (valid_part h (.head _))
  have hr := hs.readable
  have hreq := (valid_part h (.tail _ (.head _)))
  refine fields_reads ?_
  refine bind_reads (req_reads (valid_required hreq (by simp)) fun x hx => ?_) fun _ => ?_
  · have h := valid_property (valid_part h (.tail _ (.tail _ (.tail _ (.head _))))) (.tail _ (.tail _ (.head _))) hx
    have hs := hs.member hx
    exact string_reads (type_string h)
  refine bind_reads (opt_reads fun x hx => ?_) fun _ => ?_
  · have h := valid_property (valid_part h (.tail _ (.tail _ (.tail _ (.head _))))) (.head _) hx
    have hs := hs.member hx
    exact string_reads (type_string h)
  refine bind_reads (opt_reads fun x hx => ?_) fun _ => ?_
  · have h := valid_property (valid_part h (.tail _ (.tail _ (.tail _ (.head _))))) (.tail _ (.head _)) hx
    have hs := hs.member hx
    exact string_reads (type_string (valid_part h (.head _)))
  exact ⟨_, rfl⟩

theorem v15_graphic_Graphic {n : Nat} {j : Json} (h : Valid (schemaContext F .v1_5) Schema15.graphic j) (hs : Sane n j) :
    CanRead (Graphic.ofJson) j := by
  obtain ⟨o, rfl⟩ := type_object (valid_part h (.head _))
  have hr := hs.readable
  refine fields_reads ?_
  refine bind_reads (opt_reads fun x hx => ?_) fun _ => ?_
  · have h := valid_property (valid_part h (.tail _ (.tail _ (.head _)))) (.head _) hx
    have hs := hs.member hx
    exact string_reads (type_string h)
  refine bind_reads (opt_reads fun x hx => ?_) fun _ => ?_
  · have h := valid_property (valid_part h (.tail _ (.tail _ (.head _)))) (.tail _ (.head _)) hx
    have hs := hs.member hx
    exact v15_attachment_Attachment (v15_ref_attachment h) hs
  exact ⟨_, rfl⟩

theorem v15_graphicsCollection_GraphicsCollection {n : Nat} {j : Json} (h : Valid (schemaContext F .v1_5) Schema15.graphicsCollection j) (hs : Sane n j) :
    CanRead (GraphicsCollection.ofJson) j := by
  obtain ⟨o, rfl⟩ := type_object (valid_part h (.head _))
  have hr := hs.readable
  refine fields_reads ?_
  refine bind_reads (opt_reads fun x hx => ?_) fun _ => ?_
  · have h := valid_property (valid_part h (.tail _ (.tail _ (.head _)))) (.head _) hx
    have hs := hs.member hx
    exact string_reads (type_string h)
  refine bind_reads (opt_reads fun x hx => ?_) fun _ => ?_
  · have h := valid_property (valid_part h (.tail _ (.tail _ (.head _)))) (.tail _ (.head _)) hx
    have hs := hs.member hx
    refine items_reads (valid_part h (.head _)) (valid_part h (.tail _ (.head _))) hs fun l el y hy h hs => ?_
    exact v15_graphic_Graphic (v15_ref_graphic h) hs
  exact ⟨_, rfl⟩

theorem v15_componentData_ComponentData {n : Nat} {j : Json} (h : Valid (schemaContext F .v1_5) Schema15.componentData j) (hs : Sane n j) :
    CanRead (ComponentData.ofJson) j := by
  obtain ⟨o, rfl⟩ := type_object (valid_part h (.head _))
  have hr := hs.readable
  have hreq := (valid_part h (.tail _ (.head _)))
  refine fields_reads ?_
  refine bind_reads (opt_reads fun x hx => ?_) fun _ => ?_
  · have := valid_closed (valid_part h (.tail _ (.tail _ (.head _)))) hx
    simp at this
  refine bind_reads (req_reads (valid_required hreq (by simp)) fun x hx => ?_) fun _ => ?_
  · have h := valid_property (valid_part h (.tail _ (.tail _ (.tail _ (.head _))))) (.tail _ (.head _)) hx
    have hs := hs.member hx
    exact enum_reads (type_string (valid_part h (.head _)))
  refine bind_reads (opt_reads fun x hx => ?_) fun _ => ?_
  · have h := valid_property (valid_part h (.tail _ (.tail _ (.tail _ (.head _))))) (.tail _ (.tail _ (.head _))) hx
    have hs := hs.member hx
    exact string_reads (type_string h)
  refine bind_reads (opt_reads fun x hx => ?_) fun _ => ?_
  · have h := valid_property (valid_part h (.tail _ (.tail _ (.tail _ (.head _))))) (.tail _ (.tail _ (.tail _ (.head _)))) hx
    have hs := hs.member hx
    obtain ⟨o, rfl⟩ := type_object (valid_part h (.head _))
    have hr := hs.readable
    refine fields_reads ?_
    refine bind_reads (opt_reads fun x hx => ?_) fun _ => ?_
    · have h := valid_property (valid_part h (.tail _ (.tail _ (.head _)))) (.head _) hx
      have hs := hs.member hx
      exact v15_attachment_Attachment (v15_ref_attachment h) hs
    refine bind_reads (opt_reads fun x hx => ?_) fun _ => ?_
    · have h := valid_property (valid_part h (.tail _ (.tail _ (.head _)))) (.tail _ (.head _)) hx
      have hs := hs.member hx
      exact string_reads (type_string (valid_part h (.head _)))
    refine bind_reads (opt_reads fun x hx => ?_) fun _ => ?_
    · have h := valid_property (valid_part h (.tail _ (.tail _ (.head _)))) (.tail _ (.tail _ (.head _))) hx
      have hs := hs.member hx
      refine items_reads (valid_part h (.head _)) (valid_part h (.tail _ (.head _))) hs fun l el y hy h hs => ?_
      exact v15_property_Property (v15_ref_property h) hs (hr.named _ (el ▸ hx) _ hy)
    exact ⟨_, rfl⟩
  refine bind_reads (opt_reads fun x hx => ?_) fun _ => ?_
  · have h := valid_property (valid_part h (.tail _ (.tail _ (.tail _ (.head _))))) (.tail _ (.tail _ (.tail _ (.tail _ (.head _))))) hx
    have hs := hs.member hx
    exact string_reads (type_string (v15_ref_dataClassification h))
  refine bind_reads (opt_reads fun x hx => ?_) fun _ => ?_
  · exact absurd hx (hr.sensitive _)
  refine bind_reads (opt_reads fun x hx => ?_) fun _ => ?_
  · have h := valid_property (valid_part h (.tail _ (.tail _ (.tail _ (.head _))))) (.tail _ (.tail _ (.tail _ (.tail _ (.tail _ (.tail _ (.head _))))))) hx
    have hs := hs.member hx
    exact v15_graphicsCollection_GraphicsCollection (v15_ref_graphicsCollection h) hs
  refine bind_reads (opt_reads fun x hx => ?_) fun _ => ?_
  · have h := valid_property (valid_part h (.tail _ (.tail _ (.tail _ (.head _))))) (.tail _ (.tail _ (.tail _ (.tail _ (.tail _ (.tail _ (.tail _ (.head _)))))))) hx
    have hs := hs.member hx
    exact string_reads (type_string h)
  refine bind_reads (opt_reads fun x hx => ?_) fun _ => ?_
  · have h := valid_property (valid_part h (.tail _ (.tail _ (.tail _ (.head _))))) (.tail _ (.tail _ (.tail _ (.tail _ (.tail _ (.tail _ (.tail _ (.tail _ (.head _))))))))) hx
    replace h := (v15_ref_dataGovernance h)
    obtain ⟨p, rfl⟩ := type_object (valid_part h (.head _))
    have hgov := hr.governance ⟨_, _, rfl, (valid_required hreq (by simp : "type" ∈ _)).choose_spec⟩ p hx
    exact governance_reads_v15 h hgov (hs.member hx).nodup
  exact ⟨_, rfl⟩

theorem v15_inputOutputMLParameters_MLParameter {n : Nat} {j : Json} (h : Valid (schemaContext F .v1_5) Schema15.inputOutputMLParameters j) (hs : Sane n j) :
    CanRead (MLParameter.ofJson) j := by
  obtain ⟨o, rfl⟩ := type_object (valid_part h (.head _))
  have hr := hs.readable
  refine fields_reads ?_
  refine bind_reads (opt_reads fun x hx => ?_) fun _ => ?_
  · have h := valid_property (valid_part h (.tail _ (.tail _ (.head _)))) (.head _) hx
    have hs := hs.member hx
    exact string_reads (type_string h)
  exact ⟨_, rfl⟩

theorem v15_performanceMetric_PerformanceMetric {n : Nat} {j : Json} (h : Valid (schemaContext F .v1_5) Schema15.performanceMetric j) (hs : Sane n j) :
    CanRead (PerformanceMetric.ofJson) j := by
  obtain ⟨o, rfl⟩ := type_object (valid_part h (.head _))
  have hr := hs.readable
  refine fields_reads ?_
  refine bind_reads (opt_reads fun x hx => ?_) fun _ => ?_
  · have h := valid_property (valid_part h (.tail _ (.tail _ (.head _)))) (.head _) hx
    have hs := hs.member hx
    exact string_reads (type_string h)
  refine bind_reads (opt_reads fun x hx => ?_) fun _ => ?_
  · have h := valid_property (valid_part h (.tail _ (.tail _ (.head _)))) (.tail _ (.head _)) hx
    have hs := hs.member hx
    exact string_reads (type_string h)
  refine bind_reads (opt_reads fun x hx => ?_) fun _ => ?_
  · have h := valid_property (valid_part h (.tail _ (.tail _ (.head _)))) (.tail _ (.tail _ (.head _))) hx
    have hs := hs.member hx
    exact string_reads (type_string h)
  refine bind_reads (opt_reads fun x hx => ?_) fun _ => ?_
  · have := valid_closed (valid_part h (.tail _ (.head _))) hx
    simp at this
  exact ⟨_, rfl⟩

theorem v15_modelCard_ModelCard {n : Nat} {j : Json} (h : Valid (schemaContext F .v1_5) Schema15.modelCard j) (hs : Sane n j) :
    CanRead (ModelCard.ofJson) j := by
  obtain ⟨o, rfl⟩ := type_object (valid_part h (.head _))
  have hr := hs.readable
  refine fields_reads ?_
  refine bind_reads (opt_reads fun x hx => ?_) fun _ => ?_
  · have := valid_closed (valid_part h (.tail _ (.head _))) hx
    simp at this
  refine bind_reads (opt_reads fun x hx => ?_) fun _ => ?_
  · have h := valid_property (valid_part h (.tail _ (.tail _ (.head _)))) (.tail _ (.head _)) hx
    have hs := hs.member hx
    obtain ⟨o, rfl⟩ := type_object (valid_part h (.head _))
    have hr := hs.readable
    refine fields_reads ?_
    refine bind_reads (opt_reads fun x hx => ?_) fun _ => ?_
    · have h := valid_property (valid_part h (.tail _ (.tail _ (.head _)))) (.head _) hx
      have hs := hs.member hx
      obtain ⟨o, rfl⟩ := type_object (valid_part h (.head _))
      have hr := hs.readable
      refine fields_reads ?_
      refine bind_reads (opt_reads fun x hx => ?_) fun _ => ?_
      · have h := valid_property (valid_part h (.tail _ (.tail _ (.head _)))) (.head _) hx
        have hs := hs.member hx
        exact enum_reads (type_string (valid_part h (.head _)))
      exact ⟨_, rfl⟩
    refine bind_reads (opt_reads fun x hx => ?_) fun _ => ?_
    · have h := valid_property (valid_part h (.tail _ (.tail _ (.head _)))) (.tail _ (.head _)) hx
      have hs := hs.member hx
      exact string_reads (type_string h)
    refine bind_reads (opt_reads fun x hx => ?_) fun _ => ?_
    · have h := valid_property (valid_part h (.tail _ (.tail _ (.head _)))) (.tail _ (.tail _ (.head _))) hx
      have hs := hs.member hx
      exact string_reads (type_string h)
    refine bind_reads (opt_reads fun x hx => ?_) fun _ => ?_
    · have h := valid_property (valid_part h (.tail _ (.tail _ (.head _)))) (.tail _ (.tail _ (.tail _ (.head _)))) hx
      have hs := hs.member hx
      exact string_reads (type_string h)
    refine bind_reads (opt_reads fun x hx => ?_) fun _ => ?_
    · have h := valid_property (valid_part h (.tail _ (.tail _ (.head _)))) (.tail _ (.tail _ (.tail _ (.tail _ (.head _))))) hx
      have hs := hs.member hx
      refine items_reads (valid_part h (.head _)) (valid_part h (.tail _ (.head _))) hs fun l el y hy h hs => ?_
      have hh := hr.datasets _ (el ▸ hx) _ hy
      have hc : CanRead ComponentData.ofJson y := by
        rcases oneOf_two h with h | h
        · exact v15_componentData_ComponentData (v15_ref_componentData h) hs
        · obtain ⟨o, rfl⟩ := type_object (valid_part h (.head _))
          obtain ⟨z, hz⟩ := hh.lookup
          have := valid_closed (valid_part h (.tail _ (.head _))) hz
          simp at this
      obtain ⟨z, hz⟩ := hc
      exact ⟨.component z, by simp only [Dataset.ofJson, hz]⟩
    refine bind_reads (opt_reads fun x hx => ?_) fun _ => ?_
    · have h := valid_property (valid_part h (.tail _ (.tail _ (.head _)))) (.tail _ (.tail _ (.tail _ (.tail _ (.tail _ (.head _)))))) hx
      have hs := hs.member hx
      refine items_reads (valid_part h (.head _)) (valid_part h (.tail _ (.head _))) hs fun l el y hy h hs => ?_
      exact v15_inputOutputMLParameters_MLParameter (v15_ref_inputOutputMLParameters h) hs
    refine bind_reads (opt_reads fun x hx => ?_) fun _ => ?_
    · have h := valid_property (valid_part h (.tail _ (.tail _ (.head _)))) (.tail _ (.tail _ (.tail _ (.tail _ (.tail _ (.tail _ (.head _))))))) hx
      have hs := hs.member hx
      refine items_reads (valid_part h (.head _)) (valid_part h (.tail _ (.head _))) hs fun l el y hy h hs => ?_
      exact v15_inputOutputMLParameters_MLParameter (v15_ref_inputOutputMLParameters h) hs
    exact ⟨_, rfl⟩
  refine bind_reads (opt_reads fun x hx => ?_) fun _ => ?_
  · have h := valid_property (valid_part h (.tail _ (.tail _ (.head _)))) (.tail _ (.tail _ (.head _))) hx
    have hs := hs.member hx
    obtain ⟨o, rfl⟩ := type_object (valid_part h (.head _))
    have hr := hs.readable
    refine fields_reads ?_
    refine bind_reads (opt_reads fun x hx => ?_) fun _ => ?_
    · have h := valid_property (valid_part h (.tail _ (.tail _ (.head _)))) (.head _) hx
      have hs := hs.member hx
      refine items_reads (valid_part h (.head _)) (valid_part h (.tail _ (.head _))) hs fun l el y hy h hs => ?_
      exact v15_performanceMetric_PerformanceMetric (v15_ref_performanceMetric h) hs
    refine bind_reads (opt_reads fun x hx => ?_) fun _ => ?_
    · have h := valid_property (valid_part h (.tail _ (.tail _ (.head _)))) (.tail _ (.head _)) hx
      have hs := hs.member hx
      exact v15_graphicsCollection_GraphicsCollection (v15_ref_graphicsCollection h) hs
    exact ⟨_, rfl⟩
  refine bind_reads (opt_reads fun x hx => ?_) fun _ => ?_
  · have h := valid_property (valid_part h (.tail _ (.tail _ (.head _)))) (.tail _ (.tail _ (.tail _ (.head _)))) hx
    have hs := hs.member hx
    obtain ⟨o, rfl⟩ := type_object (valid_part h (.head _))
    exact ⟨_, rfl⟩
  refine bind_reads (opt_reads fun x hx => ?_) fun _ => ?_
  · have h := valid_property (valid_part h (.tail _ (.tail _ (.head _)))) (.tail _ (.tail _ (.tail _ (.tail _ (.head _))))) hx
    have hs := hs.member hx
    refine items_reads (valid_part h (.head _)) (valid_part h (.tail _ (.head _))) hs fun l el y hy h hs => ?_
    exact v15_property_Property (v15_ref_property h) hs (hr.named _ (el ▸ hx) _ hy)
  exact ⟨_, rfl⟩

theorem v15_component_Component_n (n : Nat) : ∀ {j : Json}, Valid (schemaContext F .v1_5) Schema15.component j → Sane n j →
    CanRead (Component.ofJsonN .v1_5 n) j := by
  induction n with
  | zero =>
    intro j h hs
    obtain ⟨o, rfl⟩ := type_object (valid_part h (.head _))
    cases hs.within
  | succ n ih =>
    intro j h hs
    show CanRead (Component.ofJsonWith (Component.ofJsonN .v1_5 n) .v1_5) j
    obtain ⟨o, rfl⟩ := type_object (valid_part h (.head _))
    have hr := hs.readable
    have hreq := (valid_part h (.tail _ (.head _)))
    refine fields_reads ?_
    refine bind_reads (req_reads (valid_required hreq (by simp)) fun x hx => ?_) fun _ => ?_
    · have h := valid_property (valid_part h (.tail _ (.tail _ (.tail _ (.head _))))) (.head _) hx
      have hs := hs.down hx
      exact enum_reads (type_string (valid_part h (.head _)))
    refine bind_reads (opt_reads fun x hx => ?_) fun _ => ?_
    · have h := valid_property (valid_part h (.tail _ (.tail _ (.tail _ (.head _))))) (.tail _ (.head _)) hx
      have hs := hs.down hx
      exact string_reads (type_string (valid_part h (.head _)))
    refine bind_reads (opt_reads fun x hx => ?_) fun _ => ?_
    · have h := valid_property (valid_part h (.tail _ (.tail _ (.tail _ (.head _))))) (.tail _ (.tail _ (.head _))) hx
      have hs := hs.down hx
      exact string_reads (type_string (valid_part (v15_ref_refType h) (.head _)))
    refine bind_reads (opt_reads fun x hx => ?_) fun _ => ?_
    · have h := valid_property (valid_part h (.tail _ (.tail _ (.tail _ (.head _))))) (.tail _ (.tail _ (.tail _ (.head _)))) hx
      have hs := hs.down hx
      exact v15_organizationalEntity_OrganizationalEntity (v15_ref_organizationalEntity h) hs
    refine bind_reads (opt_reads fun x hx => ?_) fun _ => ?_
    · have h := valid_property (valid_part h (.tail _ (.tail _ (.tail _ (.head _))))) (.tail _ (.tail _ (.tail _ (.tail _ (.head _))))) hx
      have hs := hs.down hx
      exact string_reads (type_string h)
    refine bind_reads (opt_reads fun x hx => ?_) fun _ => ?_
    · have h := valid_property (valid_part h (.tail _ (.tail _ (.tail _ (.head _))))) (.tail _ (.tail _ (.tail _ (.tail _ (.tail _ (.head _)))))) hx
      have hs := hs.down hx
      exact string_reads (type_string h)
    refine bind_reads (opt_reads fun x hx => ?_) fun _ => ?_
    · have h := valid_property (valid_part h (.tail _ (.tail _ (.tail _ (.head _))))) (.tail _ (.tail _ (.tail _ (.tail _ (.tail _ (.tail _ (.head _))))))) hx
      have hs := hs.down hx
      exact string_reads (type_string h)
    refine bind_reads (req_reads (valid_required hreq (by simp)) fun x hx => ?_) fun _ => ?_
    · have h := valid_property (valid_part h (.tail _ (.tail _ (.tail _ (.head _))))) (.tail _ (.tail _ (.tail _ (.tail _ (.tail _ (.tail _ (.tail _ (.head _)))))))) hx
      have hs := hs.down hx
      exact string_reads (type_string h)
    refine bind_reads (opt_reads fun x hx => ?_) fun _ => ?_
    · have h := valid_property (valid_part h (.tail _ (.tail _ (.tail _ (.head _))))) (.tail _ (.tail _ (.tail _ (.tail _ (.tail _ (.tail _ (.tail _ (.tail _ (.head _))))))))) hx
      have hs := hs.down hx
      exact string_reads (type_string h)
    refine bind_reads (opt_reads fun x hx => ?_) fun _ => ?_
    · have h := valid_property (valid_part h (.tail _ (.tail _ (.tail _ (.head _))))) (.tail _ (.tail _ (.tail _ (.tail _ (.tail _ (.tail _ (.tail _ (.tail _ (.tail _ (.head _)))))))))) hx
      have hs := hs.down hx
      exact string_reads (type_string h)
    refine bind_reads (opt_reads fun x hx => ?_) fun _ => ?_
    · have h := valid_property (valid_part h (.tail _ (.tail _ (.tail _ (.head _))))) (.tail _ (.tail _ (.tail _ (.tail _ (.tail _ (.tail _ (.tail _ (.tail _ (.tail _ (.tail _ (.head _))))))))))) hx
      have hs := hs.down hx
      exact enum_reads (type_string (valid_part h (.head _)))
    refine bind_reads (opt_reads fun x hx => ?_) fun _ => ?_
    · have h := valid_property (valid_part h (.tail _ (.tail _ (.tail _ (.head _))))) (.tail _ (.tail _ (.tail _ (.tail _ (.tail _ (.tail _ (.tail _ (.tail _ (.tail _ (.tail _ (.tail _ (.head _)))))))))))) hx
      have hs := hs.down hx
      refine items_reads (valid_part h (.head _)) (valid_part h (.tail _ (.head _))) hs fun l el y hy h hs => ?_
      exact v15_hash_Hash (v15_ref_hash h) hs
    refine bind_reads (opt_reads fun x hx => ?_) fun _ => ?_
    · have h := valid_property (valid_part h (.tail _ (.tail _ (.tail _ (.head _))))) (.tail _ (.tail _ (.tail _ (.tail _ (.tail _ (.tail _ (.tail _ (.tail _ (.tail _ (.tail _ (.tail _ (.tail _ (.head _))))))))))))) hx
      have hs := hs.down hx
      exact v15_licenseChoice_Licenses (v15_ref_licenseChoice h) hs
    refine bind_reads (opt_reads fun x hx => ?_) fun _ => ?_
    · have h := valid_property (valid_part h (.tail _ (.tail _ (.tail _ (.head _))))) (.tail _ (.tail _ (.tail _ (.tail _ (.tail _ (.tail _ (.tail _ (.tail _ (.tail _ (.tail _ (.tail _ (.tail _ (.tail _ (.head _)))))))))))))) hx
      have hs := hs.down hx
      exact string_reads (type_string h)
    refine bind_reads (opt_reads fun x hx => ?_) fun _ => ?_
    · have h := valid_property (valid_part h (.tail _ (.tail _ (.tail _ (.head _))))) (.tail _ (.tail _ (.tail _ (.tail _ (.tail _ (.tail _ (.tail _ (.tail _ (.tail _ (.tail _ (.tail _ (.tail _ (.tail _ (.tail _ (.head _))))))))))))))) hx
      have hs := hs.down hx
      exact string_reads (type_string h)
    refine bind_reads (opt_reads fun x hx => ?_) fun _ => ?_
    · have h := valid_property (valid_part h (.tail _ (.tail _ (.tail _ (.head _))))) (.tail _ (.tail _ (.tail _ (.tail _ (.tail _ (.tail _ (.tail _ (.tail _ (.tail _ (.tail _ (.tail _ (.tail _ (.tail _ (.tail _ (.tail _ (.head _)))))))))))))))) hx
      have hs := hs.down hx
      exact string_reads (type_string h)
    refine bind_reads (opt_reads fun x hx => ?_) fun _ => ?_
    · have h := valid_property (valid_part h (.tail _ (.tail _ (.tail _ (.head _))))) (.tail _ (.tail _ (.tail _ (.tail _ (.tail _ (.tail _ (.tail _ (.tail _ (.tail _ (.tail _ (.tail _ (.tail _ (.tail _ (.tail _ (.tail _ (.tail _ (.head _))))))))))))))))) hx
      have hs := hs.down hx
      exact v15_swid_Swid (v15_ref_swid h) hs
    refine bind_reads (opt_reads fun x hx => ?_) fun _ => ?_
    · have h := valid_property (valid_part h (.tail _ (.tail _ (.tail _ (.head _))))) (.tail _ (.tail _ (.tail _ (.tail _ (.tail _ (.tail _ (.tail _ (.tail _ (.tail _ (.tail _ (.tail _ (.tail _ (.tail _ (.tail _ (.tail _ (.tail _ (.tail _ (.head _)))))))))))))))))) hx
      have hs := hs.down hx
      exact boolean_reads h
    refine bind_reads (opt_reads fun x hx => ?_) fun _ => ?_
    · have h := valid_property (valid_part h (.tail _ (.tail _ (.tail _ (.head _))))) (.tail _ (.tail _ (.tail _ (.tail _ (.tail _ (.tail _ (.tail _ (.tail _ (.tail _ (.tail _ (.tail _ (.tail _ (.tail _ (.tail _ (.tail _ (.tail _ (.tail _ (.tail _ (.head _))))))))))))))))))) hx
      have hs := hs.down hx
      obtain ⟨o, rfl⟩ := type_object (valid_part h (.head _))
      have hr := hs.readable
      refine fields_reads ?_
      refine bind_reads (opt_reads fun x hx => ?_) fun _ => ?_
      · have h := valid_property (valid_part h (.tail _ (.tail _ (.head _)))) (.head _) hx
        have hs := hs.member hx
        refine items_reads (valid_part h (.head _)) (valid_part h (.tail _ (.head _))) hs fun l el y hy h hs => ?_
        exact ih (v15_ref_component h) hs
      refine bind_reads (opt_reads fun x hx => ?_) fun _ => ?_
      · have h := valid_property (valid_part h (.tail _ (.tail _ (.head _)))) (.tail _ (.head _)) hx
        have hs := hs.member hx
        refine items_reads (valid_part h (.head _)) (valid_part h (.tail _ (.head _))) hs fun l el y hy h hs => ?_
        exact ih (v15_ref_component h) hs
      refine bind_reads (opt_reads fun x hx => ?_) fun _ => ?_
      · have h := valid_property (valid_part h (.tail _ (.tail _ (.head _)))) (.tail _ (.tail _ (.head _))) hx
        have hs := hs.member hx
        refine items_reads (valid_part h (.head _)) (valid_part h (.tail _ (.head _))) hs fun l el y hy h hs => ?_
        exact ih (v15_ref_component h) hs
      refine bind_reads (opt_reads fun x hx => ?_) fun _ => ?_
      · have h := valid_property (valid_part h (.tail _ (.tail _ (.head _)))) (.tail _ (.tail _ (.tail _ (.head _)))) hx
        have hs := hs.member hx
        refine items_reads (valid_part h (.head _)) (valid_part h (.tail _ (.head _))) hs fun l el y hy h hs => ?_
        exact v15_commit_Commit (v15_ref_commit h) hs
      refine bind_reads (opt_reads fun x hx => ?_) fun _ => ?_
      · have h := valid_property (valid_part h (.tail _ (.tail _ (.head _)))) (.tail _ (.tail _ (.tail _ (.tail _ (.head _))))) hx
        have hs := hs.member hx
        refine items_reads (valid_part h (.head _)) (valid_part h (.tail _ (.head _))) hs fun l el y hy h hs => ?_
        exact v15_patch_Patch (v15_ref_patch h) hs
      refine bind_reads (opt_reads fun x hx => ?_) fun _ => ?_
      · have h := valid_property (valid_part h (.tail _ (.tail _ (.head _)))) (.tail _ (.tail _ (.tail _ (.tail _ (.tail _ (.head _)))))) hx
        have hs := hs.member hx
        exact string_reads (type_string h)
      exact ⟨_, rfl⟩
    refine bind_reads (opt_reads fun x hx => ?_) fun _ => ?_
    · have h := valid_property (valid_part h (.tail _ (.tail _ (.tail _ (.head _))))) (.tail _ (.tail _ (.tail _ (.tail _ (.tail _ (.tail _ (.tail _ (.tail _ (.tail _ (.tail _ (.tail _ (.tail _ (.tail _ (.tail _ (.tail _ (.tail _ (.tail _ (.tail _ (.tail _ (.head _)))))))))))))))))))) hx
      have hs := hs.down hx
      refine items_reads (valid_part h (.head _)) (valid_part h (.tail _ (.head _))) hs fun l el y hy h hs => ?_
      exact v15_externalReference_ExternalReference (v15_ref_externalReference h) hs
    refine bind_reads (opt_reads fun x hx => ?_) fun _ => ?_
    · have h := valid_property (valid_part h (.tail _ (.tail _ (.tail _ (.head _))))) (.tail _ (.tail _ (.tail _ (.tail _ (.tail _ (.tail _ (.tail _ (.tail _ (.tail _ (.tail _ (.tail _ (.tail _ (.tail _ (.tail _ (.tail _ (.tail _ (.tail _ (.tail _ (.tail _ (.tail _ (.tail _ (.tail _ (.tail _ (.tail _ (.tail _ (.head _)))))))))))))))))))))))))) hx
      have hs := hs.down hx
      refine items_reads (valid_part h (.head _)) (valid_part h (.tail _ (.head _))) hs fun l el y hy h hs => ?_
      exact v15_property_Property (v15_ref_property h) hs (hr.named _ (el ▸ hx) _ hy)
    refine bind_reads (opt_reads fun x hx => ?_) fun _ => ?_
    · have h := valid_property (valid_part h (.tail _ (.tail _ (.tail _ (.head _))))) (.tail _ (.tail _ (.tail _ (.tail _ (.tail _ (.tail _ (.tail _ (.tail _ (.tail _ (.tail _ (.tail _ (.tail _ (.tail _ (.tail _ (.tail _ (.tail _ (.tail _ (.tail _ (.tail _ (.tail _ (.head _))))))))))))))))))))) hx
      have hs := hs.down hx
      refine items_reads (valid_part h (.head _)) (valid_part h (.tail _ (.tail _ (.head _)))) hs fun l el y hy h hs => ?_
      exact ih (v15_ref_component h) hs
    refine bind_reads (opt_reads fun x hx => ?_) fun _ => ?_
    · have h := valid_property (valid_part h (.tail _ (.tail _ (.tail _ (.head _))))) (.tail _ (.tail _ (.tail _ (.tail _ (.tail _ (.tail _ (.tail _ (.tail _ (.tail _ (.tail _ (.tail _ (.tail _ (.tail _ (.tail _ (.tail _ (.tail _ (.tail _ (.tail _ (.tail _ (.tail _ (.tail _ (.head _)))))))))))))))))))))) hx
      have hs := hs.down hx
      exact v15_componentEvidence_ComponentEvidence (v15_ref_componentEvidence h) hs
    refine bind_reads (opt_reads fun x hx => ?_) fun _ => ?_
    · have h := valid_property (valid_part h (.tail _ (.tail _ (.tail _ (.head _))))) (.tail _ (.tail _ (.tail _ (.tail _ (.tail _ (.tail _ (.tail _ (.tail _ (.tail _ (.tail _ (.tail _ (.tail _ (.tail _ (.tail _ (.tail _ (.tail _ (.tail _ (.tail _ (.tail _ (.tail _ (.tail _ (.tail _ (.tail _ (.tail _ (.tail _ (.tail _ (.head _))))))))))))))))))))))))))) hx
      have hs := hs.down hx
      replace h := (v15_ref_signature h)
      exact signature_reads (v15_ref_jsf_signature h) hs (hr.signature _ hx)
    refine bind_reads (opt_reads fun x hx => ?_) fun _ => ?_
    · have h := valid_property (valid_part h (.tail _ (.tail _ (.tail _ (.head _))))) (.tail _ (.tail _ (.tail _ (.tail _ (.tail _ (.tail _ (.tail _ (.tail _ (.tail _ (.tail _ (.tail _ (.tail _ (.tail _ (.tail _ (.tail _ (.tail _ (.tail _ (.tail _ (.tail _ (.tail _ (.tail _ (.tail _ (.tail _ (.head _)))))))))))))))))))))))) hx
      have hs := hs.down hx
      exact v15_modelCard_ModelCard (v15_ref_modelCard h) hs
    refine bind_reads (opt_reads fun x hx => ?_) fun _ => ?_
    · have h := valid_property (valid_part h (.tail _ (.tail _ (.tail _ (.head _))))) (.tail _ (.tail _ (.tail _ (.tail _ (.tail _ (.tail _ (.tail _ (.tail _ (.tail _ (.tail _ (.tail _ (.tail _ (.tail _ (.tail _ (.tail _ (.tail _ (.tail _ (.tail _ (.tail _ (.tail _ (.tail _ (.tail _ (.tail _ (.tail _ (.head _))))))))))))))))))))))))) hx
      have hs := hs.down hx
      obtain ⟨l, rfl⟩ := type_array (valid_part h (.head _))
      exact absurd hx (hr.data ⟨_, _, rfl, (valid_required hreq (by simp : "type" ∈ _)).choose_spec⟩ l)
    exact ⟨_, rfl⟩

theorem v15_component_Component {j : Json} (h : Valid (schemaContext F .v1_5) Schema15.component j) (hs : Sane ReadLimit.limit j) :
    CanRead (Component.ofJson .v1_5) j := v15_component_Component_n _ h hs

theorem v15_metadata_Metadata {j : Json} (h : Valid (schemaContext F .v1_5) Schema15.metadata j) (hs : Sane ReadLimit.limit j) :
    CanRead (Metadata.ofJson .v1_5) j := by
  obtain ⟨o, rfl⟩ := type_object (valid_part h (.head _))
  have hr := hs.readable
  refine fields_reads ?_
  refine bind_reads (opt_reads fun x hx => ?_) fun _ => ?_
  · have h := valid_property (valid_part h (.tail _ (.tail _ (.head _)))) (.head _) hx
    have hs := hs.member hx
    exact string_reads (type_string (valid_part h (.head _)))
  refine bind_reads (opt_reads fun x hx => ?_) fun _ => ?_
  · have h := valid_property (valid_part h (.tail _ (.tail _ (.head _)))) (.tail _ (.tail _ (.head _))) hx
    have hs := hs.member hx
    rcases oneOf_two h with h | h
    · have ho : CanRead (Tools.objectOfJson .v1_5) x := by
        obtain ⟨o, rfl⟩ := type_object (valid_part h (.head _))
        have hr := hs.readable
        refine fields_reads ?_
        refine bind_reads (opt_reads fun x hx => ?_) fun _ => ?_
        · have h := valid_property (valid_part h (.tail _ (.tail _ (.head _)))) (.tail _ (.head _)) hx
          have hs := hs.member hx
          refine items_reads (valid_part h (.head _)) (valid_part h (.tail _ (.tail _ (.head _)))) hs fun l el y hy h hs => ?_
          exact v15_service_Service (v15_ref_service h) hs
        refine bind_reads (opt_reads fun x hx => ?_) fun _ => ?_
        · have h := valid_property (valid_part h (.tail _ (.tail _ (.head _)))) (.head _) hx
          have hs := hs.member hx
          refine items_reads (valid_part h (.head _)) (valid_part h (.tail _ (.tail _ (.head _)))) hs fun l el y hy h hs => ?_
          exact v15_component_Component (v15_ref_component h) hs
        exact ⟨_, rfl⟩
      obtain ⟨z, hz⟩ := ho
      unfold CanRead Tools.ofJson
      split
      · exact ⟨_, rfl⟩
      · exact ⟨z, hz⟩
    · have hl : CanRead (Json.array (Tool.ofJson .v1_5)) _ := items_reads (valid_part h (.head _)) (valid_part h (.tail _ (.head _))) hs fun l el y hy h hs => v15_tool_Tool (v15_ref_tool h) hs
      obtain ⟨z, hz⟩ := hl
      exact ⟨.list z, by simp only [Tools.ofJson, hz]⟩
  refine bind_reads (opt_reads fun x hx => ?_) fun _ => ?_
  · have h := valid_property (valid_part h (.tail _ (.tail _ (.head _)))) (.tail _ (.tail _ (.tail _ (.head _)))) hx
    have hs := hs.member hx
    refine items_reads (valid_part h (.head _)) (valid_part h (.tail _ (.head _))) hs fun l el y hy h hs => ?_
    exact v15_organizationalContact_OrganizationalContact (v15_ref_organizationalContact h) hs
  refine bind_reads (opt_reads fun x hx => ?_) fun _ => ?_
  · have h := valid_property (valid_part h (.tail _ (.tail _ (.head _)))) (.tail _ (.tail _ (.tail _ (.tail _ (.head _))))) hx
    have hs := hs.member hx
    exact v15_component_Component (v15_ref_component h) hs
  refine bind_reads (opt_reads fun x hx => ?_) fun _ => ?_
  · have h := valid_property (valid_part h (.tail _ (.tail _ (.head _)))) (.tail _ (.tail _ (.tail _ (.tail _ (.tail _ (.head _)))))) hx
    have hs := hs.member hx
    exact v15_organizationalEntity_OrganizationalEntity (v15_ref_organizationalEntity h) hs
  refine bind_reads (opt_reads fun x hx => ?_) fun _ => ?_
  · have h := valid_property (valid_part h (.tail _ (.tail _ (.head _)))) (.tail _ (.tail _ (.tail _ (.tail _ (.tail _ (.tail _ (.head _))))))) hx
    have hs := hs.member hx
    exact v15_organizationalEntity_OrganizationalEntity (v15_ref_organizationalEntity h) hs
  refine bind_reads (opt_reads fun x hx => ?_) fun _ => ?_
  · have h := valid_property (valid_part h (.tail _ (.tail _ (.head _)))) (.tail _ (.tail _ (.tail _ (.tail _ (.tail _ (.tail _ (.tail _ (.head _)))))))) hx
    have hs := hs.member hx
    exact v15_licenseChoice_Licenses (v15_ref_licenseChoice h) hs
  refine bind_reads (opt_reads fun x hx => ?_) fun _ => ?_
  · have h := valid_property (valid_part h (.tail _ (.tail _ (.head _)))) (.tail _ (.tail _ (.tail _ (.tail _ (.tail _ (.tail _ (.tail _ (.tail _ (.head _))))))))) hx
    have hs := hs.member hx
    refine items_reads (valid_part h (.head _)) (valid_part h (.tail _ (.head _))) hs fun l el y hy h hs => ?_
    exact v15_property_Property (v15_ref_property h) hs (hr.named _ (el ▸ hx) _ hy)
  refine bind_reads (opt_reads fun x hx => ?_) fun _ => ?_
  · have h := valid_property (valid_part h (.tail _ (.tail _ (.head _)))) (.tail _ (.head _)) hx
    have hs := hs.member hx
    refine items_reads (valid_part h (.head _)) (valid_part h (.tail _ (.head _))) hs fun l el y hy h hs => ?_
    obtain ⟨o, rfl⟩ := type_object (valid_part h (.head _))
    rcases oneOf_two (valid_part h (.tail _ (.head _))) with h | h
    · obtain ⟨z, hz⟩ := valid_required (valid_part h (.head _)) (by simp : "phase" ∈ _)
      have e := one_member hs.nodup hz fun k' w hw => by
        have := valid_closed (valid_part h (.tail _ (.head _))) hw
        simpa using this
      obtain ⟨s, rfl⟩ := (type_string (valid_part (valid_property (valid_part h (.tail _ (.tail _ (.head _)))) (.head _) hz) (.head _)))
      subst e
      exact ⟨.phase (Phase.new s), rfl⟩
    · have hd : CanRead LifecycleDescription.ofJson (.obj o) := by
        have hr := hs.readable
        have hreq := (valid_part h (.head _))
        refine fields_reads ?_
        refine bind_reads (req_reads (valid_required hreq (by simp)) fun x hx => ?_) fun _ => ?_
        · have h := valid_property (valid_part h (.tail _ (.tail _ (.head _)))) (.head _) hx
          have hs := hs.member hx
          exact string_reads (type_string h)
        refine bind_reads (opt_reads fun x hx => ?_) fun _ => ?_
        · have h := valid_property (valid_part h (.tail _ (.tail _ (.head _)))) (.tail _ (.head _)) hx
          have hs := hs.member hx
          exact string_reads (type_string h)
        exact ⟨_, rfl⟩
      obtain ⟨z, hz⟩ := hd
      unfold CanRead Lifecycle.ofJson
      split
      · exact ⟨_, rfl⟩
      · exact ⟨_, by rw [hz]; rfl⟩
  exact ⟨_, rfl⟩

theorem v15_dependency_Dependency {n : Nat} {j : Json} (h : Valid (schemaContext F .v1_5) Schema15.dependency j) (hs : Sane n j) :
    CanRead (Dependency.ofJson) j := by
  obtain ⟨o, rfl⟩ := type_object (valid_part h (.head _))
  have hr := hs.readable
  have hreq := (valid_part h (.tail _ (.head _)))
  refine fields_reads ?_
  refine bind_reads (req_reads (valid_required hreq (by simp)) fun x hx => ?_) fun _ => ?_
  · have h := valid_property (valid_part h (.tail _ (.tail _ (.tail _ (.head _))))) (.head _) hx
    have hs := hs.member hx
    exact string_reads (type_string (valid_part (v15_ref_refType (valid_part (v15_ref_refLinkType h) (.head _))) (.head _)))
  refine bind_reads (orEmpty_reads fun x hx => ?_) fun _ => ?_
  · have h := valid_property (valid_part h (.tail _ (.tail _ (.tail _ (.head _))))) (.tail _ (.head _)) hx
    have hs := hs.member hx
    refine items_reads (valid_part h (.head _)) (valid_part h (.tail _ (.tail _ (.head _)))) hs fun l el y hy h hs => ?_
    exact string_reads (type_string (valid_part (v15_ref_refType (valid_part (v15_ref_refLinkType h) (.head _))) (.head _)))
  exact ⟨_, rfl⟩

theorem v15_compositions_Composition {n : Nat} {j : Json} (h : Valid (schemaContext F .v1_5) Schema15.compositions j) (hs : Sane n j) :
    CanRead (Composition.ofJson .v1_5) j := by
  obtain ⟨o, rfl⟩ := type_object (valid_part h (.head _))
  have hr := hs.readable
  have hreq := (valid_part h (.tail _ (.head _)))
  refine fields_reads ?_
  refine bind_reads (opt_reads fun x hx => ?_) fun _ => ?_
  · have := valid_closed (valid_part h (.tail _ (.tail _ (.head _)))) hx
    simp at this
  refine bind_reads (req_reads (valid_required hreq (by simp)) fun x hx => ?_) fun _ => ?_
  · have h := valid_property (valid_part h (.tail _ (.tail _ (.tail _ (.head _))))) (.tail _ (.head _)) hx
    have hs := hs.member hx
    exact enum_reads (type_string (valid_part (v15_ref_aggregateType h) (.head _)))
  refine bind_reads (opt_reads fun x hx => ?_) fun _ => ?_
  · have h := valid_property (valid_part h (.tail _ (.tail _ (.tail _ (.head _))))) (.tail _ (.tail _ (.head _))) hx
    have hs := hs.member hx
    refine items_reads (valid_part h (.head _)) (valid_part h (.tail _ (.tail _ (.head _)))) hs fun l el y hy h hs => ?_
    exact string_reads ((anyOf_two h).elim (fun h => (type_string (valid_part (v15_ref_refType (valid_part (v15_ref_refLinkType h) (.head _))) (.head _)))) (fun h => (type_string (valid_part (v15_ref_bomLinkElementType h) (.head _)))))
  refine bind_reads (opt_reads fun x hx => ?_) fun _ => ?_
  · have h := valid_property (valid_part h (.tail _ (.tail _ (.tail _ (.head _))))) (.tail _ (.tail _ (.tail _ (.head _)))) hx
    have hs := hs.member hx
    refine items_reads (valid_part h (.head _)) (valid_part h (.tail _ (.tail _ (.head _)))) hs fun l el y hy h hs => ?_
    exact string_reads (type_string h)
  refine bind_reads (opt_reads fun x hx => ?_) fun _ => ?_
  · have h := valid_property (valid_part h (.tail _ (.tail _ (.tail _ (.head _))))) (.tail _ (.tail _ (.tail _ (.tail _ (.head _))))) hx
    have hs := hs.member hx
    refine items_reads (valid_part h (.head _)) (valid_part h (.tail _ (.tail _ (.head _)))) hs fun l el y hy h hs => ?_
    exact string_reads (type_string h)
  refine bind_reads (opt_reads fun x hx => ?_) fun _ => ?_
  · have h := valid_property (valid_part h (.tail _ (.tail _ (.tail _ (.head _))))) (.tail _ (.tail _ (.tail _ (.tail _ (.tail _ (.head _)))))) hx
    have hs := hs.member hx
    replace h := (v15_ref_signature h)
    exact signature_reads (v15_ref_jsf_signature h) hs (hr.signature _ hx)
  exact ⟨_, rfl⟩

theorem v15_vulnerabilitySource_VulnerabilitySource {n : Nat} {j : Json} (h : Valid (schemaContext F .v1_5) Schema15.vulnerabilitySource j) (hs : Sane n j) :
    CanRead (VulnerabilitySource.ofJson) j := by
  obtain ⟨o, rfl⟩ := type_object (valid_part h (.head _))
  have hr := hs.readable
  refine fields_reads ?_
  refine bind_reads (opt_reads fun x hx => ?_) fun _ => ?_
  · have h := valid_property (valid_part h (.tail _ (.tail _ (.head _)))) (.tail _ (.head _)) hx
    have hs := hs.member hx
    exact string_reads (type_string h)
  refine bind_reads (opt_reads fun x hx => ?_) fun _ => ?_
  · have h := valid_property (valid_part h (.tail _ (.tail _ (.head _)))) (.head _) hx
    have hs := hs.member hx
    exact string_reads (type_string h)
  exact ⟨_, rfl⟩

theorem v15_rating_VulnerabilityRating {n : Nat} {j : Json} (h : Valid (schemaContext F .v1_5) Schema15.rating j) (hs : Sane n j) :
    CanRead (VulnerabilityRating.ofJson) j := by
  obtain ⟨o, rfl⟩ := type_object (valid_part h (.head _))
  have hr := hs.readable
  refine fields_reads ?_
  refine bind_reads (opt_reads fun x hx => ?_) fun _ => ?_
  · have h := valid_property (valid_part h (.tail _ (.tail _ (.head _)))) (.head _) hx
    have hs := hs.member hx
    exact v15_vulnerabilitySource_VulnerabilitySource (v15_ref_vulnerabilitySource h) hs
  refine bind_reads (opt_reads fun x hx => ?_) fun _ => ?_
  · have h := valid_property (valid_part h (.tail _ (.tail _ (.head _)))) (.tail _ (.head _)) hx
    have hs := hs.member hx
    exact f32_reads (type_number h) (fun e => hr.numbers _ (e ▸ hx))
  refine bind_reads (opt_reads fun x hx => ?_) fun _ => ?_
  · have h := valid_property (valid_part h (.tail _ (.tail _ (.head _)))) (.tail _ (.tail _ (.head _))) hx
    have hs := hs.member hx
    exact enum_reads (type_string (valid_part (v15_ref_severity h) (.head _)))
  refine bind_reads (opt_reads fun x hx => ?_) fun _ => ?_
  · have h := valid_property (valid_part h (.tail _ (.tail _ (.head _)))) (.tail _ (.tail _ (.tail _ (.head _)))) hx
    have hs := hs.member hx
    exact enum_reads (type_string (valid_part (v15_ref_scoreMethod h) (.head _)))
  refine bind_reads (opt_reads fun x hx => ?_) fun _ => ?_
  · have h := valid_property (valid_part h (.tail _ (.tail _ (.head _)))) (.tail _ (.tail _ (.tail _ (.tail _ (.head _))))) hx
    have hs := hs.member hx
    exact string_reads (type_string h)
  refine bind_reads (opt_reads fun x hx => ?_) fun _ => ?_
  · have h := valid_property (valid_part h (.tail _ (.tail _ (.head _)))) (.tail _ (.tail _ (.tail _ (.tail _ (.tail _ (.head _)))))) hx
    have hs := hs.member hx
    exact string_reads (type_string h)
  exact ⟨_, rfl⟩

theorem v15_advisory_Advisory {n : Nat} {j : Json} (h : Valid (schemaContext F .v1_5) Schema15.advisory j) (hs : Sane n j) :
    CanRead (Advisory.ofJson) j := by
  obtain ⟨o, rfl⟩ := type_object (valid_part h (.head _))
  have hr := hs.readable
  have hreq := (valid_part h (.tail _ (.head _)))
  refine fields_reads ?_
  refine bind_reads (opt_reads fun x hx => ?_) fun _ => ?_
  · have h := valid_property (valid_part h (.tail _ (.tail _ (.tail _ (.head _))))) (.head _) hx
    have hs := hs.member hx
    exact string_reads (type_string h)
  refine bind_reads (req_reads (valid_required hreq (by simp)) fun x hx => ?_) fun _ => ?_
  · have h := valid_property (valid_part h (.tail _ (.tail _ (.tail _ (.head _))))) (.tail _ (.head _)) hx
    have hs := hs.member hx
    exact string_reads (type_string (valid_part h (.head _)))
  exact ⟨_, rfl⟩

theorem v15_vulnerability_Vulnerability {j : Json} (h : Valid (schemaContext F .v1_5) Schema15.vulnerability j) (hs : Sane ReadLimit.limit j) :
    CanRead (Vulnerability.ofJson .v1_5) j := by
  obtain ⟨o, rfl⟩ := type_object (valid_part h (.head _))
  have hr := hs.readable
  have hnotype : ¬ Has "type" (.obj o) := fun ⟨_, _, e, m⟩ => by
    cases e
    have := valid_closed (valid_part h (.tail _ (.head _))) m
    simp at this
  refine fields_reads ?_
  refine bind_reads (opt_reads fun x hx => ?_) fun _ => ?_
  · have h := valid_property (valid_part h (.tail _ (.tail _ (.head _)))) (.head _) hx
    have hs := hs.member hx
    exact string_reads (type_string (valid_part (v15_ref_refType h) (.head _)))
  refine bind_reads (opt_reads fun x hx => ?_) fun _ => ?_
  · have h := valid_property (valid_part h (.tail _ (.tail _ (.head _)))) (.tail _ (.head _)) hx
    have hs := hs.member hx
    exact string_reads (type_string h)
  refine bind_reads (opt_reads fun x hx => ?_) fun _ => ?_
  · have h := valid_property (valid_part h (.tail _ (.tail _ (.head _)))) (.tail _ (.tail _ (.head _))) hx
    have hs := hs.member hx
    exact v15_vulnerabilitySource_VulnerabilitySource (v15_ref_vulnerabilitySource h) hs
  refine bind_reads (opt_reads fun x hx => ?_) fun _ => ?_
  · have h := valid_property (valid_part h (.tail _ (.tail _ (.head _)))) (.tail _ (.tail _ (.tail _ (.head _)))) hx
    have hs := hs.member hx
    refine items_reads (valid_part h (.head _)) (valid_part h (.tail _ (.head _))) hs fun l el y hy h hs => ?_
    obtain ⟨o, rfl⟩ := type_object (valid_part h (.head _))
    have hr := hs.readable
    have hreq := (valid_part h (.tail _ (.head _)))
    refine fields_reads ?_
    refine bind_reads (req_reads (valid_required hreq (by simp)) fun x hx => ?_) fun _ => ?_
    · have h := valid_property (valid_part h (.tail _ (.tail _ (.tail _ (.head _))))) (.head _) hx
      have hs := hs.member hx
      exact string_reads (type_string h)
    refine bind_reads (req_reads (valid_required hreq (by simp)) fun x hx => ?_) fun _ => ?_
    · have h := valid_property (valid_part h (.tail _ (.tail _ (.tail _ (.head _))))) (.tail _ (.head _)) hx
      have hs := hs.member hx
      exact v15_vulnerabilitySource_VulnerabilitySource (v15_ref_vulnerabilitySource h) hs
    exact ⟨_, rfl⟩
  refine bind_reads (opt_reads fun x hx => ?_) fun _ => ?_
  · have h := valid_property (valid_part h (.tail _ (.tail _ (.head _)))) (.tail _ (.tail _ (.tail _ (.tail _ (.head _))))) hx
    have hs := hs.member hx
    refine items_reads (valid_part h (.head _)) (valid_part h (.tail _ (.head _))) hs fun l el y hy h hs => ?_
    exact v15_rating_VulnerabilityRating (v15_ref_rating h) hs
  refine bind_reads (opt_reads fun x hx => ?_) fun _ => ?_
  · have h := valid_property (valid_part h (.tail _ (.tail _ (.head _)))) (.tail _ (.tail _ (.tail _ (.tail _ (.tail _ (.head _)))))) hx
    have hs := hs.member hx
    refine items_reads (valid_part h (.head _)) (valid_part h (.tail _ (.head _))) hs fun l el y hy h hs => ?_
    exact u32_reads (hr.cwes _ (el ▸ hx) _ hy)
  refine bind_reads (opt_reads fun x hx => ?_) fun _ => ?_
  · have h := valid_property (valid_part h (.tail _ (.tail _ (.head _)))) (.tail _ (.tail _ (.tail _ (.tail _ (.tail _ (.tail _ (.head _))))))) hx
    have hs := hs.member hx
    exact string_reads (type_string h)
  refine bind_reads (opt_reads fun x hx => ?_) fun _ => ?_
  · have h := valid_property (valid_part h (.tail _ (.tail _ (.head _)))) (.tail _ (.tail _ (.tail _ (.tail _ (.tail _ (.tail _ (.tail _ (.head _)))))))) hx
    have hs := hs.member hx
    exact string_reads (type_string h)
  refine bind_reads (opt_reads fun x hx => ?_) fun _ => ?_
  · have h := valid_property (valid_part h (.tail _ (.tail _ (.head _)))) (.tail _ (.tail _ (.tail _ (.tail _ (.tail _ (.tail _ (.tail _ (.tail _ (.head _))))))))) hx
    have hs := hs.member hx
    exact string_reads (type_string h)
  refine bind_reads (opt_reads fun x hx => ?_) fun _ => ?_
  · have h := valid_property (valid_part h (.tail _ (.tail _ (.head _)))) (.tail _ (.tail _ (.tail _ (.tail _ (.tail _ (.tail _ (.tail _ (.tail _ (.tail _ (.head _)))))))))) hx
    have hs := hs.member hx
    exact string_reads (type_string h)
  refine bind_reads (opt_reads fun x hx => ?_) fun _ => ?_
  · have h := valid_property (valid_part h (.tail _ (.tail _ (.head _)))) (.tail _ (.tail _ (.tail _ (.tail _ (.tail _ (.tail _ (.tail _ (.tail _ (.tail _ (.tail _ (.head _))))))))))) hx
    have hs := hs.member hx
    obtain ⟨o, rfl⟩ := type_object (valid_part h (.head _))
    have hr := hs.readable
    refine fields_reads ?_
    refine bind_reads (opt_reads fun x hx => ?_) fun _ => ?_
    · have h := valid_property (valid_part h (.tail _ (.head _))) (.head _) hx
      have hs := hs.member hx
      exact string_reads (type_string h)
    refine bind_reads (opt_reads fun x hx => ?_) fun _ => ?_
    · have h := valid_property (valid_part h (.tail _ (.head _))) (.tail _ (.head _)) hx
      have hs := hs.member hx
      exact string_reads (type_string h)
    refine bind_reads (opt_reads fun x hx => ?_) fun _ => ?_
    · have h := valid_property (valid_part h (.tail _ (.head _))) (.tail _ (.tail _ (.head _))) hx
      have hs := hs.member hx
      refine items_reads (valid_part h (.head _)) (valid_part h (.tail _ (.head _))) hs fun l el y hy h hs => ?_
      exact v15_attachment_Attachment (v15_ref_attachment h) hs
    exact ⟨_, rfl⟩
  refine bind_reads (opt_reads fun x hx => ?_) fun _ => ?_
  · have h := valid_property (valid_part h (.tail _ (.tail _ (.head _)))) (.tail _ (.tail _ (.tail _ (.tail _ (.tail _ (.tail _ (.tail _ (.tail _ (.tail _ (.tail _ (.tail _ (.head _)))))))))))) hx
    have hs := hs.member hx
    refine items_reads (valid_part h (.head _)) (valid_part h (.tail _ (.head _))) hs fun l el y hy h hs => ?_
    exact v15_advisory_Advisory (v15_ref_advisory h) hs
  refine bind_reads (opt_reads fun x hx => ?_) fun _ => ?_
  · have h := valid_property (valid_part h (.tail _ (.tail _ (.head _)))) (.tail _ (.tail _ (.tail _ (.tail _ (.tail _ (.tail _ (.tail _ (.tail _ (.tail _ (.tail _ (.tail _ (.tail _ (.head _))))))))))))) hx
    have hs := hs.member hx
    exact string_reads (type_string (valid_part h (.head _)))
  refine bind_reads (opt_reads fun x hx => ?_) fun _ => ?_
  · have h := valid_property (valid_part h (.tail _ (.tail _ (.head _)))) (.tail _ (.tail _ (.tail _ (.tail _ (.tail _ (.tail _ (.tail _ (.tail _ (.tail _ (.tail _ (.tail _ (.tail _ (.tail _ (.head _)))))))))))))) hx
    have hs := hs.member hx
    exact string_reads (type_string (valid_part h (.head _)))
  refine bind_reads (opt_reads fun x hx => ?_) fun _ => ?_
  · have h := valid_property (valid_part h (.tail _ (.tail _ (.head _)))) (.tail _ (.tail _ (.tail _ (.tail _ (.tail _ (.tail _ (.tail _ (.tail _ (.tail _ (.tail _ (.tail _ (.tail _ (.tail _ (.tail _ (.head _))))))))))))))) hx
    have hs := hs.member hx
    exact string_reads (type_string (valid_part h (.head _)))
  refine bind_reads (opt_reads fun x hx => ?_) fun _ => ?_
  · have h := valid_property (valid_part h (.tail _ (.tail _ (.head _)))) (.tail _ (.tail _ (.tail _ (.tail _ (.tail _ (.tail _ (.tail _ (.tail _ (.tail _ (.tail _ (.tail _ (.tail _ (.tail _ (.tail _ (.tail _ (.head _)))))))))))))))) hx
    have hs := hs.member hx
    exact string_reads (type_string (valid_part h (.head _)))
  refine bind_reads (opt_reads fun x hx => ?_) fun _ => ?_
  · have h := valid_property (valid_part h (.tail _ (.tail _ (.head _)))) (.tail _ (.tail _ (.tail _ (.tail _ (.tail _ (.tail _ (.tail _ (.tail _ (.tail _ (.tail _ (.tail _ (.tail _ (.tail _ (.tail _ (.tail _ (.tail _ (.head _))))))))))))))))) hx
    have hs := hs.member hx
    obtain ⟨o, rfl⟩ := type_object (valid_part h (.head _))
    have hr := hs.readable
    refine fields_reads ?_
    refine bind_reads (opt_reads fun x hx => ?_) fun _ => ?_
    · have h := valid_property (valid_part h (.tail _ (.tail _ (.head _)))) (.head _) hx
      have hs := hs.member hx
      refine items_reads (valid_part h (.head _)) (valid_part h (.tail _ (.head _))) hs fun l el y hy h hs => ?_
      exact v15_organizationalEntity_OrganizationalEntity (v15_ref_organizationalEntity h) hs
    refine bind_reads (opt_reads fun x hx => ?_) fun _ => ?_
    · have h := valid_property (valid_part h (.tail _ (.tail _ (.head _)))) (.tail _ (.head _)) hx
      have hs := hs.member hx
      refine items_reads (valid_part h (.head _)) (valid_part h (.tail _ (.head _))) hs fun l el y hy h hs => ?_
      exact v15_organizationalContact_OrganizationalContact (v15_ref_organizationalContact h) hs
    exact ⟨_, rfl⟩
  refine bind_reads (opt_reads fun x hx => ?_) fun _ => ?_
  · have h := valid_property (valid_part h (.tail _ (.tail _ (.head _)))) (.tail _ (.tail _ (.tail _ (.tail _ (.tail _ (.tail _ (.tail _ (.tail _ (.tail _ (.tail _ (.tail _ (.tail _ (.tail _ (.tail _ (.tail _ (.tail _ (.tail _ (.head _)))))))))))))))))) hx
    have hs := hs.member hx
    rcases oneOf_two h with h | h
    · have ho : CanRead (Tools.objectOfJson .v1_5) x := by
        obtain ⟨o, rfl⟩ := type_object (valid_part h (.head _))
        have hr := hs.readable
        refine fields_reads ?_
        refine bind_reads (opt_reads fun x hx => ?_) fun _ => ?_
        · have h := valid_property (valid_part h (.tail _ (.tail _ (.head _)))) (.tail _ (.head _)) hx
          have hs := hs.member hx
          refine items_reads (valid_part h (.head _)) (valid_part h (.tail _ (.tail _ (.head _)))) hs fun l el y hy h hs => ?_
          exact v15_service_Service (v15_ref_service h) hs
        refine bind_reads (opt_reads fun x hx => ?_) fun _ => ?_
        · have h := valid_property (valid_part h (.tail _ (.tail _ (.head _)))) (.head _) hx
          have hs := hs.member hx
          refine items_reads (valid_part h (.head _)) (valid_part h (.tail _ (.tail _ (.head _)))) hs fun l el y hy h hs => ?_
          exact v15_component_Component (v15_ref_component h) hs
        exact ⟨_, rfl⟩
      obtain ⟨z, hz⟩ := ho
      unfold CanRead Tools.ofJson
      split
      · exact ⟨_, rfl⟩
      · exact ⟨z, hz⟩
    · have hl : CanRead (Json.array (Tool.ofJson .v1_5)) _ := items_reads (valid_part h (.head _)) (valid_part h (.tail _ (.head _))) hs fun l el y hy h hs => v15_tool_Tool (v15_ref_tool h) hs
      obtain ⟨z, hz⟩ := hl
      exact ⟨.list z, by simp only [Tools.ofJson, hz]⟩
  refine bind_reads (opt_reads fun x hx => ?_) fun _ => ?_
  · have h := valid_property (valid_part h (.tail _ (.tail _ (.head _)))) (.tail _ (.tail _ (.tail _ (.tail _ (.tail _ (.tail _ (.tail _ (.tail _ (.tail _ (.tail _ (.tail _ (.tail _ (.tail _ (.tail _ (.tail _ (.tail _ (.tail _ (.tail _ (.head _))))))))))))))))))) hx
    have hs := hs.member hx
    obtain ⟨o, rfl⟩ := type_object (valid_part h (.head _))
    have hr := hs.readable
    refine fields_reads ?_
    refine bind_reads (opt_reads fun x hx => ?_) fun _ => ?_
    · have h := valid_property (valid_part h (.tail _ (.tail _ (.head _)))) (.head _) hx
      have hs := hs.member hx
      exact enum_reads (type_string (valid_part (v15_ref_impactAnalysisState h) (.head _)))
    refine bind_reads (opt_reads fun x hx => ?_) fun _ => ?_
    · have h := valid_property (valid_part h (.tail _ (.tail _ (.head _)))) (.tail _ (.head _)) hx
      have hs := hs.member hx
      exact enum_reads (type_string (valid_part (v15_ref_impactAnalysisJustification h) (.head _)))
    refine bind_reads (opt_reads fun x hx => ?_) fun _ => ?_
    · have := valid_closed (valid_part h (.tail _ (.head _))) hx
      simp at this
    refine bind_reads (opt_reads fun x hx => ?_) fun _ => ?_
    · have h := valid_property (valid_part h (.tail _ (.tail _ (.head _)))) (.tail _ (.tail _ (.tail _ (.head _)))) hx
      have hs := hs.member hx
      exact string_reads (type_string h)
    refine bind_reads (opt_reads fun x hx => ?_) fun _ => ?_
    · have h := valid_property (valid_part h (.tail _ (.tail _ (.head _)))) (.tail _ (.tail _ (.tail _ (.tail _ (.head _))))) hx
      have hs := hs.member hx
      exact string_reads (type_string (valid_part h (.head _)))
    refine bind_reads (opt_reads fun x hx => ?_) fun _ => ?_
    · have h := valid_property (valid_part h (.tail _ (.tail _ (.head _)))) (.tail _ (.tail _ (.tail _ (.tail _ (.tail _ (.head _)))))) hx
      have hs := hs.member hx
      exact string_reads (type_string (valid_part h (.head _)))
    exact ⟨_, rfl⟩
  refine bind_reads (opt_reads fun x hx => ?_) fun _ => ?_
  · have h := valid_property (valid_part h (.tail _ (.tail _ (.head _)))) (.tail _ (.tail _ (.tail _ (.tail _ (.tail _ (.tail _ (.tail _ (.tail _ (.tail _ (.tail _ (.tail _ (.tail _ (.tail _ (.tail _ (.tail _ (.tail _ (.tail _ (.tail _ (.tail _ (.head _)))))))))))))))))))) hx
    have hs := hs.member hx
    refine items_reads (valid_part h (.head _)) (valid_part h (.tail _ (.tail _ (.head _)))) hs fun l el y hy h hs => ?_
    obtain ⟨o, rfl⟩ := type_object (valid_part h (.head _))
    have hr := hs.readable
    have hreq := (valid_part h (.tail _ (.head _)))
    refine fields_reads ?_
    refine bind_reads (req_reads (valid_required hreq (by simp)) fun x hx => ?_) fun _ => ?_
    · have h := valid_property (valid_part h (.tail _ (.tail _ (.tail _ (.head _))))) (.head _) hx
      have hs := hs.member hx
      exact string_reads ((anyOf_two h).elim (fun h => (type_string (valid_part (v15_ref_refType (valid_part (v15_ref_refLinkType h) (.head _))) (.head _)))) (fun h => (type_string (valid_part (v15_ref_bomLinkElementType h) (.head _)))))
    refine bind_reads (opt_reads fun x hx => ?_) fun _ => ?_
    · have h := valid_property (valid_part h (.tail _ (.tail _ (.tail _ (.head _))))) (.tail _ (.head _)) hx
      have hs := hs.member hx
      refine items_reads (valid_part h (.head _)) (valid_part h (.tail _ (.head _))) hs fun l el y hy h hs => ?_
      have hh := hr.versions _ (el ▸ hx) _ hy
      obtain ⟨o, rfl⟩ := type_object (valid_part h (.head _))
      have hr := hs.readable
      refine fields_reads ?_
      refine bind_reads (?_ : ∃ y, VersionRange.ofFields o = .ok y) fun _ => ?_
      ·
        obtain ⟨k, hk, ⟨x, hx⟩, -⟩ := oneOf_member (ks := ["version", "range"]) (valid_part h (.tail _ (.tail _ (.tail _ (.head _)))))
        refine flatVariant_reads ?_ ?_
        · simp only [List.mem_cons, List.not_mem_nil, or_false] at hk
          rcases hk with rfl | rfl
          · exact ⟨_, (.tail _ (.tail _ (.head _))), x, hx⟩
          · exact ⟨_, (.head _), x, hx⟩
        · intro p hp x hx
          simp only [List.mem_cons, List.not_mem_nil, or_false] at hp
          rcases hp with rfl | rfl | rfl
          · have h := valid_property (valid_part h (.tail _ (.tail _ (.head _)))) (.tail _ (.head _)) hx
            have hs := hs.member hx
            refine map_reads (?_ : CanRead (Json.string) x)
            exact string_reads (type_string (valid_part (v15_ref_range h) (.head _)))
          · have := valid_closed (valid_part h (.tail _ (.head _))) hx
            simp at this
          · have h := valid_property (valid_part h (.tail _ (.tail _ (.head _)))) (.head _) hx
            have hs := hs.member hx
            refine map_reads (?_ : CanRead (Json.string) x)
            exact string_reads (type_string (valid_part (v15_ref_version h) (.head _)))
      refine bind_reads (req_reads hh.lookup fun x hx => ?_) fun _ => ?_
      · have h := valid_property (valid_part h (.tail _ (.tail _ (.head _)))) (.tail _ (.tail _ (.head _))) hx
        have hs := hs.member hx
        exact enum_reads (type_string (valid_part (v15_ref_affectedStatus h) (.head _)))
      exact ⟨_, rfl⟩
    exact ⟨_, rfl⟩
  refine bind_reads (opt_reads fun x hx => ?_) fun _ => ?_
  · have h := valid_property (valid_part h (.tail _ (.tail _ (.head _)))) (.tail _ (.tail _ (.tail _ (.tail _ (.tail _ (.tail _ (.tail _ (.tail _ (.tail _ (.tail _ (.tail _ (.tail _ (.tail _ (.tail _ (.tail _ (.tail _ (.tail _ (.tail _ (.tail _ (.tail _ (.head _))))))))))))))))))))) hx
    have hs := hs.member hx
    refine items_reads (valid_part h (.head _)) (valid_part h (.tail _ (.head _))) hs fun l el y hy h hs => ?_
    exact v15_property_Property (v15_ref_property h) hs (hr.named _ (el ▸ hx) _ hy)
  exact ⟨_, rfl⟩

theorem v15_annotations_Annotation {j : Json} (h : Valid (schemaContext F .v1_5) Schema15.annotations j) (hs : Sane ReadLimit.limit j) :
    CanRead (Annotation.ofJson .v1_5) j := by
  obtain ⟨o, rfl⟩ := type_object (valid_part h (.head _))
  have hr := hs.readable
  have hreq := (valid_part h (.tail _ (.head _)))
  refine fields_reads ?_
  refine bind_reads (opt_reads fun x hx => ?_) fun _ => ?_
  · have h := valid_property (valid_part h (.tail _ (.tail _ (.tail _ (.head _))))) (.head _) hx
    have hs := hs.member hx
    exact string_reads (type_string (valid_part (v15_ref_refType h) (.head _)))
  refine bind_reads (req_reads (valid_required hreq (by simp)) fun x hx => ?_) fun _ => ?_
  · have h := valid_property (valid_part h (.tail _ (.tail _ (.tail _ (.head _))))) (.tail _ (.head _)) hx
    have hs := hs.member hx
    refine items_reads (valid_part h (.head _)) (valid_part h (.tail _ (.tail _ (.head _)))) hs fun l el y hy h hs => ?_
    exact string_reads ((anyOf_two h).elim (fun h => (type_string (valid_part (v15_ref_refType (valid_part (v15_ref_refLinkType h) (.head _))) (.head _)))) (fun h => (type_string (valid_part (v15_ref_bomLinkElementType h) (.head _)))))
  refine bind_reads (req_reads (valid_required hreq (by simp)) fun x hx => ?_) fun _ => ?_
  · have h := valid_property (valid_part h (.tail _ (.tail _ (.tail _ (.head _))))) (.tail _ (.tail _ (.head _))) hx
    have hs := hs.member hx
    obtain ⟨o, rfl⟩ := type_object (valid_part h (.head _))
    obtain ⟨k, hk, x, rfl⟩ := oneOf_single (ks := ["organization", "individual", "component", "service"]) (valid_part h (.tail _ (.tail _ (.tail _ (.head _))))) (valid_part h (.tail _ (.head _))) hs
    simp only [List.mem_cons, List.not_mem_nil, or_false] at hk
    rcases hk with rfl | rfl | rfl | rfl
    · have h := valid_property (valid_part h (.tail _ (.tail _ (.head _)))) (.head _) (.head _)
      have hs := hs.member (.head _)
      refine tagged_reads rfl rfl (map_reads (?_ : CanRead (OrganizationalEntity.ofJson) x))
      exact v15_organizationalEntity_OrganizationalEntity (v15_ref_organizationalEntity h) hs
    · have h := valid_property (valid_part h (.tail _ (.tail _ (.head _)))) (.tail _ (.head _)) (.head _)
      have hs := hs.member (.head _)
      refine tagged_reads rfl rfl (map_reads (?_ : CanRead (OrganizationalContact.ofJson) x))
      exact v15_organizationalContact_OrganizationalContact (v15_ref_organizationalContact h) hs
    · have h := valid_property (valid_part h (.tail _ (.tail _ (.head _)))) (.tail _ (.tail _ (.head _))) (.head _)
      have hs := hs.member (.head _)
      refine tagged_reads rfl rfl (map_reads (?_ : CanRead (Component.ofJson .v1_5) x))
      exact v15_component_Component (v15_ref_component h) hs
    · have h := valid_property (valid_part h (.tail _ (.tail _ (.head _)))) (.tail _ (.tail _ (.tail _ (.head _)))) (.head _)
      have hs := hs.member (.head _)
      refine tagged_reads rfl rfl (map_reads (?_ : CanRead (Service.ofJson .v1_5) x))
      exact v15_service_Service (v15_ref_service h) hs
  refine bind_reads (req_reads (valid_required hreq (by simp)) fun x hx => ?_) fun _ => ?_
  · have h := valid_property (valid_part h (.tail _ (.tail _ (.tail _ (.head _))))) (.tail _ (.tail _ (.tail _ (.head _)))) hx
    have hs := hs.member hx
    exact string_reads (type_string (valid_part h (.head _)))
  refine bind_reads (req_reads (valid_required hreq (by simp)) fun x hx => ?_) fun _ => ?_
  · have h := valid_property (valid_part h (.tail _ (.tail _ (.tail _ (.head _))))) (.tail _ (.tail _ (.tail _ (.tail _ (.head _))))) hx
    have hs := hs.member hx
    exact string_reads (type_string h)
  refine bind_reads (opt_reads fun x hx => ?_) fun _ => ?_
  · have h := valid_property (valid_part h (.tail _ (.tail _ (.tail _ (.head _))))) (.tail _ (.tail _ (.tail _ (.tail _ (.tail _ (.head _)))))) hx
    have hs := hs.member hx
    replace h := (v15_ref_signature h)
    exact signature_reads (v15_ref_jsf_signature h) hs (hr.signature _ hx)
  exact ⟨_, rfl⟩

theorem v15_resourceReferenceChoice_ResourceReference {n : Nat} {j : Json} (h : Valid (schemaContext F .v1_5) Schema15.resourceReferenceChoice j) (hs : Sane n j) :
    CanRead (ResourceReference.ofJson) j := by
  obtain ⟨o, rfl⟩ := type_object (valid_part h (.head _))
  have hr := hs.readable
  refine fields_reads ?_
  obtain ⟨k, hk, ⟨x, hx⟩, -⟩ := oneOf_member (ks := ["ref", "externalReference"]) (valid_part h (.tail _ (.tail _ (.tail _ (.head _)))))
  refine flatUntagged_reads ?_ ?_
  · simp only [List.mem_cons, List.not_mem_nil, or_false] at hk
    rcases hk with rfl | rfl
    · exact ⟨_, (.head _), x, hx⟩
    · exact ⟨_, (.tail _ (.head _)), x, hx⟩
  · intro p hp x hx
    simp only [List.mem_cons, List.not_mem_nil, or_false] at hp
    rcases hp with rfl | rfl
    · have h := valid_property (valid_part h (.tail _ (.tail _ (.head _)))) (.head _) hx
      have hs := hs.member hx
      refine map_reads (?_ : CanRead (Json.string) x)
      exact string_reads ((anyOf_two h).elim (fun h => (type_string (valid_part (v15_ref_refType (valid_part (v15_ref_refLinkType h) (.head _))) (.head _)))) (fun h => (type_string (valid_part (v15_ref_bomLinkElementType h) (.head _)))))
    · have h := valid_property (valid_part h (.tail _ (.tail _ (.head _)))) (.tail _ (.head _)) hx
      have hs := hs.member hx
      refine map_reads (?_ : CanRead (ExternalReference.ofJson) x)
      exact v15_externalReference_ExternalReference (v15_ref_externalReference h) hs

theorem v15_event_TriggerEvent {n : Nat} {j : Json} (h : Valid (schemaContext F .v1_5) Schema15.event j) (hs : Sane n j) :
    CanRead (TriggerEvent.ofJson) j := by
  obtain ⟨o, rfl⟩ := type_object (valid_part h (.head _))
  have hr := hs.readable
  refine fields_reads ?_
  refine bind_reads (opt_reads fun x hx => ?_) fun _ => ?_
  · have h := valid_property (valid_part h (.tail _ (.tail _ (.head _)))) (.head _) hx
    have hs := hs.member hx
    exact string_reads (type_string h)
  refine bind_reads (opt_reads fun x hx => ?_) fun _ => ?_
  · have h := valid_property (valid_part h (.tail _ (.tail _ (.head _)))) (.tail _ (.head _)) hx
    have hs := hs.member hx
    exact string_reads (type_string h)
  refine bind_reads (opt_reads fun x hx => ?_) fun _ => ?_
  · have h := valid_property (valid_part h (.tail _ (.tail _ (.head _)))) (.tail _ (.tail _ (.head _))) hx
    have hs := hs.member hx
    exact string_reads (type_string (valid_part h (.head _)))
  refine bind_reads (opt_reads fun x hx => ?_) fun _ => ?_
  · have h := valid_property (valid_part h (.tail _ (.tail _ (.head _)))) (.tail _ (.tail _ (.tail _ (.head _)))) hx
    have hs := hs.member hx
    exact v15_attachment_Attachment (v15_ref_attachment h) hs
  refine bind_reads (opt_reads fun x hx => ?_) fun _ => ?_
  · have h := valid_property (valid_part h (.tail _ (.tail _ (.head _)))) (.tail _ (.tail _ (.tail _ (.tail _ (.head _))))) hx
    have hs := hs.member hx
    exact v15_resourceReferenceChoice_ResourceReference (v15_ref_resourceReferenceChoice h) hs
  refine bind_reads (opt_reads fun x hx => ?_) fun _ => ?_
  · have h := valid_property (valid_part h (.tail _ (.tail _ (.head _)))) (.tail _ (.tail _ (.tail _ (.tail _ (.tail _ (.head _)))))) hx
    have hs := hs.member hx
    exact v15_resourceReferenceChoice_ResourceReference (v15_ref_resourceReferenceChoice h) hs
  refine bind_reads (opt_reads fun x hx => ?_) fun _ => ?_
  · have h := valid_property (valid_part h (.tail _ (.tail _ (.head _)))) (.tail _ (.tail _ (.tail _ (.tail _ (.tail _ (.tail _ (.head _))))))) hx
    have hs := hs.member hx
    refine items_reads (valid_part h (.head _)) (valid_part h (.tail _ (.head _))) hs fun l el y hy h hs => ?_
    exact v15_property_Property (v15_ref_property h) hs (hr.named _ (el ▸ hx) _ hy)
  exact ⟨_, rfl⟩

theorem v15_condition_Condition {n : Nat} {j : Json} (h : Valid (schemaContext F .v1_5) Schema15.condition j) (hs : Sane n j) :
    CanRead (Condition.ofJson) j := by
  obtain ⟨o, rfl⟩ := type_object (valid_part h (.head _))
  have hr := hs.readable
  refine fields_reads ?_
  refine bind_reads (opt_reads fun x hx => ?_) fun _ => ?_
  · have h := valid_property (valid_part h (.tail _ (.tail _ (.head _)))) (.head _) hx
    have hs := hs.member hx
    exact string_reads (type_string h)
  refine bind_reads (opt_reads fun x hx => ?_) fun _ => ?_
  · have h := valid_property (valid_part h (.tail _ (.tail _ (.head _)))) (.tail _ (.head _)) hx
    have hs := hs.member hx
    exact string_reads (type_string h)
  refine bind_reads (opt_reads fun x hx => ?_) fun _ => ?_
  · have h := valid_property (valid_part h (.tail _ (.tail _ (.head _)))) (.tail _ (.tail _ (.head _))) hx
    have hs := hs.member hx
    refine items_reads (valid_part h (.head _)) (valid_part h (.tail _ (.head _))) hs fun l el y hy h hs => ?_
    exact v15_property_Property (v15_ref_property h) hs (hr.named _ (el ▸ hx) _ hy)
  exact ⟨_, rfl⟩

theorem v15_parameter_Parameter {n : Nat} {j : Json} (h : Valid (schemaContext F .v1_5) Schema15.parameter j) (hs : Sane n j) :
    CanRead (Parameter.ofJson) j := by
  obtain ⟨o, rfl⟩ := type_object (valid_part h (.head _))
  have hr := hs.readable
  refine fields_reads ?_
  refine bind_reads (opt_reads fun x hx => ?_) fun _ => ?_
  · have h := valid_property (valid_part h (.tail _ (.tail _ (.head _)))) (.head _) hx
    have hs := hs.member hx
    exact string_reads (type_string h)
  refine bind_reads (opt_reads fun x hx => ?_) fun _ => ?_
  · have h := valid_property (valid_part h (.tail _ (.tail _ (.head _)))) (.tail _ (.head _)) hx
    have hs := hs.member hx
    exact string_reads (type_string h)
  refine bind_reads (opt_reads fun x hx => ?_) fun _ => ?_
  · have h := valid_property (valid_part h (.tail _ (.tail _ (.head _)))) (.tail _ (.tail _ (.head _))) hx
    have hs := hs.member hx
    exact string_reads (type_string h)
  exact ⟨_, rfl⟩

theorem v15_inputType_Input {n : Nat} {j : Json} (h : Valid (schemaContext F .v1_5) Schema15.inputType j) (hs : Sane n j) :
    CanRead (Input.ofJson) j := by
  obtain ⟨o, rfl⟩ := type_object (valid_part h (.head _))
  have hr := hs.readable
  refine fields_reads ?_
  refine bind_reads (?_ : ∃ y, RequiredInputField.ofFields o = .ok y) fun _ => ?_
  ·
    obtain ⟨k, hk, ⟨x, hx⟩, -⟩ := oneOf_member (ks := ["resource", "parameters", "environmentVars", "data"]) (valid_part h (.tail _ (.tail _ (.tail _ (.head _)))))
    refine flatUntagged_reads ?_ ?_
    · simp only [List.mem_cons, List.not_mem_nil, or_false] at hk
      rcases hk with rfl | rfl | rfl | rfl
      · exact ⟨_, (.head _), x, hx⟩
      · exact ⟨_, (.tail _ (.head _)), x, hx⟩
      · exact ⟨_, (.tail _ (.tail _ (.head _))), x, hx⟩
      · exact ⟨_, (.tail _ (.tail _ (.tail _ (.head _)))), x, hx⟩
    · intro p hp x hx
      simp only [List.mem_cons, List.not_mem_nil, or_false] at hp
      rcases hp with rfl | rfl | rfl | rfl
      · have h := valid_property (valid_part h (.tail _ (.tail _ (.head _)))) (.tail _ (.tail _ (.head _))) hx
        have hs := hs.member hx
        refine map_reads (?_ : CanRead (ResourceReference.ofJson) x)
        exact v15_resourceReferenceChoice_ResourceReference (v15_ref_resourceReferenceChoice h) hs
      · have h := valid_property (valid_part h (.tail _ (.tail _ (.head _)))) (.tail _ (.tail _ (.tail _ (.head _)))) hx
        have hs := hs.member hx
        refine map_reads (?_ : CanRead (Json.array Parameter.ofJson) x)
        refine items_reads (valid_part h (.head _)) (valid_part h (.tail _ (.tail _ (.head _)))) hs fun l el y hy h hs => ?_
        exact v15_parameter_Parameter (v15_ref_parameter h) hs
      · have h := valid_property (valid_part h (.tail _ (.tail _ (.head _)))) (.tail _ (.tail _ (.tail _ (.tail _ (.head _))))) hx
        have hs := hs.member hx
        refine map_reads (?_ : CanRead (Json.array EnvironmentVar.ofJson) x)
        refine items_reads (valid_part h (.head _)) (valid_part h (.tail _ (.tail _ (.head _)))) hs fun l el y hy h hs => ?_
        rcases hr.environment _ (el ▸ hx) _ hy with ⟨s, rfl⟩ | hh
        · exact ⟨.value s, rfl⟩
        · rcases oneOf_two h with h | h
          · replace h := (v15_ref_property h)
            obtain ⟨o, rfl⟩ := type_object (valid_part h (.head _))
            refine fields_reads ?_
            refine bind_reads (req_reads hh.1.lookup fun x hx => string_reads (type_string (valid_property (valid_part h (.tail _ (.head _))) (.head _) hx))) fun _ => ?_
            refine bind_reads (req_reads hh.2.lookup fun x hx => string_reads (type_string (valid_property (valid_part h (.tail _ (.head _))) (.tail _ (.head _)) hx))) fun _ => ?_
            exact ⟨_, rfl⟩
          · obtain ⟨s, rfl⟩ := (type_string h)
            exact ⟨.value s, rfl⟩
      · have h := valid_property (valid_part h (.tail _ (.tail _ (.head _)))) (.tail _ (.tail _ (.tail _ (.tail _ (.tail _ (.head _)))))) hx
        have hs := hs.member hx
        refine map_reads (?_ : CanRead (Attachment.ofJson) x)
        exact v15_attachment_Attachment (v15_ref_attachment h) hs
  refine bind_reads (opt_reads fun x hx => ?_) fun _ => ?_
  · have h := valid_property (valid_part h (.tail _ (.tail _ (.head _)))) (.head _) hx
    have hs := hs.member hx
    exact v15_resourceReferenceChoice_ResourceReference (v15_ref_resourceReferenceChoice h) hs
  refine bind_reads (opt_reads fun x hx => ?_) fun _ => ?_
  · have h := valid_property (valid_part h (.tail _ (.tail _ (.head _)))) (.tail _ (.head _)) hx
    have hs := hs.member hx
    exact v15_resourceReferenceChoice_ResourceReference (v15_ref_resourceReferenceChoice h) hs
  refine bind_reads (opt_reads fun x hx => ?_) fun _ => ?_
  · have h := valid_property (valid_part h (.tail _ (.tail _ (.head _)))) (.tail _ (.tail _ (.tail _ (.tail _ (.tail _ (.tail _ (.head _))))))) hx
    have hs := hs.member hx
    refine items_reads (valid_part h (.head _)) (valid_part h (.tail _ (.head _))) hs fun l el y hy h hs => ?_
    exact v15_property_Property (v15_ref_property h) hs (hr.named _ (el ▸ hx) _ hy)
  exact ⟨_, rfl⟩

theorem v15_outputType_Output {n : Nat} {j : Json} (h : Valid (schemaContext F .v1_5) Schema15.outputType j) (hs : Sane n j) :
    CanRead (Output.ofJson) j := by
  obtain ⟨o, rfl⟩ := type_object (valid_part h (.head _))
  have hr := hs.readable
  refine fields_reads ?_
  refine bind_reads (?_ : ∃ y, RequiredOutputField.ofFields o = .ok y) fun _ => ?_
  ·
    obtain ⟨k, hk, ⟨x, hx⟩, -⟩ := oneOf_member (ks := ["resource", "environmentVars", "data"]) (valid_part h (.tail _ (.tail _ (.tail _ (.head _)))))
    refine flatUntagged_reads ?_ ?_
    · simp only [List.mem_cons, List.not_mem_nil, or_false] at hk
      rcases hk with rfl | rfl | rfl
      · exact ⟨_, (.head _), x, hx⟩
      · exact ⟨_, (.tail _ (.head _)), x, hx⟩
      · exact ⟨_, (.tail _ (.tail _ (.head _))), x, hx⟩
    · intro p hp x hx
      simp only [List.mem_cons, List.not_mem_nil, or_false] at hp
      rcases hp with rfl | rfl | rfl
      · have h := valid_property (valid_part h (.tail _ (.tail _ (.head _)))) (.tail _ (.tail _ (.tail _ (.head _)))) hx
        have hs := hs.member hx
        refine map_reads (?_ : CanRead (ResourceReference.ofJson) x)
        exact v15_resourceReferenceChoice_ResourceReference (v15_ref_resourceReferenceChoice h) hs
      · have h := valid_property (valid_part h (.tail _ (.tail _ (.head _)))) (.tail _ (.tail _ (.tail _ (.tail _ (.tail _ (.head _)))))) hx
        have hs := hs.member hx
        refine map_reads (?_ : CanRead (Json.array EnvironmentVar.ofJson) x)
        refine items_reads (valid_part h (.head _)) (valid_part h (.tail _ (.tail _ (.head _)))) hs fun l el y hy h hs => ?_
        rcases hr.environment _ (el ▸ hx) _ hy with ⟨s, rfl⟩ | hh
        · exact ⟨.value s, rfl⟩
        · rcases oneOf_two h with h | h
          · replace h := (v15_ref_property h)
            obtain ⟨o, rfl⟩ := type_object (valid_part h (.head _))
            refine fields_reads ?_
            refine bind_reads (req_reads hh.1.lookup fun x hx => string_reads (type_string (valid_property (valid_part h (.tail _ (.head _))) (.head _) hx))) fun _ => ?_
            refine bind_reads (req_reads hh.2.lookup fun x hx => string_reads (type_string (valid_property (valid_part h (.tail _ (.head _))) (.tail _ (.head _)) hx))) fun _ => ?_
            exact ⟨_, rfl⟩
          · obtain ⟨s, rfl⟩ := (type_string h)
            exact ⟨.value s, rfl⟩
      · have h := valid_property (valid_part h (.tail _ (.tail _ (.head _)))) (.tail _ (.tail _ (.tail _ (.tail _ (.head _))))) hx
        have hs := hs.member hx
        refine map_reads (?_ : CanRead (Attachment.ofJson) x)
        exact v15_attachment_Attachment (v15_ref_attachment h) hs
  refine bind_reads (opt_reads fun x hx => ?_) fun _ => ?_
  · have h := valid_property (valid_part h (.tail _ (.tail _ (.head _)))) (.head _) hx
    have hs := hs.member hx
    exact enum_reads (type_string (valid_part h (.head _)))
  refine bind_reads (opt_reads fun x hx => ?_) fun _ => ?_
  · have h := valid_property (valid_part h (.tail _ (.tail _ (.head _)))) (.tail _ (.head _)) hx
    have hs := hs.member hx
    exact v15_resourceReferenceChoice_ResourceReference (v15_ref_resourceReferenceChoice h) hs
  refine bind_reads (opt_reads fun x hx => ?_) fun _ => ?_
  · have h := valid_property (valid_part h (.tail _ (.tail _ (.head _)))) (.tail _ (.tail _ (.head _))) hx
    have hs := hs.member hx
    exact v15_resourceReferenceChoice_ResourceReference (v15_ref_resourceReferenceChoice h) hs
  refine bind_reads (opt_reads fun x hx => ?_) fun _ => ?_
  · have h := valid_property (valid_part h (.tail _ (.tail _ (.head _)))) (.tail _ (.tail _ (.tail _ (.tail _ (.tail _ (.tail _ (.head _))))))) hx
    have hs := hs.member hx
    refine items_reads (valid_part h (.head _)) (valid_part h (.tail _ (.head _))) hs fun l el y hy h hs => ?_
    exact v15_property_Property (v15_ref_property h) hs (hr.named _ (el ▸ hx) _ hy)
  exact ⟨_, rfl⟩

theorem v15_trigger_Trigger {n : Nat} {j : Json} (h : Valid (schemaContext F .v1_5) Schema15.trigger j) (hs : Sane n j) :
    CanRead (Trigger.ofJson) j := by
  obtain ⟨o, rfl⟩ := type_object (valid_part h (.head _))
  have hr := hs.readable
  have hreq := (valid_part h (.tail _ (.head _)))
  refine fields_reads ?_
  refine bind_reads (req_reads (valid_required hreq (by simp)) fun x hx => ?_) fun _ => ?_
  · have h := valid_property (valid_part h (.tail _ (.tail _ (.tail _ (.head _))))) (.head _) hx
    have hs := hs.member hx
    exact string_reads (type_string (valid_part (v15_ref_refType h) (.head _)))
  refine bind_reads (req_reads (valid_required hreq (by simp)) fun x hx => ?_) fun _ => ?_
  · have h := valid_property (valid_part h (.tail _ (.tail _ (.tail _ (.head _))))) (.tail _ (.head _)) hx
    have hs := hs.member hx
    exact string_reads (type_string h)
  refine bind_reads (opt_reads fun x hx => ?_) fun _ => ?_
  · have h := valid_property (valid_part h (.tail _ (.tail _ (.tail _ (.head _))))) (.tail _ (.tail _ (.head _))) hx
    have hs := hs.member hx
    exact string_reads (type_string h)
  refine bind_reads (opt_reads fun x hx => ?_) fun _ => ?_
  · have h := valid_property (valid_part h (.tail _ (.tail _ (.tail _ (.head _))))) (.tail _ (.tail _ (.tail _ (.head _)))) hx
    have hs := hs.member hx
    exact string_reads (type_string h)
  refine bind_reads (opt_reads fun x hx => ?_) fun _ => ?_
  · have h := valid_property (valid_part h (.tail _ (.tail _ (.tail _ (.head _))))) (.tail _ (.tail _ (.tail _ (.tail _ (.head _))))) hx
    have hs := hs.member hx
    refine items_reads (valid_part h (.head _)) (valid_part h (.tail _ (.tail _ (.head _)))) hs fun l el y hy h hs => ?_
    exact v15_resourceReferenceChoice_ResourceReference (v15_ref_resourceReferenceChoice h) hs
  refine bind_reads (req_reads (valid_required hreq (by simp)) fun x hx => ?_) fun _ => ?_
  · have h := valid_property (valid_part h (.tail _ (.tail _ (.tail _ (.head _))))) (.tail _ (.tail _ (.tail _ (.tail _ (.tail _ (.head _)))))) hx
    have hs := hs.member hx
    exact enum_reads (type_string (valid_part h (.head _)))
  refine bind_reads (opt_reads fun x hx => ?_) fun _ => ?_
  · have h := valid_property (valid_part h (.tail _ (.tail _ (.tail _ (.head _))))) (.tail _ (.tail _ (.tail _ (.tail _ (.tail _ (.tail _ (.head _))))))) hx
    have hs := hs.member hx
    exact v15_event_TriggerEvent (v15_ref_event h) hs
  refine bind_reads (opt_reads fun x hx => ?_) fun _ => ?_
  · have h := valid_property (valid_part h (.tail _ (.tail _ (.tail _ (.head _))))) (.tail _ (.tail _ (.tail _ (.tail _ (.tail _ (.tail _ (.tail _ (.head _)))))))) hx
    have hs := hs.member hx
    refine items_reads (valid_part h (.head _)) (valid_part h (.tail _ (.tail _ (.head _)))) hs fun l el y hy h hs => ?_
    exact v15_condition_Condition (v15_ref_condition h) hs
  refine bind_reads (opt_reads fun x hx => ?_) fun _ => ?_
  · have h := valid_property (valid_part h (.tail _ (.tail _ (.tail _ (.head _))))) (.tail _ (.tail _ (.tail _ (.tail _ (.tail _ (.tail _ (.tail _ (.tail _ (.head _))))))))) hx
    have hs := hs.member hx
    exact string_reads (type_string (valid_part h (.head _)))
  refine bind_reads (opt_reads fun x hx => ?_) fun _ => ?_
  · have h := valid_property (valid_part h (.tail _ (.tail _ (.tail _ (.head _))))) (.tail _ (.tail _ (.tail _ (.tail _ (.tail _ (.tail _ (.tail _ (.tail _ (.tail _ (.head _)))))))))) hx
    have hs := hs.member hx
    refine items_reads (valid_part h (.head _)) (valid_part h (.tail _ (.tail _ (.head _)))) hs fun l el y hy h hs => ?_
    exact v15_inputType_Input (v15_ref_inputType h) hs
  refine bind_reads (opt_reads fun x hx => ?_) fun _ => ?_
  · have h := valid_property (valid_part h (.tail _ (.tail _ (.tail _ (.head _))))) (.tail _ (.tail _ (.tail _ (.tail _ (.tail _ (.tail _ (.tail _ (.tail _ (.tail _ (.tail _ (.head _))))))))))) hx
    have hs := hs.member hx
    refine items_reads (valid_part h (.head _)) (valid_part h (.tail _ (.tail _ (.head _)))) hs fun l el y hy h hs => ?_
    exact v15_outputType_Output (v15_ref_outputType h) hs
  refine bind_reads (opt_reads fun x hx => ?_) fun _ => ?_
  · have h := valid_property (valid_part h (.tail _ (.tail _ (.tail _ (.head _))))) (.tail _ (.tail _ (.tail _ (.tail _ (.tail _ (.tail _ (.tail _ (.tail _ (.tail _ (.tail _ (.tail _ (.head _)))))))))))) hx
    have hs := hs.member hx
    refine items_reads (valid_part h (.head _)) (valid_part h (.tail _ (.head _))) hs fun l el y hy h hs => ?_
    exact v15_property_Property (v15_ref_property h) hs (hr.named _ (el ▸ hx) _ hy)
  exact ⟨_, rfl⟩

theorem v15_command_Command {n : Nat} {j : Json} (h : Valid (schemaContext F .v1_5) Schema15.command j) (hs : Sane n j) :
    CanRead (Command.ofJson) j := by
  obtain ⟨o, rfl⟩ := type_object (valid_part h (.head _))
  have hr := hs.readable
  refine fields_reads ?_
  refine bind_reads (opt_reads fun x hx => ?_) fun _ => ?_
  · have h := valid_property (valid_part h (.tail _ (.tail _ (.head _)))) (.head _) hx
    have hs := hs.member hx
    exact string_reads (type_string h)
  refine bind_reads (opt_reads fun x hx => ?_) fun _ => ?_
  · have h := valid_property (valid_part h (.tail _ (.tail _ (.head _)))) (.tail _ (.head _)) hx
    have hs := hs.member hx
    refine items_reads (valid_part h (.head _)) (valid_part h (.tail _ (.head _))) hs fun l el y hy h hs => ?_
    exact v15_property_Property (v15_ref_property h) hs (hr.named _ (el ▸ hx) _ hy)
  exact ⟨_, rfl⟩

theorem v15_step_Step {n : Nat} {j : Json} (h : Valid (schemaContext F .v1_5) Schema15.step j) (hs : Sane n j) :
    CanRead (Step.ofJson) j := by
  obtain ⟨o, rfl⟩ := type_object (valid_part h (.head _))
  have hr := hs.readable
  refine fields_reads ?_
  refine bind_reads (opt_reads fun x hx => ?_) fun _ => ?_
  · have h := valid_property (valid_part h (.tail _ (.tail _ (.head _)))) (.tail _ (.tail _ (.head _))) hx
    have hs := hs.member hx
    refine items_reads (valid_part h (.head _)) (valid_part h (.tail _ (.head _))) hs fun l el y hy h hs => ?_
    exact v15_command_Command (v15_ref_command h) hs
  refine bind_reads (opt_reads fun x hx => ?_) fun _ => ?_
  · have h := valid_property (valid_part h (.tail _ (.tail _ (.head _)))) (.tail _ (.head _)) hx
    have hs := hs.member hx
    exact string_reads (type_string h)
  refine bind_reads (opt_reads fun x hx => ?_) fun _ => ?_
  · have h := valid_property (valid_part h (.tail _ (.tail _ (.head _)))) (.head _) hx
    have hs := hs.member hx
    exact string_reads (type_string h)
  refine bind_reads (opt_reads fun x hx => ?_) fun _ => ?_
  · have h := valid_property (valid_part h (.tail _ (.tail _ (.head _)))) (.tail _ (.tail _ (.tail _ (.head _)))) hx
    have hs := hs.member hx
    refine items_reads (valid_part h (.head _)) (valid_part h (.tail _ (.head _))) hs fun l el y hy h hs => ?_
    exact v15_property_Property (v15_ref_property h) hs (hr.named _ (el ▸ hx) _ hy)
  exact ⟨_, rfl⟩

theorem v15_volume_Volume {n : Nat} {j : Json} (h : Valid (schemaContext F .v1_5) Schema15.volume j) (hs : Sane n j) :
    CanRead (Volume.ofJson) j := by
  obtain ⟨o, rfl⟩ := type_object (valid_part h (.head _))
  have hr := hs.readable
  refine fields_reads ?_
  refine bind_reads (opt_reads fun x hx => ?_) fun _ => ?_
  · have h := valid_property (valid_part h (.tail _ (.tail _ (.head _)))) (.head _) hx
    have hs := hs.member hx
    exact string_reads (type_string h)
  refine bind_reads (opt_reads fun x hx => ?_) fun _ => ?_
  · have h := valid_property (valid_part h (.tail _ (.tail _ (.head _)))) (.tail _ (.head _)) hx
    have hs := hs.member hx
    exact string_reads (type_string h)
  refine bind_reads (map_reads (opt_reads fun x hx => ?_)) fun _ => ?_
  · have h := valid_property (valid_part h (.tail _ (.tail _ (.head _)))) (.tail _ (.tail _ (.head _))) hx
    have hs := hs.member hx
    exact enum_reads (type_string (valid_part h (.head _)))
  refine bind_reads (opt_reads fun x hx => ?_) fun _ => ?_
  · have h := valid_property (valid_part h (.tail _ (.tail _ (.head _)))) (.tail _ (.tail _ (.tail _ (.head _)))) hx
    have hs := hs.member hx
    exact string_reads (type_string h)
  refine bind_reads (opt_reads fun x hx => ?_) fun _ => ?_
  · have := valid_closed (valid_part h (.tail _ (.head _))) hx
    simp at this
  refine bind_reads (opt_reads fun x hx => ?_) fun _ => ?_
  · have h := valid_property (valid_part h (.tail _ (.tail _ (.head _)))) (.tail _ (.tail _ (.tail _ (.tail _ (.tail _ (.head _)))))) hx
    have hs := hs.member hx
    exact boolean_reads h
  refine bind_reads (opt_reads fun x hx => ?_) fun _ => ?_
  · have h := valid_property (valid_part h (.tail _ (.tail _ (.head _)))) (.tail _ (.tail _ (.tail _ (.tail _ (.tail _ (.tail _ (.head _))))))) hx
    have hs := hs.member hx
    exact boolean_reads h
  refine bind_reads (opt_reads fun x hx => ?_) fun _ => ?_
  · have h := valid_property (valid_part h (.tail _ (.tail _ (.head _)))) (.tail _ (.tail _ (.tail _ (.tail _ (.tail _ (.tail _ (.tail _ (.head _)))))))) hx
    have hs := hs.member hx
    refine items_reads (valid_part h (.head _)) (valid_part h (.tail _ (.head _))) hs fun l el y hy h hs => ?_
    exact v15_property_Property (v15_ref_property h) hs (hr.named _ (el ▸ hx) _ hy)
  exact ⟨_, rfl⟩

theorem v15_workspace_Workspace {n : Nat} {j : Json} (h : Valid (schemaContext F .v1_5) Schema15.workspace j) (hs : Sane n j) :
    CanRead (Workspace.ofJson) j := by
  obtain ⟨o, rfl⟩ := type_object (valid_part h (.head _))
  have hr := hs.readable
  have hreq := (valid_part h (.tail _ (.head _)))
  refine fields_reads ?_
  refine bind_reads (req_reads (valid_required hreq (by simp)) fun x hx => ?_) fun _ => ?_
  · have h := valid_property (valid_part h (.tail _ (.tail _ (.tail _ (.head _))))) (.head _) hx
    have hs := hs.member hx
    exact string_reads (type_string (valid_part (v15_ref_refType h) (.head _)))
  refine bind_reads (req_reads (valid_required hreq (by simp)) fun x hx => ?_) fun _ => ?_
  · have h := valid_property (valid_part h (.tail _ (.tail _ (.tail _ (.head _))))) (.tail _ (.head _)) hx
    have hs := hs.member hx
    exact string_reads (type_string h)
  refine bind_reads (opt_reads fun x hx => ?_) fun _ => ?_
  · have h := valid_property (valid_part h (.tail _ (.tail _ (.tail _ (.head _))))) (.tail _ (.tail _ (.head _))) hx
    have hs := hs.member hx
    exact string_reads (type_string h)
  refine bind_reads (opt_reads fun x hx => ?_) fun _ => ?_
  · have h := valid_property (valid_part h (.tail _ (.tail _ (.tail _ (.head _))))) (.tail _ (.tail _ (.tail _ (.head _)))) hx
    have hs := hs.member hx
    refine items_reads (valid_part h (.head _)) (valid_part h (.tail _ (.head _))) hs fun l el y hy h hs => ?_
    exact string_reads (type_string h)
  refine bind_reads (opt_reads fun x hx => ?_) fun _ => ?_
  · have h := valid_property (valid_part h (.tail _ (.tail _ (.tail _ (.head _))))) (.tail _ (.tail _ (.tail _ (.tail _ (.head _))))) hx
    have hs := hs.member hx
    exact string_reads (type_string h)
  refine bind_reads (opt_reads fun x hx => ?_) fun _ => ?_
  · have h := valid_property (valid_part h (.tail _ (.tail _ (.tail _ (.head _))))) (.tail _ (.tail _ (.tail _ (.tail _ (.tail _ (.head _)))))) hx
    have hs := hs.member hx
    refine items_reads (valid_part h (.head _)) (valid_part h (.tail _ (.tail _ (.head _)))) hs fun l el y hy h hs => ?_
    exact v15_resourceReferenceChoice_ResourceReference (v15_ref_resourceReferenceChoice h) hs
  refine bind_reads (opt_reads fun x hx => ?_) fun _ => ?_
  · have h := valid_property (valid_part h (.tail _ (.tail _ (.tail _ (.head _))))) (.tail _ (.tail _ (.tail _ (.tail _ (.tail _ (.tail _ (.head _))))))) hx
    have hs := hs.member hx
    exact enum_reads (type_string (valid_part h (.head _)))
  refine bind_reads (opt_reads fun x hx => ?_) fun _ => ?_
  · have h := valid_property (valid_part h (.tail _ (.tail _ (.tail _ (.head _))))) (.tail _ (.tail _ (.tail _ (.tail _ (.tail _ (.tail _ (.tail _ (.head _)))))))) hx
    have hs := hs.member hx
    exact string_reads (type_string h)
  refine bind_reads (opt_reads fun x hx => ?_) fun _ => ?_
  · have h := valid_property (valid_part h (.tail _ (.tail _ (.tail _ (.head _))))) (.tail _ (.tail _ (.tail _ (.tail _ (.tail _ (.tail _ (.tail _ (.tail _ (.head _))))))))) hx
    have hs := hs.member hx
    exact string_reads (type_string h)
  refine bind_reads (opt_reads fun x hx => ?_) fun _ => ?_
  · have h := valid_property (valid_part h (.tail _ (.tail _ (.tail _ (.head _))))) (.tail _ (.tail _ (.tail _ (.tail _ (.tail _ (.tail _ (.tail _ (.tail _ (.tail _ (.head _)))))))))) hx
    have hs := hs.member hx
    exact string_reads (type_string h)
  refine bind_reads (opt_reads fun x hx => ?_) fun _ => ?_
  · have h := valid_property (valid_part h (.tail _ (.tail _ (.tail _ (.head _))))) (.tail _ (.tail _ (.tail _ (.tail _ (.tail _ (.tail _ (.tail _ (.tail _ (.tail _ (.tail _ (.head _))))))))))) hx
    have hs := hs.member hx
    exact v15_volume_Volume (v15_ref_volume h) hs
  refine bind_reads (opt_reads fun x hx => ?_) fun _ => ?_
  · have h := valid_property (valid_part h (.tail _ (.tail _ (.tail _ (.head _))))) (.tail _ (.tail _ (.tail _ (.tail _ (.tail _ (.tail _ (.tail _ (.tail _ (.tail _ (.tail _ (.tail _ (.head _)))))))))))) hx
    have hs := hs.member hx
    refine items_reads (valid_part h (.head _)) (valid_part h (.tail _ (.head _))) hs fun l el y hy h hs => ?_
    exact v15_property_Property (v15_ref_property h) hs (hr.named _ (el ▸ hx) _ hy)
  exact ⟨_, rfl⟩

theorem v15_task_WorkflowTask {n : Nat} {j : Json} (h : Valid (schemaContext F .v1_5) Schema15.task j) (hs : Sane n j) :
    CanRead (WorkflowTask.ofJson) j := by
  obtain ⟨o, rfl⟩ := type_object (valid_part h (.head _))
  have hr := hs.readable
  have hreq := (valid_part h (.tail _ (.head _)))
  refine fields_reads ?_
  refine bind_reads (req_reads (valid_required hreq (by simp)) fun x hx => ?_) fun _ => ?_
  · have h := valid_property (valid_part h (.tail _ (.tail _ (.tail _ (.head _))))) (.head _) hx
    have hs := hs.member hx
    exact string_reads (type_string (valid_part (v15_ref_refType h) (.head _)))
  refine bind_reads (req_reads (valid_required hreq (by simp)) fun x hx => ?_) fun _ => ?_
  · have h := valid_property (valid_part h (.tail _ (.tail _ (.tail _ (.head _))))) (.tail _ (.head _)) hx
    have hs := hs.member hx
    exact string_reads (type_string h)
  refine bind_reads (opt_reads fun x hx => ?_) fun _ => ?_
  · have h := valid_property (valid_part h (.tail _ (.tail _ (.tail _ (.head _))))) (.tail _ (.tail _ (.head _))) hx
    have hs := hs.member hx
    exact string_reads (type_string h)
  refine bind_reads (opt_reads fun x hx => ?_) fun _ => ?_
  · have h := valid_property (valid_part h (.tail _ (.tail _ (.tail _ (.head _))))) (.tail _ (.tail _ (.tail _ (.head _)))) hx
    have hs := hs.member hx
    exact string_reads (type_string h)
  refine bind_reads (opt_reads fun x hx => ?_) fun _ => ?_
  · have h := valid_property (valid_part h (.tail _ (.tail _ (.tail _ (.head _))))) (.tail _ (.tail _ (.tail _ (.tail _ (.head _))))) hx
    have hs := hs.member hx
    refine items_reads (valid_part h (.head _)) (valid_part h (.tail _ (.tail _ (.head _)))) hs fun l el y hy h hs => ?_
    exact v15_resourceReferenceChoice_ResourceReference (v15_ref_resourceReferenceChoice h) hs
  refine bind_reads (req_reads (valid_required hreq (by simp)) fun x hx => ?_) fun _ => ?_
  · have h := valid_property (valid_part h (.tail _ (.tail _ (.tail _ (.head _))))) (.tail _ (.tail _ (.tail _ (.tail _ (.tail _ (.head _)))))) hx
    have hs := hs.member hx
    refine items_reads (valid_part h (.head _)) (valid_part h (.tail _ (.head _))) hs fun l el y hy h hs => ?_
    exact enum_reads (type_string (valid_part (v15_ref_taskType h) (.head _)))
  refine bind_reads (opt_reads fun x hx => ?_) fun _ => ?_
  · have h := valid_property (valid_part h (.tail _ (.tail _ (.tail _ (.head _))))) (.tail _ (.tail _ (.tail _ (.tail _ (.tail _ (.tail _ (.head _))))))) hx
    have hs := hs.member hx
    exact v15_trigger_Trigger (v15_ref_trigger h) hs
  refine bind_reads (opt_reads fun x hx => ?_) fun _ => ?_
  · have h := valid_property (valid_part h (.tail _ (.tail _ (.tail _ (.head _))))) (.tail _ (.tail _ (.tail _ (.tail _ (.tail _ (.tail _ (.tail _ (.head _)))))))) hx
    have hs := hs.member hx
    refine items_reads (valid_part h (.head _)) (valid_part h (.tail _ (.tail _ (.head _)))) hs fun l el y hy h hs => ?_
    exact v15_step_Step (v15_ref_step h) hs
  refine bind_reads (opt_reads fun x hx => ?_) fun _ => ?_
  · have h := valid_property (valid_part h (.tail _ (.tail _ (.tail _ (.head _))))) (.tail _ (.tail _ (.tail _ (.tail _ (.tail _ (.tail _ (.tail _ (.tail _ (.head _))))))))) hx
    have hs := hs.member hx
    refine items_reads (valid_part h (.head _)) (valid_part h (.tail _ (.tail _ (.head _)))) hs fun l el y hy h hs => ?_
    exact v15_inputType_Input (v15_ref_inputType h) hs
  refine bind_reads (opt_reads fun x hx => ?_) fun _ => ?_
  · have h := valid_property (valid_part h (.tail _ (.tail _ (.tail _ (.head _))))) (.tail _ (.tail _ (.tail _ (.tail _ (.tail _ (.tail _ (.tail _ (.tail _ (.tail _ (.head _)))))))))) hx
    have hs := hs.member hx
    refine items_reads (valid_part h (.head _)) (valid_part h (.tail _ (.tail _ (.head _)))) hs fun l el y hy h hs => ?_
    exact v15_outputType_Output (v15_ref_outputType h) hs
  refine bind_reads (opt_reads fun x hx => ?_) fun _ => ?_
  · have h := valid_property (valid_part h (.tail _ (.tail _ (.tail _ (.head _))))) (.tail _ (.tail _ (.tail _ (.tail _ (.tail _ (.tail _ (.tail _ (.tail _ (.tail _ (.tail _ (.head _))))))))))) hx
    have hs := hs.member hx
    exact string_reads (type_string (valid_part h (.head _)))
  refine bind_reads (opt_reads fun x hx => ?_) fun _ => ?_
  · have h := valid_property (valid_part h (.tail _ (.tail _ (.tail _ (.head _))))) (.tail _ (.tail _ (.tail _ (.tail _ (.tail _ (.tail _ (.tail _ (.tail _ (.tail _ (.tail _ (.tail _ (.head _)))))))))))) hx
    have hs := hs.member hx
    exact string_reads (type_string (valid_part h (.head _)))
  refine bind_reads (opt_reads fun x hx => ?_) fun _ => ?_
  · have h := valid_property (valid_part h (.tail _ (.tail _ (.tail _ (.head _))))) (.tail _ (.tail _ (.tail _ (.tail _ (.tail _ (.tail _ (.tail _ (.tail _ (.tail _ (.tail _ (.tail _ (.tail _ (.head _))))))))))))) hx
    have hs := hs.member hx
    refine items_reads (valid_part h (.head _)) (valid_part h (.tail _ (.tail _ (.head _)))) hs fun l el y hy h hs => ?_
    exact v15_workspace_Workspace (v15_ref_workspace h) hs
  refine bind_reads (opt_reads fun x hx => ?_) fun _ => ?_
  · have h := valid_property (valid_part h (.tail _ (.tail _ (.tail _ (.head _))))) (.tail _ (.tail _ (.tail _ (.tail _ (.tail _ (.tail _ (.tail _ (.tail _ (.tail _ (.tail _ (.tail _ (.tail _ (.tail _ (.head _)))))))))))))) hx
    have hs := hs.member hx
    refine items_reads (valid_part h (.head _)) (valid_part h (.tail _ (.tail _ (.head _)))) hs fun l el y hy h hs => ?_
    exact v15_dependency_Dependency (v15_ref_dependency h) hs
  refine bind_reads (opt_reads fun x hx => ?_) fun _ => ?_
  · have h := valid_property (valid_part h (.tail _ (.tail _ (.tail _ (.head _))))) (.tail _ (.tail _ (.tail _ (.tail _ (.tail _ (.tail _ (.tail _ (.tail _ (.tail _ (.tail _ (.tail _ (.tail _ (.tail _ (.tail _ (.head _))))))))))))))) hx
    have hs := hs.member hx
    refine items_reads (valid_part h (.head _)) (valid_part h (.tail _ (.head _))) hs fun l el y hy h hs => ?_
    exact v15_property_Property (v15_ref_property h) hs (hr.named _ (el ▸ hx) _ hy)
  exact ⟨_, rfl⟩

theorem v15_workflow_Workflow {n : Nat} {j : Json} (h : Valid (schemaContext F .v1_5) Schema15.workflow j) (hs : Sane n j) :
    CanRead (Workflow.ofJson) j := by
  obtain ⟨o, rfl⟩ := type_object (valid_part h (.head _))
  have hr := hs.readable
  have hreq := (valid_part h (.tail _ (.head _)))
  refine fields_reads ?_
  refine bind_reads (req_reads (valid_required hreq (by simp)) fun x hx => ?_) fun _ => ?_
  · have h := valid_property (valid_part h (.tail _ (.tail _ (.tail _ (.head _))))) (.head _) hx
    have hs := hs.member hx
    exact string_reads (type_string (valid_part (v15_ref_refType h) (.head _)))
  refine bind_reads (req_reads (valid_required hreq (by simp)) fun x hx => ?_) fun _ => ?_
  · have h := valid_property (valid_part h (.tail _ (.tail _ (.tail _ (.head _))))) (.tail _ (.head _)) hx
    have hs := hs.member hx
    exact string_reads (type_string h)
  refine bind_reads (opt_reads fun x hx => ?_) fun _ => ?_
  · have h := valid_property (valid_part h (.tail _ (.tail _ (.tail _ (.head _))))) (.tail _ (.tail _ (.head _))) hx
    have hs := hs.member hx
    exact string_reads (type_string h)
  refine bind_reads (opt_reads fun x hx => ?_) fun _ => ?_
  · have h := valid_property (valid_part h (.tail _ (.tail _ (.tail _ (.head _))))) (.tail _ (.tail _ (.tail _ (.head _)))) hx
    have hs := hs.member hx
    exact string_reads (type_string h)
  refine bind_reads (opt_reads fun x hx => ?_) fun _ => ?_
  · have h := valid_property (valid_part h (.tail _ (.tail _ (.tail _ (.head _))))) (.tail _ (.tail _ (.tail _ (.tail _ (.head _))))) hx
    have hs := hs.member hx
    refine items_reads (valid_part h (.head _)) (valid_part h (.tail _ (.tail _ (.head _)))) hs fun l el y hy h hs => ?_
    exact v15_resourceReferenceChoice_ResourceReference (v15_ref_resourceReferenceChoice h) hs
  refine bind_reads (opt_reads fun x hx => ?_) fun _ => ?_
  · have h := valid_property (valid_part h (.tail _ (.tail _ (.tail _ (.head _))))) (.tail _ (.tail _ (.tail _ (.tail _ (.tail _ (.head _)))))) hx
    have hs := hs.member hx
    refine items_reads (valid_part h (.head _)) (valid_part h (.tail _ (.tail _ (.head _)))) hs fun l el y hy h hs => ?_
    exact v15_task_WorkflowTask (v15_ref_task h) hs
  refine bind_reads (opt_reads fun x hx => ?_) fun _ => ?_
  · have h := valid_property (valid_part h (.tail _ (.tail _ (.tail _ (.head _))))) (.tail _ (.tail _ (.tail _ (.tail _ (.tail _ (.tail _ (.head _))))))) hx
    have hs := hs.member hx
    refine items_reads (valid_part h (.head _)) (valid_part h (.tail _ (.tail _ (.head _)))) hs fun l el y hy h hs => ?_
    exact v15_dependency_Dependency (v15_ref_dependency h) hs
  refine bind_reads (req_reads (valid_required hreq (by simp)) fun x hx => ?_) fun _ => ?_
  · have h := valid_property (valid_part h (.tail _ (.tail _ (.tail _ (.head _))))) (.tail _ (.tail _ (.tail _ (.tail _ (.tail _ (.tail _ (.tail _ (.head _)))))))) hx
    have hs := hs.member hx
    refine items_reads (valid_part h (.head _)) (valid_part h (.tail _ (.head _))) hs fun l el y hy h hs => ?_
    exact enum_reads (type_string (valid_part (v15_ref_taskType h) (.head _)))
  refine bind_reads (opt_reads fun x hx => ?_) fun _ => ?_
  · have h := valid_property (valid_part h (.tail _ (.tail _ (.tail _ (.head _))))) (.tail _ (.tail _ (.tail _ (.tail _ (.tail _ (.tail _ (.tail _ (.tail _ (.head _))))))))) hx
    have hs := hs.member hx
    exact v15_trigger_Trigger (v15_ref_trigger h) hs
  refine bind_reads (opt_reads fun x hx => ?_) fun _ => ?_
  · have h := valid_property (valid_part h (.tail _ (.tail _ (.tail _ (.head _))))) (.tail _ (.tail _ (.tail _ (.tail _ (.tail _ (.tail _ (.tail _ (.tail _ (.tail _ (.head _)))))))))) hx
    have hs := hs.member hx
    refine items_reads (valid_part h (.head _)) (valid_part h (.tail _ (.tail _ (.head _)))) hs fun l el y hy h hs => ?_
    exact v15_step_Step (v15_ref_step h) hs
  refine bind_reads (opt_reads fun x hx => ?_) fun _ => ?_
  · have h := valid_property (valid_part h (.tail _ (.tail _ (.tail _ (.head _))))) (.tail _ (.tail _ (.tail _ (.tail _ (.tail _ (.tail _ (.tail _ (.tail _ (.tail _ (.tail _ (.head _))))))))))) hx
    have hs := hs.member hx
    refine items_reads (valid_part h (.head _)) (valid_part h (.tail _ (.tail _ (.head _)))) hs fun l el y hy h hs => ?_
    exact v15_inputType_Input (v15_ref_inputType h) hs
  refine bind_reads (opt_reads fun x hx => ?_) fun _ => ?_
  · have h := valid_property (valid_part h (.tail _ (.tail _ (.tail _ (.head _))))) (.tail _ (.tail _ (.tail _ (.tail _ (.tail _ (.tail _ (.tail _ (.tail _ (.tail _ (.tail _ (.tail _ (.head _)))))))))))) hx
    have hs := hs.member hx
    refine items_reads (valid_part h (.head _)) (valid_part h (.tail _ (.tail _ (.head _)))) hs fun l el y hy h hs => ?_
    exact v15_outputType_Output (v15_ref_outputType h) hs
  refine bind_reads (opt_reads fun x hx => ?_) fun _ => ?_
  · have h := valid_property (valid_part h (.tail _ (.tail _ (.tail _ (.head _))))) (.tail _ (.tail _ (.tail _ (.tail _ (.tail _ (.tail _ (.tail _ (.tail _ (.tail _ (.tail _ (.tail _ (.tail _ (.head _))))))))))))) hx
    have hs := hs.member hx
    exact string_reads (type_string (valid_part h (.head _)))
  refine bind_reads (opt_reads fun x hx => ?_) fun _ => ?_
  · have h := valid_property (valid_part h (.tail _ (.tail _ (.tail _ (.head _))))) (.tail _ (.tail _ (.tail _ (.tail _ (.tail _ (.tail _ (.tail _ (.tail _ (.tail _ (.tail _ (.tail _ (.tail _ (.tail _ (.head _)))))))))))))) hx
    have hs := hs.member hx
    exact string_reads (type_string (valid_part h (.head _)))
  refine bind_reads (opt_reads fun x hx => ?_) fun _ => ?_
  · have h := valid_property (valid_part h (.tail _ (.tail _ (.tail _ (.head _))))) (.tail _ (.tail _ (.tail _ (.tail _ (.tail _ (.tail _ (.tail _ (.tail _ (.tail _ (.tail _ (.tail _ (.tail _ (.tail _ (.tail _ (.head _))))))))))))))) hx
    have hs := hs.member hx
    refine items_reads (valid_part h (.head _)) (valid_part h (.tail _ (.tail _ (.head _)))) hs fun l el y hy h hs => ?_
    exact v15_workspace_Workspace (v15_ref_workspace h) hs
  refine bind_reads (opt_reads fun x hx => ?_) fun _ => ?_
  · have h := valid_property (valid_part h (.tail _ (.tail _ (.tail _ (.head _))))) (.tail _ (.tail _ (.tail _ (.tail _ (.tail _ (.tail _ (.tail _ (.tail _ (.tail _ (.tail _ (.tail _ (.tail _ (.tail _ (.tail _ (.tail _ (.head _)))))))))))))))) hx
    have hs := hs.member hx
    refine items_reads (valid_part h (.head _)) (valid_part h (.tail _ (.tail _ (.head _)))) hs fun l el y hy h hs => ?_
    exact v15_dependency_Dependency (v15_ref_dependency h) hs
  refine bind_reads (opt_reads fun x hx => ?_) fun _ => ?_
  · have h := valid_property (valid_part h (.tail _ (.tail _ (.tail _ (.head _))))) (.tail _ (.tail _ (.tail _ (.tail _ (.tail _ (.tail _ (.tail _ (.tail _ (.tail _ (.tail _ (.tail _ (.tail _ (.tail _ (.tail _ (.tail _ (.tail _ (.head _))))))))))))))))) hx
    have hs := hs.member hx
    refine items_reads (valid_part h (.head _)) (valid_part h (.tail _ (.head _))) hs fun l el y hy h hs => ?_
    exact v15_property_Property (v15_ref_property h) hs (hr.named _ (el ▸ hx) _ hy)
  exact ⟨_, rfl⟩

theorem v15_formula_Formula {j : Json} (h : Valid (schemaContext F .v1_5) Schema15.formula j) (hs : Sane ReadLimit.limit j) :
    CanRead (Formula.ofJson .v1_5) j := by
  obtain ⟨o, rfl⟩ := type_object (valid_part h (.head _))
  have hr := hs.readable
  refine fields_reads ?_
  refine bind_reads (opt_reads fun x hx => ?_) fun _ => ?_
  · have h := valid_property (valid_part h (.tail _ (.tail _ (.head _)))) (.head _) hx
    have hs := hs.member hx
    exact string_reads (type_string (valid_part (v15_ref_refType h) (.head _)))
  refine bind_reads (opt_reads fun x hx => ?_) fun _ => ?_
  · have h := valid_property (valid_part h (.tail _ (.tail _ (.head _)))) (.tail _ (.head _)) hx
    have hs := hs.member hx
    refine items_reads (valid_part h (.head _)) (valid_part h (.tail _ (.tail _ (.head _)))) hs fun l el y hy h hs => ?_
    exact v15_component_Component (v15_ref_component h) hs
  refine bind_reads (opt_reads fun x hx => ?_) fun _ => ?_
  · have h := valid_property (valid_part h (.tail _ (.tail _ (.head _)))) (.tail _ (.tail _ (.head _))) hx
    have hs := hs.member hx
    refine items_reads (valid_part h (.head _)) (valid_part h (.tail _ (.tail _ (.head _)))) hs fun l el y hy h hs => ?_
    exact v15_service_Service (v15_ref_service h) hs
  refine bind_reads (opt_reads fun x hx => ?_) fun _ => ?_
  · have h := valid_property (valid_part h (.tail _ (.tail _ (.head _)))) (.tail _ (.tail _ (.tail _ (.head _)))) hx
    have hs := hs.member hx
    refine items_reads (valid_part h (.head _)) (valid_part h (.tail _ (.tail _ (.head _)))) hs fun l el y hy h hs => ?_
    exact v15_workflow_Workflow (v15_ref_workflow h) hs
  refine bind_reads (opt_reads fun x hx => ?_) fun _ => ?_
  · have h := valid_property (valid_part h (.tail _ (.tail _ (.head _)))) (.tail _ (.tail _ (.tail _ (.tail _ (.head _))))) hx
    have hs := hs.member hx
    refine items_reads (valid_part h (.head _)) (valid_part h (.tail _ (.head _))) hs fun l el y hy h hs => ?_
    exact v15_property_Property (v15_ref_property h) hs (hr.named _ (el ▸ hx) _ hy)
  exact ⟨_, rfl⟩

theorem v15_root_Bom {j : Json} (h : Valid (schemaContext F .v1_5) Schema15.root j) (hs : Sane ReadLimit.limit j)
    (hver : Has "version" j) (hspec : ∀ o, j = .obj o → ∀ x, ("specVersion", x) ∈ o → CanRead SpecVersion.ofJson x) :
    CanRead (Bom.ofJson .v1_5) j := by
  obtain ⟨o, rfl⟩ := type_object (valid_part h (.head _))
  have hr := hs.readable
  have hreq := (valid_part h (.tail _ (.head _)))
  refine fields_reads ?_
  refine bind_reads (req_reads (valid_required hreq (by simp)) fun x hx => ?_) fun _ => ?_
  · have h := valid_property (valid_part h (.tail _ (.tail _ (.tail _ (.head _))))) (.tail _ (.head _)) hx
    have hs := hs.member hx
    obtain ⟨s, hm, rfl⟩ := valid_kw.mp (valid_part h (.tail _ (.head _)))
    simp only [List.mem_cons, List.not_mem_nil, or_false] at hm
    subst hm
    exact ⟨(), rfl⟩
  refine bind_reads (req_reads (valid_required hreq (by simp)) fun x hx => hspec _ rfl _ hx) fun _ => ?_
  refine bind_reads (req_reads hver.lookup fun x hx => ?_) fun _ => ?_
  · have h := valid_property (valid_part h (.tail _ (.tail _ (.tail _ (.head _))))) (.tail _ (.tail _ (.tail _ (.tail _ (.head _))))) hx
    have hs := hs.member hx
    exact u32_reads (hr.small _ _ hx (by simp) (integer_number (valid_part h (.head _))))
  refine bind_reads (opt_reads fun x hx => ?_) fun _ => ?_
  · have h := valid_property (valid_part h (.tail _ (.tail _ (.tail _ (.head _))))) (.tail _ (.tail _ (.tail _ (.head _)))) hx
    have hs := hs.member hx
    exact string_reads (type_string (valid_part h (.head _)))
  refine bind_reads (opt_reads fun x hx => ?_) fun _ => ?_
  · have h := valid_property (valid_part h (.tail _ (.tail _ (.tail _ (.head _))))) (.tail _ (.tail _ (.tail _ (.tail _ (.tail _ (.head _)))))) hx
    have hs := hs.member hx
    exact v15_metadata_Metadata (v15_ref_metadata h) hs
  refine bind_reads (opt_reads fun x hx => ?_) fun _ => ?_
  · have h := valid_property (valid_part h (.tail _ (.tail _ (.tail _ (.head _))))) (.tail _ (.tail _ (.tail _ (.tail _ (.tail _ (.tail _ (.head _))))))) hx
    have hs := hs.member hx
    refine items_reads (valid_part h (.head _)) (valid_part h (.tail _ (.tail _ (.head _)))) hs fun l el y hy h hs => ?_
    exact v15_component_Component (v15_ref_component h) hs
  refine bind_reads (opt_reads fun x hx => ?_) fun _ => ?_
  · have h := valid_property (valid_part h (.tail _ (.tail _ (.tail _ (.head _))))) (.tail _ (.tail _ (.tail _ (.tail _ (.tail _ (.tail _ (.tail _ (.head _)))))))) hx
    have hs := hs.member hx
    refine items_reads (valid_part h (.head _)) (valid_part h (.tail _ (.tail _ (.head _)))) hs fun l el y hy h hs => ?_
    exact v15_service_Service (v15_ref_service h) hs
  refine bind_reads (opt_reads fun x hx => ?_) fun _ => ?_
  · have h := valid_property (valid_part h (.tail _ (.tail _ (.tail _ (.head _))))) (.tail _ (.tail _ (.tail _ (.tail _ (.tail _ (.tail _ (.tail _ (.tail _ (.head _))))))))) hx
    have hs := hs.member hx
    refine items_reads (valid_part h (.head _)) (valid_part h (.tail _ (.head _))) hs fun l el y hy h hs => ?_
    exact v15_externalReference_ExternalReference (v15_ref_externalReference h) hs
  refine bind_reads (opt_reads fun x hx => ?_) fun _ => ?_
  · have h := valid_property (valid_part h (.tail _ (.tail _ (.tail _ (.head _))))) (.tail _ (.tail _ (.tail _ (.tail _ (.tail _ (.tail _ (.tail _ (.tail _ (.tail _ (.head _)))))))))) hx
    have hs := hs.member hx
    refine items_reads (valid_part h (.head _)) (valid_part h (.tail _ (.tail _ (.head _)))) hs fun l el y hy h hs => ?_
    exact v15_dependency_Dependency (v15_ref_dependency h) hs
  refine bind_reads (opt_reads fun x hx => ?_) fun _ => ?_
  · have h := valid_property (valid_part h (.tail _ (.tail _ (.tail _ (.head _))))) (.tail _ (.tail _ (.tail _ (.tail _ (.tail _ (.tail _ (.tail _ (.tail _ (.tail _ (.tail _ (.head _))))))))))) hx
    have hs := hs.member hx
    refine items_reads (valid_part h (.head _)) (valid_part h (.tail _ (.tail _ (.head _)))) hs fun l el y hy h hs => ?_
    exact v15_compositions_Composition (v15_ref_compositions h) hs
  refine bind_reads (opt_reads fun x hx => ?_) fun _ => ?_
  · have h := valid_property (valid_part h (.tail _ (.tail _ (.tail _ (.head _))))) (.tail _ (.tail _ (.tail _ (.tail _ (.tail _ (.tail _ (.tail _ (.tail _ (.tail _ (.tail _ (.tail _ (.head _)))))))))))) hx
    have hs := hs.member hx
    refine items_reads (valid_part h (.head _)) (valid_part h (.tail _ (.tail _ (.head _)))) hs fun l el y hy h hs => ?_
    exact v15_vulnerability_Vulnerability (v15_ref_vulnerability h) hs
  refine bind_reads (opt_reads fun x hx => ?_) fun _ => ?_
  · have h := valid_property (valid_part h (.tail _ (.tail _ (.tail _ (.head _))))) (.tail _ (.tail _ (.tail _ (.tail _ (.tail _ (.tail _ (.tail _ (.tail _ (.tail _ (.tail _ (.tail _ (.tail _ (.tail _ (.tail _ (.tail _ (.head _)))))))))))))))) hx
    have hs := hs.member hx
    replace h := (v15_ref_signature h)
    exact signature_reads (v15_ref_jsf_signature h) hs (hr.signature _ hx)
  refine bind_reads (opt_reads fun x hx => ?_) fun _ => ?_
  · have h := valid_property (valid_part h (.tail _ (.tail _ (.tail _ (.head _))))) (.tail _ (.tail _ (.tail _ (.tail _ (.tail _ (.tail _ (.tail _ (.tail _ (.tail _ (.tail _ (.tail _ (.tail _ (.head _))))))))))))) hx
    have hs := hs.member hx
    refine items_reads (valid_part h (.head _)) (valid_part h (.tail _ (.tail _ (.head _)))) hs fun l el y hy h hs => ?_
    exact v15_annotations_Annotation (v15_ref_annotations h) hs
  refine bind_reads (opt_reads fun x hx => ?_) fun _ => ?_
  · have h := valid_property (valid_part h (.tail _ (.tail _ (.tail _ (.head _))))) (.tail _ (.tail _ (.tail _ (.tail _ (.tail _ (.tail _ (.tail _ (.tail _ (.tail _ (.tail _ (.tail _ (.tail _ (.tail _ (.tail _ (.head _))))))))))))))) hx
    have hs := hs.member hx
    refine items_reads (valid_part h (.head _)) (valid_part h (.tail _ (.head _))) hs fun l el y hy h hs => ?_
    exact v15_property_Property (v15_ref_property h) hs (hr.named _ (el ▸ hx) _ hy)
  refine bind_reads (opt_reads fun x hx => ?_) fun _ => ?_
  · have h := valid_property (valid_part h (.tail _ (.tail _ (.tail _ (.head _))))) (.tail _ (.tail _ (.tail _ (.tail _ (.tail _ (.tail _ (.tail _ (.tail _ (.tail _ (.tail _ (.tail _ (.tail _ (.tail _ (.head _)))))))))))))) hx
    have hs := hs.member hx
    refine items_reads (valid_part h (.head _)) (valid_part h (.tail _ (.tail _ (.head _)))) hs fun l el y hy h hs => ?_
    exact v15_formula_Formula (v15_ref_formula h) hs
  exact ⟨_, rfl⟩

end Cdx
