import Verif.Lemmas.Readable

/-!
# Lemmas: the readers accept what the schema of CycloneDX 1.4 accepts

One theorem for each definition of the schema and each reader that meets it.
-/

namespace Cdx

open Spec

set_option linter.unusedVariables false
set_option linter.unusedSectionVars false
set_option linter.unusedSimpArgs false

variable [F32Format] [ReadLimit] {F : Formats}

theorem v14_ref_metadata {j : Json} (h : Valid (schemaContext F .v1_4) (.ref "metadata") j) :
    Valid (schemaContext F .v1_4) Schema14.metadata j := valid_unref h rfl

theorem v14_ref_hash {j : Json} (h : Valid (schemaContext F .v1_4) (.ref "hash") j) :
    Valid (schemaContext F .v1_4) Schema14.hash j := valid_unref h rfl

theorem v14_ref_hash_alg {j : Json} (h : Valid (schemaContext F .v1_4) (.ref "hash-alg") j) :
    Valid (schemaContext F .v1_4) Schema14.hashAlg j := valid_unref h rfl

theorem v14_ref_hash_content {j : Json} (h : Valid (schemaContext F .v1_4) (.ref "hash-content") j) :
    Valid (schemaContext F .v1_4) Schema14.hashContent j := valid_unref h rfl

theorem v14_ref_externalReference {j : Json} (h : Valid (schemaContext F .v1_4) (.ref "externalReference") j) :
    Valid (schemaContext F .v1_4) Schema14.externalReference j := valid_unref h rfl

theorem v14_ref_tool {j : Json} (h : Valid (schemaContext F .v1_4) (.ref "tool") j) :
    Valid (schemaContext F .v1_4) Schema14.tool j := valid_unref h rfl

theorem v14_ref_organizationalContact {j : Json} (h : Valid (schemaContext F .v1_4) (.ref "organizationalContact") j) :
    Valid (schemaContext F .v1_4) Schema14.organizationalContact j := valid_unref h rfl

theorem v14_ref_component {j : Json} (h : Valid (schemaContext F .v1_4) (.ref "component") j) :
    Valid (schemaContext F .v1_4) Schema14.component j := valid_unref h rfl

theorem v14_ref_refType {j : Json} (h : Valid (schemaContext F .v1_4) (.ref "refType") j) :
    Valid (schemaContext F .v1_4) Schema14.refType j := valid_unref h rfl

theorem v14_ref_organizationalEntity {j : Json} (h : Valid (schemaContext F .v1_4) (.ref "organizationalEntity") j) :
    Valid (schemaContext F .v1_4) Schema14.organizationalEntity j := valid_unref h rfl

theorem v14_ref_licenseChoice {j : Json} (h : Valid (schemaContext F .v1_4) (.ref "licenseChoice") j) :
    Valid (schemaContext F .v1_4) Schema14.licenseChoice j := valid_unref h rfl

theorem v14_ref_spdx {j : Json} (h : Valid (schemaContext F .v1_4) (.ref "spdx") j) :
    Valid (schemaContext F .v1_4) SchemaSpdx.spdx j := valid_unref h rfl

theorem v14_ref_attachment {j : Json} (h : Valid (schemaContext F .v1_4) (.ref "attachment") j) :
    Valid (schemaContext F .v1_4) Schema14.attachment j := valid_unref h rfl

theorem v14_ref_license {j : Json} (h : Valid (schemaContext F .v1_4) (.ref "license") j) :
    Valid (schemaContext F .v1_4) Schema14.license j := valid_unref h rfl

theorem v14_ref_swid {j : Json} (h : Valid (schemaContext F .v1_4) (.ref "swid") j) :
    Valid (schemaContext F .v1_4) Schema14.swid j := valid_unref h rfl

theorem v14_ref_commit {j : Json} (h : Valid (schemaContext F .v1_4) (.ref "commit") j) :
    Valid (schemaContext F .v1_4) Schema14.commit j := valid_unref h rfl

theorem v14_ref_identifiableAction {j : Json} (h : Valid (schemaContext F .v1_4) (.ref "identifiableAction") j) :
    Valid (schemaContext F .v1_4) Schema14.identifiableAction j := valid_unref h rfl

theorem v14_ref_patch {j : Json} (h : Valid (schemaContext F .v1_4) (.ref "patch") j) :
    Valid (schemaContext F .v1_4) Schema14.patch j := valid_unref h rfl

theorem v14_ref_diff {j : Json} (h : Valid (schemaContext F .v1_4) (.ref "diff") j) :
    Valid (schemaContext F .v1_4) Schema14.diff j := valid_unref h rfl

theorem v14_ref_issue {j : Json} (h : Valid (schemaContext F .v1_4) (.ref "issue") j) :
    Valid (schemaContext F .v1_4) Schema14.issue j := valid_unref h rfl

theorem v14_ref_property {j : Json} (h : Valid (schemaContext F .v1_4) (.ref "property") j) :
    Valid (schemaContext F .v1_4) Schema14.property j := valid_unref h rfl

theorem v14_ref_componentEvidence {j : Json} (h : Valid (schemaContext F .v1_4) (.ref "componentEvidence") j) :
    Valid (schemaContext F .v1_4) Schema14.componentEvidence j := valid_unref h rfl

theorem v14_ref_copyright {j : Json} (h : Valid (schemaContext F .v1_4) (.ref "copyright") j) :
    Valid (schemaContext F .v1_4) Schema14.copyright j := valid_unref h rfl

theorem v14_ref_signature {j : Json} (h : Valid (schemaContext F .v1_4) (.ref "signature") j) :
    Valid (schemaContext F .v1_4) Schema14.signature j := valid_unref h rfl

theorem v14_ref_jsf_signature {j : Json} (h : Valid (schemaContext F .v1_4) (.ref "jsf/signature") j) :
    Valid (schemaContext F .v1_4) SchemaJsf.jsfSignature j := valid_unref h rfl

theorem v14_ref_service {j : Json} (h : Valid (schemaContext F .v1_4) (.ref "service") j) :
    Valid (schemaContext F .v1_4) Schema14.service j := valid_unref h rfl

theorem v14_ref_dataFlow {j : Json} (h : Valid (schemaContext F .v1_4) (.ref "dataFlow") j) :
    Valid (schemaContext F .v1_4) Schema14.dataFlow j := valid_unref h rfl

theorem v14_ref_dataClassification {j : Json} (h : Valid (schemaContext F .v1_4) (.ref "dataClassification") j) :
    Valid (schemaContext F .v1_4) Schema14.dataClassification j := valid_unref h rfl

theorem v14_ref_dependency {j : Json} (h : Valid (schemaContext F .v1_4) (.ref "dependency") j) :
    Valid (schemaContext F .v1_4) Schema14.dependency j := valid_unref h rfl

theorem v14_ref_compositions {j : Json} (h : Valid (schemaContext F .v1_4) (.ref "compositions") j) :
    Valid (schemaContext F .v1_4) Schema14.compositions j := valid_unref h rfl

theorem v14_ref_aggregateType {j : Json} (h : Valid (schemaContext F .v1_4) (.ref "aggregateType") j) :
    Valid (schemaContext F .v1_4) Schema14.aggregateType j := valid_unref h rfl

theorem v14_ref_vulnerability {j : Json} (h : Valid (schemaContext F .v1_4) (.ref "vulnerability") j) :
    Valid (schemaContext F .v1_4) Schema14.vulnerability j := valid_unref h rfl

theorem v14_ref_vulnerabilitySource {j : Json} (h : Valid (schemaContext F .v1_4) (.ref "vulnerabilitySource") j) :
    Valid (schemaContext F .v1_4) Schema14.vulnerabilitySource j := valid_unref h rfl

theorem v14_ref_rating {j : Json} (h : Valid (schemaContext F .v1_4) (.ref "rating") j) :
    Valid (schemaContext F .v1_4) Schema14.rating j := valid_unref h rfl

theorem v14_ref_severity {j : Json} (h : Valid (schemaContext F .v1_4) (.ref "severity") j) :
    Valid (schemaContext F .v1_4) Schema14.severity j := valid_unref h rfl

theorem v14_ref_scoreMethod {j : Json} (h : Valid (schemaContext F .v1_4) (.ref "scoreMethod") j) :
    Valid (schemaContext F .v1_4) Schema14.scoreMethod j := valid_unref h rfl

theorem v14_ref_advisory {j : Json} (h : Valid (schemaContext F .v1_4) (.ref "advisory") j) :
    Valid (schemaContext F .v1_4) Schema14.advisory j := valid_unref h rfl

theorem v14_ref_impactAnalysisState {j : Json} (h : Valid (schemaContext F .v1_4) (.ref "impactAnalysisState") j) :
    Valid (schemaContext F .v1_4) Schema14.impactAnalysisState j := valid_unref h rfl

theorem v14_ref_impactAnalysisJustification {j : Json} (h : Valid (schemaContext F .v1_4) (.ref "impactAnalysisJustification") j) :
    Valid (schemaContext F .v1_4) Schema14.impactAnalysisJustification j := valid_unref h rfl

theorem v14_ref_range {j : Json} (h : Valid (schemaContext F .v1_4) (.ref "range") j) :
    Valid (schemaContext F .v1_4) Schema14.range j := valid_unref h rfl

theorem v14_ref_version {j : Json} (h : Valid (schemaContext F .v1_4) (.ref "version") j) :
    Valid (schemaContext F .v1_4) Schema14.version j := valid_unref h rfl

theorem v14_ref_affectedStatus {j : Json} (h : Valid (schemaContext F .v1_4) (.ref "affectedStatus") j) :
    Valid (schemaContext F .v1_4) Schema14.affectedStatus j := valid_unref h rfl


theorem v14_hash_Hash {n : Nat} {j : Json} (h : Valid (schemaContext F .v1_4) Schema14.hash j) (hs : Sane n j) :
    CanRead (Hash.ofJson) j := by
  obtain ⟨o, rfl⟩ := type_object (valid_part h (.head _))
  have hr := hs.readable
  have hreq := (valid_part h (.tail _ (.head _)))
  refine fields_reads ?_
  refine bind_reads (req_reads (valid_required hreq (by simp)) fun x hx => ?_) fun _ => ?_
  · have h := valid_property (valid_part h (.tail _ (.tail _ (.tail _ (.head _))))) (.head _) hx
    have hs := hs.member hx
    exact enum_reads (type_string (valid_part (v14_ref_hash_alg h) (.head _)))
  refine bind_reads (req_reads (valid_required hreq (by simp)) fun x hx => ?_) fun _ => ?_
  · have h := valid_property (valid_part h (.tail _ (.tail _ (.tail _ (.head _))))) (.tail _ (.head _)) hx
    have hs := hs.member hx
    exact string_reads (type_string (valid_part (v14_ref_hash_content h) (.head _)))
  exact ⟨_, rfl⟩

theorem v14_externalReference_ExternalReference {n : Nat} {j : Json} (h : Valid (schemaContext F .v1_4) Schema14.externalReference j) (hs : Sane n j) :
    CanRead (ExternalReference.ofJson) j := by
  obtain ⟨o, rfl⟩ := type_object (valid_part h (.head _))
  have hr := hs.readable
  have hreq := (valid_part h (.tail _ (.head _)))
  refine fields_reads ?_
  refine bind_reads (req_reads (valid_required hreq (by simp)) fun x hx => ?_) fun _ => ?_
  · have h := valid_property (valid_part h (.tail _ (.tail _ (.tail _ (.head _))))) (.tail _ (.tail _ (.head _))) hx
    have hs := hs.member hx
    exact enum_reads (type_string (valid_part h (.head _)))
  refine bind_reads (req_reads (valid_required hreq (by simp)) fun x hx => ?_) fun _ => ?_
  · have h := valid_property (valid_part h (.tail _ (.tail _ (.tail _ (.head _))))) (.head _) hx
    have hs := hs.member hx
    exact enum_reads (type_string (valid_part h (.head _)))
  refine bind_reads (opt_reads fun x hx => ?_) fun _ => ?_
  · have h := valid_property (valid_part h (.tail _ (.tail _ (.tail _ (.head _))))) (.tail _ (.head _)) hx
    have hs := hs.member hx
    exact string_reads (type_string h)
  refine bind_reads (opt_reads fun x hx => ?_) fun _ => ?_
  · have h := valid_property (valid_part h (.tail _ (.tail _ (.tail _ (.head _))))) (.tail _ (.tail _ (.tail _ (.head _)))) hx
    have hs := hs.member hx
    refine items_reads (valid_part h (.head _)) (valid_part h (.tail _ (.head _))) hs fun l el y hy h hs => ?_
    exact v14_hash_Hash (v14_ref_hash h) hs
  exact ⟨_, rfl⟩

theorem v14_tool_Tool {n : Nat} {j : Json} (h : Valid (schemaContext F .v1_4) Schema14.tool j) (hs : Sane n j) :
    CanRead (Tool.ofJson .v1_4) j := by
  obtain ⟨o, rfl⟩ := type_object (valid_part h (.head _))
  have hr := hs.readable
  refine fields_reads ?_
  refine bind_reads (opt_reads fun x hx => ?_) fun _ => ?_
  · have h := valid_property (valid_part h (.tail _ (.tail _ (.head _)))) (.head _) hx
    have hs := hs.member hx
    exact string_reads (type_string h)
  refine bind_reads (opt_reads fun x hx => ?_) fun _ => ?_
  · have h := valid_property (valid_part h (.tail _ (.tail _ (.head _)))) (.tail _ (.head _)) hx
    have hs := hs.member hx
    exact string_reads (type_string h)
  refine bind_reads (opt_reads fun x hx => ?_) fun _ => ?_
  · have h := valid_property (valid_part h (.tail _ (.tail _ (.head _)))) (.tail _ (.tail _ (.head _))) hx
    have hs := hs.member hx
    exact string_reads (type_string h)
  refine bind_reads (opt_reads fun x hx => ?_) fun _ => ?_
  · have h := valid_property (valid_part h (.tail _ (.tail _ (.head _)))) (.tail _ (.tail _ (.tail _ (.head _)))) hx
    have hs := hs.member hx
    refine items_reads (valid_part h (.head _)) (valid_part h (.tail _ (.head _))) hs fun l el y hy h hs => ?_
    exact v14_hash_Hash (v14_ref_hash h) hs
  refine bind_reads (opt_reads fun x hx => ?_) fun _ => ?_
  · have h := valid_property (valid_part h (.tail _ (.tail _ (.head _)))) (.tail _ (.tail _ (.tail _ (.tail _ (.head _))))) hx
    have hs := hs.member hx
    refine items_reads (valid_part h (.head _)) (valid_part h (.tail _ (.head _))) hs fun l el y hy h hs => ?_
    exact v14_externalReference_ExternalReference (v14_ref_externalReference h) hs
  exact ⟨_, rfl⟩

theorem v14_organizationalContact_OrganizationalContact {n : Nat} {j : Json} (h : Valid (schemaContext F .v1_4) Schema14.organizationalContact j) (hs : Sane n j) :
    CanRead (OrganizationalContact.ofJson) j := by
  obtain ⟨o, rfl⟩ := type_object (valid_part h (.head _))
  have hr := hs.readable
  refine fields_reads ?_
  refine bind_reads (opt_reads fun x hx => ?_) fun _ => ?_
  · have := valid_closed (valid_part h (.tail _ (.head _))) hx
    simp at this
  refine bind_reads (opt_reads fun x hx => ?_) fun _ => ?_
  · have h := valid_property (valid_part h (.tail _ (.tail _ (.head _)))) (.head _) hx
    have hs := hs.member hx
    exact string_reads (type_string h)
  refine bind_reads (opt_reads fun x hx => ?_) fun _ => ?_
  · have h := valid_property (valid_part h (.tail _ (.tail _ (.head _)))) (.tail _ (.head _)) hx
    have hs := hs.member hx
    exact string_reads (type_string (valid_part h (.head _)))
  refine bind_reads (opt_reads fun x hx => ?_) fun _ => ?_
  · have h := valid_property (valid_part h (.tail _ (.tail _ (.head _)))) (.tail _ (.tail _ (.head _))) hx
    have hs := hs.member hx
    exact string_reads (type_string h)
  exact ⟨_, rfl⟩

theorem v14_organizationalEntity_OrganizationalEntity {n : Nat} {j : Json} (h : Valid (schemaContext F .v1_4) Schema14.organizationalEntity j) (hs : Sane n j) :
    CanRead (OrganizationalEntity.ofJson) j := by
  obtain ⟨o, rfl⟩ := type_object (valid_part h (.head _))
  have hr := hs.readable
  refine fields_reads ?_
  refine bind_reads (opt_reads fun x hx => ?_) fun _ => ?_
  · have := valid_closed (valid_part h (.tail _ (.head _))) hx
    simp at this
  refine bind_reads (opt_reads fun x hx => ?_) fun _ => ?_
  · have h := valid_property (valid_part h (.tail _ (.tail _ (.head _)))) (.head _) hx
    have hs := hs.member hx
    exact string_reads (type_string h)
  refine bind_reads (opt_reads fun x hx => ?_) fun _ => ?_
  · have h := valid_property (valid_part h (.tail _ (.tail _ (.head _)))) (.tail _ (.head _)) hx
    have hs := hs.member hx
    refine items_reads (valid_part h (.head _)) (valid_part h (.tail _ (.head _))) hs fun l el y hy h hs => ?_
    exact string_reads (type_string (valid_part h (.head _)))
  refine bind_reads (opt_reads fun x hx => ?_) fun _ => ?_
  · have h := valid_property (valid_part h (.tail _ (.tail _ (.head _)))) (.tail _ (.tail _ (.head _))) hx
    have hs := hs.member hx
    refine items_reads (valid_part h (.head _)) (valid_part h (.tail _ (.head _))) hs fun l el y hy h hs => ?_
    exact v14_organizationalContact_OrganizationalContact (v14_ref_organizationalContact h) hs
  exact ⟨_, rfl⟩

theorem v14_attachment_AttachedText {n : Nat} {j : Json} (h : Valid (schemaContext F .v1_4) Schema14.attachment j) (hs : Sane n j) :
    CanRead (AttachedText.ofJson) j := by
  obtain ⟨o, rfl⟩ := type_object (valid_part h (.head _))
  have hr := hs.readable
  have hreq := (valid_part h (.tail _ (.head _)))
  refine fields_reads ?_
  refine bind_reads (opt_reads fun x hx => ?_) fun _ => ?_
  · have h := valid_property (valid_part h (.tail _ (.tail _ (.tail _ (.head _))))) (.head _) hx
    have hs := hs.member hx
    exact string_reads (type_string h)
  refine bind_reads (opt_reads fun x hx => ?_) fun _ => ?_
  · have h := valid_property (valid_part h (.tail _ (.tail _ (.tail _ (.head _))))) (.tail _ (.head _)) hx
    have hs := hs.member hx
    exact enum_reads (type_string (valid_part h (.head _)))
  refine bind_reads (req_reads (valid_required hreq (by simp)) fun x hx => ?_) fun _ => ?_
  · have h := valid_property (valid_part h (.tail _ (.tail _ (.tail _ (.head _))))) (.tail _ (.tail _ (.head _))) hx
    have hs := hs.member hx
    exact string_reads (type_string h)
  exact ⟨_, rfl⟩

theorem v14_license_License {n : Nat} {j : Json} (h : Valid (schemaContext F .v1_4) Schema14.license j) (hs : Sane n j) :
    CanRead (License.ofJson .v1_4) j := by
  obtain ⟨o, rfl⟩ := type_object (valid_part h (.head _))
  have hr := hs.readable
  refine fields_reads ?_
  refine bind_reads ⟨_, rfl⟩ fun _ => ?_
  refine bind_reads (?_ : ∃ y, LicenseIdentifier.ofFields o = .ok y) fun _ => ?_
  ·
    obtain ⟨k, hk, ⟨x, hx⟩, -⟩ := oneOf_member (ks := ["id", "name"]) (valid_part h (.tail _ (.tail _ (.tail _ (.head _)))))
    refine flatVariant_reads ?_ ?_
    · simp only [List.mem_cons, List.not_mem_nil, or_false] at hk
      rcases hk with rfl | rfl
      · exact ⟨_, (.head _), x, hx⟩
      · exact ⟨_, (.tail _ (.head _)), x, hx⟩
    · intro p hp x hx
      simp only [List.mem_cons, List.not_mem_nil, or_false] at hp
      rcases hp with rfl | rfl
      · have h := valid_property (valid_part h (.tail _ (.tail _ (.head _)))) (.head _) hx
        have hs := hs.member hx
        refine map_reads (?_ : CanRead (Json.string) x)
        exact string_reads (type_string (valid_part (v14_ref_spdx h) (.head _)))
      · have h := valid_property (valid_part h (.tail _ (.tail _ (.head _)))) (.tail _ (.head _)) hx
        have hs := hs.member hx
        refine map_reads (?_ : CanRead (Json.string) x)
        exact string_reads (type_string h)
  refine bind_reads (opt_reads fun x hx => ?_) fun _ => ?_
  · have h := valid_property (valid_part h (.tail _ (.tail _ (.head _)))) (.tail _ (.tail _ (.head _))) hx
    have hs := hs.member hx
    exact v14_attachment_AttachedText (v14_ref_attachment h) hs
  refine bind_reads (opt_reads fun x hx => ?_) fun _ => ?_
  · have h := valid_property (valid_part h (.tail _ (.tail _ (.head _)))) (.tail _ (.tail _ (.tail _ (.head _)))) hx
    have hs := hs.member hx
    exact string_reads (type_string (valid_part h (.head _)))
  refine bind_reads ⟨_, rfl⟩ fun _ => ?_
  refine bind_reads ⟨_, rfl⟩ fun _ => ?_
  exact ⟨_, rfl⟩

theorem v14_licenseChoice_LicenseChoice {n : Nat} {j : Json} (h : Valid (schemaContext F .v1_4) Schema14.licenseChoice j) (hs : Sane n j) :
    CanRead (LicenseChoice.ofJson .v1_4) j := by
  obtain ⟨o, rfl⟩ := type_object (valid_part h (.head _))
  have hr := hs.readable
  obtain ⟨k, hk, ⟨x, hx⟩, -⟩ := oneOf_member (ks := ["license", "expression"]) (valid_part h (.tail _ (.tail _ (.tail _ (.head _)))))
  simp only [List.mem_cons, List.not_mem_nil, or_false] at hk
  rcases hk with rfl | rfl
  · have e := one_member hs.nodup hx (hr.license ⟨_, _, rfl, hx⟩)
    have h := valid_property (valid_part h (.tail _ (.tail _ (.head _)))) (.head _) hx
    obtain ⟨z, hz⟩ := v14_license_License (v14_ref_license h) (hs.member hx)
    subst e
    exact ⟨.license z, by simp [LicenseChoice.ofJson, Json.tagged, List.lookup, hz, Except.map]⟩
  · have he : CanRead SpdxExpression.ofJson (.obj o) := by
      refine fields_reads ?_
      refine bind_reads (opt_reads fun x hx => string_reads (hr.bomRef _ hx)) fun _ => ?_
      exact bind_reads (req_reads ⟨x, hx⟩ fun x hx => string_reads (type_string (valid_property (valid_part h (.tail _ (.tail _ (.head _)))) (.tail _ (.head _)) hx))) fun _ => ⟨_, rfl⟩
    obtain ⟨z, hz⟩ := he
    unfold CanRead LicenseChoice.ofJson
    split
    · exact ⟨_, rfl⟩
    · exact ⟨_, by rw [hz]; rfl⟩

theorem v14_swid_Swid {n : Nat} {j : Json} (h : Valid (schemaContext F .v1_4) Schema14.swid j) (hs : Sane n j) :
    CanRead (Swid.ofJson) j := by
  obtain ⟨o, rfl⟩ := type_object (valid_part h (.head _))
  have hr := hs.readable
  have hreq := (valid_part h (.tail _ (.head _)))
  refine fields_reads ?_
  refine bind_reads (req_reads (valid_required hreq (by simp)) fun x hx => ?_) fun _ => ?_
  · have h := valid_property (valid_part h (.tail _ (.tail _ (.tail _ (.head _))))) (.head _) hx
    have hs := hs.member hx
    exact string_reads (type_string h)
  refine bind_reads (req_reads (valid_required hreq (by simp)) fun x hx => ?_) fun _ => ?_
  · have h := valid_property (valid_part h (.tail _ (.tail _ (.tail _ (.head _))))) (.tail _ (.head _)) hx
    have hs := hs.member hx
    exact string_reads (type_string h)
  refine bind_reads (opt_reads fun x hx => ?_) fun _ => ?_
  · have h := valid_property (valid_part h (.tail _ (.tail _ (.tail _ (.head _))))) (.tail _ (.tail _ (.head _))) hx
    have hs := hs.member hx
    exact string_reads (type_string h)
  refine bind_reads (opt_reads fun x hx => ?_) fun _ => ?_
  · have h := valid_property (valid_part h (.tail _ (.tail _ (.tail _ (.head _))))) (.tail _ (.tail _ (.tail _ (.head _)))) hx
    have hs := hs.member hx
    exact u32_reads (hr.small _ _ hx (by simp) (integer_number h))
  refine bind_reads (opt_reads fun x hx => ?_) fun _ => ?_
  · have h := valid_property (valid_part h (.tail _ (.tail _ (.tail _ (.head _))))) (.tail _ (.tail _ (.tail _ (.tail _ (.head _))))) hx
    have hs := hs.member hx
    exact boolean_reads h
  refine bind_reads (opt_reads fun x hx => ?_) fun _ => ?_
  · have h := valid_property (valid_part h (.tail _ (.tail _ (.tail _ (.head _))))) (.tail _ (.tail _ (.tail _ (.tail _ (.tail _ (.head _)))))) hx
    have hs := hs.member hx
    exact v14_attachment_AttachedText (v14_ref_attachment h) hs
  refine bind_reads (opt_reads fun x hx => ?_) fun _ => ?_
  · have h := valid_property (valid_part h (.tail _ (.tail _ (.tail _ (.head _))))) (.tail _ (.tail _ (.tail _ (.tail _ (.tail _ (.tail _ (.head _))))))) hx
    have hs := hs.member hx
    exact string_reads (type_string (valid_part h (.head _)))
  exact ⟨_, rfl⟩

theorem v14_identifiableAction_IdentifiableAction {n : Nat} {j : Json} (h : Valid (schemaContext F .v1_4) Schema14.identifiableAction j) (hs : Sane n j) :
    CanRead (IdentifiableAction.ofJson) j := by
  obtain ⟨o, rfl⟩ := type_object (valid_part h (.head _))
  have hr := hs.readable
  refine fields_reads ?_
  refine bind_reads (opt_reads fun x hx => ?_) fun _ => ?_
  · have h := valid_property (valid_part h (.tail _ (.tail _ (.head _)))) (.head _) hx
    have hs := hs.member hx
    exact string_reads (type_string (valid_part h (.head _)))
  refine bind_reads (opt_reads fun x hx => ?_) fun _ => ?_
  · have h := valid_property (valid_part h (.tail _ (.tail _ (.head _)))) (.tail _ (.head _)) hx
    have hs := hs.member hx
    exact string_reads (type_string h)
  refine bind_reads (opt_reads fun x hx => ?_) fun _ => ?_
  · have h := valid_property (valid_part h (.tail _ (.tail _ (.head _)))) (.tail _ (.tail _ (.head _))) hx
    have hs := hs.member hx
    exact string_reads (type_string (valid_part h (.head _)))
  exact ⟨_, rfl⟩

theorem v14_commit_Commit {n : Nat} {j : Json} (h : Valid (schemaContext F .v1_4) Schema14.commit j) (hs : Sane n j) :
    CanRead (Commit.ofJson) j := by
  obtain ⟨o, rfl⟩ := type_object (valid_part h (.head _))
  have hr := hs.readable
  refine fields_reads ?_
  refine bind_reads (opt_reads fun x hx => ?_) fun _ => ?_
  · have h := valid_property (valid_part h (.tail _ (.tail _ (.head _)))) (.head _) hx
    have hs := hs.member hx
    exact string_reads (type_string h)
  refine bind_reads (opt_reads fun x hx => ?_) fun _ => ?_
  · have h := valid_property (valid_part h (.tail _ (.tail _ (.head _)))) (.tail _ (.head _)) hx
    have hs := hs.member hx
    exact string_reads (type_string (valid_part h (.head _)))
  refine bind_reads (opt_reads fun x hx => ?_) fun _ => ?_
  · have h := valid_property (valid_part h (.tail _ (.tail _ (.head _)))) (.tail _ (.tail _ (.head _))) hx
    have hs := hs.member hx
    exact v14_identifiableAction_IdentifiableAction (v14_ref_identifiableAction h) hs
  refine bind_reads (opt_reads fun x hx => ?_) fun _ => ?_
  · have h := valid_property (valid_part h (.tail _ (.tail _ (.head _)))) (.tail _ (.tail _ (.tail _ (.head _)))) hx
    have hs := hs.member hx
    exact v14_identifiableAction_IdentifiableAction (v14_ref_identifiableAction h) hs
  refine bind_reads (opt_reads fun x hx => ?_) fun _ => ?_
  · have h := valid_property (valid_part h (.tail _ (.tail _ (.head _)))) (.tail _ (.tail _ (.tail _ (.tail _ (.head _))))) hx
    have hs := hs.member hx
    exact string_reads (type_string h)
  exact ⟨_, rfl⟩

theorem v14_diff_Diff {n : Nat} {j : Json} (h : Valid (schemaContext F .v1_4) Schema14.diff j) (hs : Sane n j) :
    CanRead (Diff.ofJson) j := by
  obtain ⟨o, rfl⟩ := type_object (valid_part h (.head _))
  have hr := hs.readable
  refine fields_reads ?_
  refine bind_reads (opt_reads fun x hx => ?_) fun _ => ?_
  · have h := valid_property (valid_part h (.tail _ (.tail _ (.head _)))) (.head _) hx
    have hs := hs.member hx
    exact v14_attachment_AttachedText (v14_ref_attachment h) hs
  refine bind_reads (opt_reads fun x hx => ?_) fun _ => ?_
  · have h := valid_property (valid_part h (.tail _ (.tail _ (.head _)))) (.tail _ (.head _)) hx
    have hs := hs.member hx
    exact string_reads (type_string (valid_part h (.head _)))
  exact ⟨_, rfl⟩

theorem v14_issue_Issue {n : Nat} {j : Json} (h : Valid (schemaContext F .v1_4) Schema14.issue j) (hs : Sane n j) :
    CanRead (Issue.ofJson) j := by
  obtain ⟨o, rfl⟩ := type_object (valid_part h (.head _))
  have hr := hs.readable
  have hreq := (valid_part h (.tail _ (.head _)))
  refine fields_reads ?_
  refine bind_reads (req_reads (valid_required hreq (by simp)) fun x hx => ?_) fun _ => ?_
  · have h := valid_property (valid_part h (.tail _ (.tail _ (.tail _ (.head _))))) (.head _) hx
    have hs := hs.member hx
    exact enum_reads (type_string (valid_part h (.head _)))
  refine bind_reads (opt_reads fun x hx => ?_) fun _ => ?_
  · have h := valid_property (valid_part h (.tail _ (.tail _ (.tail _ (.head _))))) (.tail _ (.head _)) hx
    have hs := hs.member hx
    exact string_reads (type_string h)
  refine bind_reads (opt_reads fun x hx => ?_) fun _ => ?_
  · have h := valid_property (valid_part h (.tail _ (.tail _ (.tail _ (.head _))))) (.tail _ (.tail _ (.head _))) hx
    have hs := hs.member hx
    exact string_reads (type_string h)
  refine bind_reads (opt_reads fun x hx => ?_) fun _ => ?_
  · have h := valid_property (valid_part h (.tail _ (.tail _ (.tail _ (.head _))))) (.tail _ (.tail _ (.tail _ (.head _)))) hx
    have hs := hs.member hx
    exact string_reads (type_string h)
  refine bind_reads (opt_reads fun x hx => ?_) fun _ => ?_
  · have h := valid_property (valid_part h (.tail _ (.tail _ (.tail _ (.head _))))) (.tail _ (.tail _ (.tail _ (.tail _ (.head _))))) hx
    have hs := hs.member hx
    obtain ⟨o, rfl⟩ := type_object (valid_part h (.head _))
    have hr := hs.readable
    refine fields_reads ?_
    refine bind_reads (opt_reads fun x hx => ?_) fun _ => ?_
    · have h := valid_property (valid_part h (.tail _ (.tail _ (.head _)))) (.head _) hx
      have hs := hs.member hx
      exact string_reads (type_string h)
    refine bind_reads (opt_reads fun x hx => ?_) fun _ => ?_
    · have h := valid_property (valid_part h (.tail _ (.tail _ (.head _)))) (.tail _ (.head _)) hx
      have hs := hs.member hx
      exact string_reads (type_string (valid_part h (.head _)))
    exact ⟨_, rfl⟩
  refine bind_reads (opt_reads fun x hx => ?_) fun _ => ?_
  · have h := valid_property (valid_part h (.tail _ (.tail _ (.tail _ (.head _))))) (.tail _ (.tail _ (.tail _ (.tail _ (.tail _ (.head _)))))) hx
    have hs := hs.member hx
    refine items_reads (valid_part h (.head _)) (valid_part h (.tail _ (.head _))) hs fun l el y hy h hs => ?_
    exact string_reads (type_string (valid_part h (.head _)))
  exact ⟨_, rfl⟩

theorem v14_patch_Patch {n : Nat} {j : Json} (h : Valid (schemaContext F .v1_4) Schema14.patch j) (hs : Sane n j) :
    CanRead (Patch.ofJson) j := by
  obtain ⟨o, rfl⟩ := type_object (valid_part h (.head _))
  have hr := hs.readable
  have hreq := (valid_part h (.tail _ (.head _)))
  refine fields_reads ?_
  refine bind_reads (req_reads (valid_required hreq (by simp)) fun x hx => ?_) fun _ => ?_
  · have h := valid_property (valid_part h (.tail _ (.tail _ (.tail _ (.head _))))) (.head _) hx
    have hs := hs.member hx
    exact enum_reads (type_string (valid_part h (.head _)))
  refine bind_reads (opt_reads fun x hx => ?_) fun _ => ?_
  · have h := valid_property (valid_part h (.tail _ (.tail _ (.tail _ (.head _))))) (.tail _ (.head _)) hx
    have hs := hs.member hx
    exact v14_diff_Diff (v14_ref_diff h) hs
  refine bind_reads (opt_reads fun x hx => ?_) fun _ => ?_
  · have h := valid_property (valid_part h (.tail _ (.tail _ (.tail _ (.head _))))) (.tail _ (.tail _ (.head _))) hx
    have hs := hs.member hx
    refine items_reads (valid_part h (.head _)) (valid_part h (.tail _ (.head _))) hs fun l el y hy h hs => ?_
    exact v14_issue_Issue (v14_ref_issue h) hs
  exact ⟨_, rfl⟩

theorem v14_property_Property {n : Nat} {j : Json} (h : Valid (schemaContext F .v1_4) Schema14.property j) (hs : Sane n j)
    (hh : Has "name" j ∧ Has "value" j) :
    CanRead (Property.ofJson) j := by
  obtain ⟨o, rfl⟩ := type_object (valid_part h (.head _))
  have hr := hs.readable
  refine fields_reads ?_
  refine bind_reads (req_reads hh.1.lookup fun x hx => ?_) fun _ => ?_
  · have h := valid_property (valid_part h (.tail _ (.head _))) (.head _) hx
    have hs := hs.member hx
    exact string_reads (type_string h)
  refine bind_reads (req_reads hh.2.lookup fun x hx => ?_) fun _ => ?_
  · have h := valid_property (valid_part h (.tail _ (.head _))) (.tail _ (.head _)) hx
    have hs := hs.member hx
    exact string_reads (type_string h)
  exact ⟨_, rfl⟩

theorem v14_copyright_Copyright {n : Nat} {j : Json} (h : Valid (schemaContext F .v1_4) Schema14.copyright j) (hs : Sane n j) :
    CanRead (Copyright.ofJson) j := by
  obtain ⟨o, rfl⟩ := type_object (valid_part h (.head _))
  have hr := hs.readable
  have hreq := (valid_part h (.tail _ (.head _)))
  refine fields_reads ?_
  exact req_reads (valid_required hreq (by simp)) fun x hx => string_reads (type_string (valid_property (valid_part h (.tail _ (.tail _ (.tail _ (.head _))))) (.head _) hx))

theorem v14_componentEvidence_ComponentEvidence {n : Nat} {j : Json} (h : Valid (schemaContext F .v1_4) Schema14.componentEvidence j) (hs : Sane n j) :
    CanRead (ComponentEvidence.ofJson .v1_4) j := by
  obtain ⟨o, rfl⟩ := type_object (valid_part h (.head _))
  have hr := hs.readable
  refine fields_reads ?_
  refine bind_reads (opt_reads fun x hx => ?_) fun _ => ?_
  · have h := valid_property (valid_part h (.tail _ (.tail _ (.head _)))) (.head _) hx
    have hs := hs.member hx
    exact items_reads (valid_part h (.head _)) (valid_part h (.tail _ (.head _))) hs fun l el y hy h hs => v14_licenseChoice_LicenseChoice (v14_ref_licenseChoice h) hs
  refine bind_reads (opt_reads fun x hx => ?_) fun _ => ?_
  · have h := valid_property (valid_part h (.tail _ (.tail _ (.head _)))) (.tail _ (.head _)) hx
    have hs := hs.member hx
    refine items_reads (valid_part h (.head _)) (valid_part h (.tail _ (.head _))) hs fun l el y hy h hs => ?_
    exact v14_copyright_Copyright (v14_ref_copyright h) hs
  refine bind_reads ⟨_, rfl⟩ fun _ => ?_
  refine bind_reads ⟨_, rfl⟩ fun _ => ?_
  refine bind_reads ⟨_, rfl⟩ fun _ => ?_
  exact ⟨_, rfl⟩

theorem v14_component_Component_n (n : Nat) : ∀ {j : Json}, Valid (schemaContext F .v1_4) Schema14.component j → Sane n j →
    CanRead (Component.ofJsonN .v1_4 n) j := by
  induction n with
  | zero =>
    intro j h hs
    obtain ⟨o, rfl⟩ := type_object (valid_part h (.head _))
    cases hs.within
  | succ n ih =>
    intro j h hs
    show CanRead (Component.ofJsonWith (Component.ofJsonN .v1_4 n) .v1_4) j
    obtain ⟨o, rfl⟩ := type_object (valid_part h (.head _))
    have hr := hs.readable
    have hreq := (valid_part h (.tail _ (.head _)))
    refine fields_reads ?_
    refine bind_reads (req_reads (valid_required hreq (by simp)) fun x hx => ?_) fun _ => ?_
    · have h := valid_property (valid_part h (.tail _ (.tail _ (.tail _ (.head _))))) (.head _) hx
      have hs := hs.down hx
      exact enum_reads (type_string (valid_part h (.head _)))
    refine bind_reads (opt_reads fun x hx => ?_) fun _ => ?_
    · have h := valid_property (valid_part h (.tail _ (.tail _ (.tail _ (.head _))))) (.tail _ (.head _)) hx
      have hs := hs.down hx
      exact string_reads (type_string (valid_part h (.head _)))
    refine bind_reads (opt_reads fun x hx => ?_) fun _ => ?_
    · have h := valid_property (valid_part h (.tail _ (.tail _ (.tail _ (.head _))))) (.tail _ (.tail _ (.head _))) hx
      have hs := hs.down hx
      exact string_reads (type_string (v14_ref_refType h))
    refine bind_reads (opt_reads fun x hx => ?_) fun _ => ?_
    · have h := valid_property (valid_part h (.tail _ (.tail _ (.tail _ (.head _))))) (.tail _ (.tail _ (.tail _ (.head _)))) hx
      have hs := hs.down hx
      exact v14_organizationalEntity_OrganizationalEntity (v14_ref_organizationalEntity h) hs
    refine bind_reads (opt_reads fun x hx => ?_) fun _ => ?_
    · have h := valid_property (valid_part h (.tail _ (.tail _ (.tail _ (.head _))))) (.tail _ (.tail _ (.tail _ (.tail _ (.head _))))) hx
      have hs := hs.down hx
      exact string_reads (type_string h)
    refine bind_reads (opt_reads fun x hx => ?_) fun _ => ?_
    · have h := valid_property (valid_part h (.tail _ (.tail _ (.tail _ (.head _))))) (.tail _ (.tail _ (.tail _ (.tail _ (.tail _ (.head _)))))) hx
      have hs := hs.down hx
      exact string_reads (type_string h)
    refine bind_reads (opt_reads fun x hx => ?_) fun _ => ?_
    · have h := valid_property (valid_part h (.tail _ (.tail _ (.tail _ (.head _))))) (.tail _ (.tail _ (.tail _ (.tail _ (.tail _ (.tail _ (.head _))))))) hx
      have hs := hs.down hx
      exact string_reads (type_string h)
    refine bind_reads (req_reads (valid_required hreq (by simp)) fun x hx => ?_) fun _ => ?_
    · have h := valid_property (valid_part h (.tail _ (.tail _ (.tail _ (.head _))))) (.tail _ (.tail _ (.tail _ (.tail _ (.tail _ (.tail _ (.tail _ (.head _)))))))) hx
      have hs := hs.down hx
      exact string_reads (type_string h)
    refine bind_reads (opt_reads fun x hx => ?_) fun _ => ?_
    · have h := valid_property (valid_part h (.tail _ (.tail _ (.tail _ (.head _))))) (.tail _ (.tail _ (.tail _ (.tail _ (.tail _ (.tail _ (.tail _ (.tail _ (.head _))))))))) hx
      have hs := hs.down hx
      exact string_reads (type_string h)
    refine bind_reads (opt_reads fun x hx => ?_) fun _ => ?_
    · have h := valid_property (valid_part h (.tail _ (.tail _ (.tail _ (.head _))))) (.tail _ (.tail _ (.tail _ (.tail _ (.tail _ (.tail _ (.tail _ (.tail _ (.tail _ (.head _)))))))))) hx
      have hs := hs.down hx
      exact string_reads (type_string h)
    refine bind_reads (opt_reads fun x hx => ?_) fun _ => ?_
    · have h := valid_property (valid_part h (.tail _ (.tail _ (.tail _ (.head _))))) (.tail _ (.tail _ (.tail _ (.tail _ (.tail _ (.tail _ (.tail _ (.tail _ (.tail _ (.tail _ (.head _))))))))))) hx
      have hs := hs.down hx
      exact enum_reads (type_string (valid_part h (.head _)))
    refine bind_reads (opt_reads fun x hx => ?_) fun _ => ?_
    · have h := valid_property (valid_part h (.tail _ (.tail _ (.tail _ (.head _))))) (.tail _ (.tail _ (.tail _ (.tail _ (.tail _ (.tail _ (.tail _ (.tail _ (.tail _ (.tail _ (.tail _ (.head _)))))))))))) hx
      have hs := hs.down hx
      refine items_reads (valid_part h (.head _)) (valid_part h (.tail _ (.head _))) hs fun l el y hy h hs => ?_
      exact v14_hash_Hash (v14_ref_hash h) hs
    refine bind_reads (opt_reads fun x hx => ?_) fun _ => ?_
    · have h := valid_property (valid_part h (.tail _ (.tail _ (.tail _ (.head _))))) (.tail _ (.tail _ (.tail _ (.tail _ (.tail _ (.tail _ (.tail _ (.tail _ (.tail _ (.tail _ (.tail _ (.tail _ (.head _))))))))))))) hx
      have hs := hs.down hx
      exact items_reads (valid_part h (.head _)) (valid_part h (.tail _ (.head _))) hs fun l el y hy h hs => v14_licenseChoice_LicenseChoice (v14_ref_licenseChoice h) hs
    refine bind_reads (opt_reads fun x hx => ?_) fun _ => ?_
    · have h := valid_property (valid_part h (.tail _ (.tail _ (.tail _ (.head _))))) (.tail _ (.tail _ (.tail _ (.tail _ (.tail _ (.tail _ (.tail _ (.tail _ (.tail _ (.tail _ (.tail _ (.tail _ (.tail _ (.head _)))))))))))))) hx
      have hs := hs.down hx
      exact string_reads (type_string h)
    refine bind_reads (opt_reads fun x hx => ?_) fun _ => ?_
    · have h := valid_property (valid_part h (.tail _ (.tail _ (.tail _ (.head _))))) (.tail _ (.tail _ (.tail _ (.tail _ (.tail _ (.tail _ (.tail _ (.tail _ (.tail _ (.tail _ (.tail _ (.tail _ (.tail _ (.tail _ (.head _))))))))))))))) hx
      have hs := hs.down hx
      exact string_reads (type_string h)
    refine bind_reads (opt_reads fun x hx => ?_) fun _ => ?_
    · have h := valid_property (valid_part h (.tail _ (.tail _ (.tail _ (.head _))))) (.tail _ (.tail _ (.tail _ (.tail _ (.tail _ (.tail _ (.tail _ (.tail _ (.tail _ (.tail _ (.tail _ (.tail _ (.tail _ (.tail _ (.tail _ (.head _)))))))))))))))) hx
      have hs := hs.down hx
      exact string_reads (type_string h)
    refine bind_reads (opt_reads fun x hx => ?_) fun _ => ?_
    · have h := valid_property (valid_part h (.tail _ (.tail _ (.tail _ (.head _))))) (.tail _ (.tail _ (.tail _ (.tail _ (.tail _ (.tail _ (.tail _ (.tail _ (.tail _ (.tail _ (.tail _ (.tail _ (.tail _ (.tail _ (.tail _ (.tail _ (.head _))))))))))))))))) hx
      have hs := hs.down hx
      exact v14_swid_Swid (v14_ref_swid h) hs
    refine bind_reads (opt_reads fun x hx => ?_) fun _ => ?_
    · have h := valid_property (valid_part h (.tail _ (.tail _ (.tail _ (.head _))))) (.tail _ (.tail _ (.tail _ (.tail _ (.tail _ (.tail _ (.tail _ (.tail _ (.tail _ (.tail _ (.tail _ (.tail _ (.tail _ (.tail _ (.tail _ (.tail _ (.tail _ (.head _)))))))))))))))))) hx
      have hs := hs.down hx
      exact boolean_reads h
    refine bind_reads (opt_reads fun x hx => ?_) fun _ => ?_
    · have h := valid_property (valid_part h (.tail _ (.tail _ (.tail _ (.head _))))) (.tail _ (.tail _ (.tail _ (.tail _ (.tail _ (.tail _ (.tail _ (.tail _ (.tail _ (.tail _ (.tail _ (.tail _ (.tail _ (.tail _ (.tail _ (.tail _ (.tail _ (.tail _ (.head _))))))))))))))))))) hx
      have hs := hs.down hx
      obtain ⟨o, rfl⟩ := type_object (valid_part h (.head _))
      have hr := hs.readable
      refine fields_reads ?_
      refine bind_reads (opt_reads fun x hx => ?_) fun _ => ?_
      · have h := valid_property (valid_part h (.tail _ (.tail _ (.head _)))) (.head _) hx
        have hs := hs.member hx
        refine items_reads (valid_part h (.head _)) (valid_part h (.tail _ (.head _))) hs fun l el y hy h hs => ?_
        exact ih (v14_ref_component h) hs
      refine bind_reads (opt_reads fun x hx => ?_) fun _ => ?_
      · have h := valid_property (valid_part h (.tail _ (.tail _ (.head _)))) (.tail _ (.head _)) hx
        have hs := hs.member hx
        refine items_reads (valid_part h (.head _)) (valid_part h (.tail _ (.head _))) hs fun l el y hy h hs => ?_
        exact ih (v14_ref_component h) hs
      refine bind_reads (opt_reads fun x hx => ?_) fun _ => ?_
      · have h := valid_property (valid_part h (.tail _ (.tail _ (.head _)))) (.tail _ (.tail _ (.head _))) hx
        have hs := hs.member hx
        refine items_reads (valid_part h (.head _)) (valid_part h (.tail _ (.head _))) hs fun l el y hy h hs => ?_
        exact ih (v14_ref_component h) hs
      refine bind_reads (opt_reads fun x hx => ?_) fun _ => ?_
      · have h := valid_property (valid_part h (.tail _ (.tail _ (.head _)))) (.tail _ (.tail _ (.tail _ (.head _)))) hx
        have hs := hs.member hx
        refine items_reads (valid_part h (.head _)) (valid_part h (.tail _ (.head _))) hs fun l el y hy h hs => ?_
        exact v14_commit_Commit (v14_ref_commit h) hs
      refine bind_reads (opt_reads fun x hx => ?_) fun _ => ?_
      · have h := valid_property (valid_part h (.tail _ (.tail _ (.head _)))) (.tail _ (.tail _ (.tail _ (.tail _ (.head _))))) hx
        have hs := hs.member hx
        refine items_reads (valid_part h (.head _)) (valid_part h (.tail _ (.head _))) hs fun l el y hy h hs => ?_
        exact v14_patch_Patch (v14_ref_patch h) hs
      refine bind_reads (opt_reads fun x hx => ?_) fun _ => ?_
      · have h := valid_property (valid_part h (.tail _ (.tail _ (.head _)))) (.tail _ (.tail _ (.tail _ (.tail _ (.tail _ (.head _)))))) hx
        have hs := hs.member hx
        exact string_reads (type_string h)
      exact ⟨_, rfl⟩
    refine bind_reads (opt_reads fun x hx => ?_) fun _ => ?_
    · have h := valid_property (valid_part h (.tail _ (.tail _ (.tail _ (.head _))))) (.tail _ (.tail _ (.tail _ (.tail _ (.tail _ (.tail _ (.tail _ (.tail _ (.tail _ (.tail _ (.tail _ (.tail _ (.tail _ (.tail _ (.tail _ (.tail _ (.tail _ (.tail _ (.tail _ (.head _)))))))))))))))))))) hx
      have hs := hs.down hx
      refine items_reads (valid_part h (.head _)) (valid_part h (.tail _ (.head _))) hs fun l el y hy h hs => ?_
      exact v14_externalReference_ExternalReference (v14_ref_externalReference h) hs
    refine bind_reads (opt_reads fun x hx => ?_) fun _ => ?_
    · have h := valid_property (valid_part h (.tail _ (.tail _ (.tail _ (.head _))))) (.tail _ (.tail _ (.tail _ (.tail _ (.tail _ (.tail _ (.tail _ (.tail _ (.tail _ (.tail _ (.tail _ (.tail _ (.tail _ (.tail _ (.tail _ (.tail _ (.tail _ (.tail _ (.tail _ (.tail _ (.tail _ (.tail _ (.tail _ (.head _)))))))))))))))))))))))) hx
      have hs := hs.down hx
      refine items_reads (valid_part h (.head _)) (valid_part h (.tail _ (.head _))) hs fun l el y hy h hs => ?_
      exact v14_property_Property (v14_ref_property h) hs (hr.named _ (el ▸ hx) _ hy)
    refine bind_reads (opt_reads fun x hx => ?_) fun _ => ?_
    · have h := valid_property (valid_part h (.tail _ (.tail _ (.tail _ (.head _))))) (.tail _ (.tail _ (.tail _ (.tail _ (.tail _ (.tail _ (.tail _ (.tail _ (.tail _ (.tail _ (.tail _ (.tail _ (.tail _ (.tail _ (.tail _ (.tail _ (.tail _ (.tail _ (.tail _ (.tail _ (.head _))))))))))))))))))))) hx
      have hs := hs.down hx
      refine items_reads (valid_part h (.head _)) (valid_part h (.tail _ (.tail _ (.head _)))) hs fun l el y hy h hs => ?_
      exact ih (v14_ref_component h) hs
    refine bind_reads (opt_reads fun x hx => ?_) fun _ => ?_
    · have h := valid_property (valid_part h (.tail _ (.tail _ (.tail _ (.head _))))) (.tail _ (.tail _ (.tail _ (.tail _ (.tail _ (.tail _ (.tail _ (.tail _ (.tail _ (.tail _ (.tail _ (.tail _ (.tail _ (.tail _ (.tail _ (.tail _ (.tail _ (.tail _ (.tail _ (.tail _ (.tail _ (.head _)))))))))))))))))))))) hx
      have hs := hs.down hx
      exact v14_componentEvidence_ComponentEvidence (v14_ref_componentEvidence h) hs
    refine bind_reads (opt_reads fun x hx => ?_) fun _ => ?_
    · have h := valid_property (valid_part h (.tail _ (.tail _ (.tail _ (.head _))))) (.tail _ (.tail _ (.tail _ (.tail _ (.tail _ (.tail _ (.tail _ (.tail _ (.tail _ (.tail _ (.tail _ (.tail _ (.tail _ (.tail _ (.tail _ (.tail _ (.tail _ (.tail _ (.tail _ (.tail _ (.tail _ (.tail _ (.tail _ (.tail _ (.head _))))))))))))))))))))))))) hx
      have hs := hs.down hx
      replace h := (v14_ref_signature h)
      exact signature_reads (v14_ref_jsf_signature h) hs (hr.signature _ hx)
    refine bind_reads ⟨_, rfl⟩ fun _ => ?_
    refine bind_reads ⟨_, rfl⟩ fun _ => ?_
    exact ⟨_, rfl⟩

theorem v14_component_Component {j : Json} (h : Valid (schemaContext F .v1_4) Schema14.component j) (hs : Sane ReadLimit.limit j) :
    CanRead (Component.ofJson .v1_4) j := v14_component_Component_n _ h hs

theorem v14_metadata_Metadata {j : Json} (h : Valid (schemaContext F .v1_4) Schema14.metadata j) (hs : Sane ReadLimit.limit j) :
    CanRead (Metadata.ofJson .v1_4) j := by
  obtain ⟨o, rfl⟩ := type_object (valid_part h (.head _))
  have hr := hs.readable
  refine fields_reads ?_
  refine bind_reads (opt_reads fun x hx => ?_) fun _ => ?_
  · have h := valid_property (valid_part h (.tail _ (.tail _ (.head _)))) (.head _) hx
    have hs := hs.member hx
    exact string_reads (type_string (valid_part h (.head _)))
  refine bind_reads (opt_reads fun x hx => ?_) fun _ => ?_
  · have h := valid_property (valid_part h (.tail _ (.tail _ (.head _)))) (.tail _ (.head _)) hx
    have hs := hs.member hx
    have hl : CanRead (Json.array (Tool.ofJson .v1_4)) _ := items_reads (valid_part h (.head _)) (valid_part h (.tail _ (.head _))) hs fun l el y hy h hs => v14_tool_Tool (v14_ref_tool h) hs
    obtain ⟨z, hz⟩ := hl
    exact ⟨.list z, by simp only [Tools.ofJson, hz]⟩
  refine bind_reads (opt_reads fun x hx => ?_) fun _ => ?_
  · have h := valid_property (valid_part h (.tail _ (.tail _ (.head _)))) (.tail _ (.tail _ (.head _))) hx
    have hs := hs.member hx
    refine items_reads (valid_part h (.head _)) (valid_part h (.tail _ (.head _))) hs fun l el y hy h hs => ?_
    exact v14_organizationalContact_OrganizationalContact (v14_ref_organizationalContact h) hs
  refine bind_reads (opt_reads fun x hx => ?_) fun _ => ?_
  · have h := valid_property (valid_part h (.tail _ (.tail _ (.head _)))) (.tail _ (.tail _ (.tail _ (.head _)))) hx
    have hs := hs.member hx
    exact v14_component_Component (v14_ref_component h) hs
  refine bind_reads (opt_reads fun x hx => ?_) fun _ => ?_
  · have h := valid_property (valid_part h (.tail _ (.tail _ (.head _)))) (.tail _ (.tail _ (.tail _ (.tail _ (.head _))))) hx
    have hs := hs.member hx
    exact v14_organizationalEntity_OrganizationalEntity (v14_ref_organizationalEntity h) hs
  refine bind_reads (opt_reads fun x hx => ?_) fun _ => ?_
  · have h := valid_property (valid_part h (.tail _ (.tail _ (.head _)))) (.tail _ (.tail _ (.tail _ (.tail _ (.tail _ (.head _)))))) hx
    have hs := hs.member hx
    exact v14_organizationalEntity_OrganizationalEntity (v14_ref_organizationalEntity h) hs
  refine bind_reads (opt_reads fun x hx => ?_) fun _ => ?_
  · have h := valid_property (valid_part h (.tail _ (.tail _ (.head _)))) (.tail _ (.tail _ (.tail _ (.tail _ (.tail _ (.tail _ (.head _))))))) hx
    have hs := hs.member hx
    exact items_reads (valid_part h (.head _)) (valid_part h (.tail _ (.head _))) hs fun l el y hy h hs => v14_licenseChoice_LicenseChoice (v14_ref_licenseChoice h) hs
  refine bind_reads (opt_reads fun x hx => ?_) fun _ => ?_
  · have h := valid_property (valid_part h (.tail _ (.tail _ (.head _)))) (.tail _ (.tail _ (.tail _ (.tail _ (.tail _ (.tail _ (.tail _ (.head _)))))))) hx
    have hs := hs.member hx
    refine items_reads (valid_part h (.head _)) (valid_part h (.tail _ (.head _))) hs fun l el y hy h hs => ?_
    exact v14_property_Property (v14_ref_property h) hs (hr.named _ (el ▸ hx) _ hy)
  refine bind_reads ⟨_, rfl⟩ fun _ => ?_
  exact ⟨_, rfl⟩

theorem v14_dataClassification_DataClassification {n : Nat} {j : Json} (h : Valid (schemaContext F .v1_4) Schema14.dataClassification j) (hs : Sane n j) :
    CanRead (DataClassification.ofJson) j := by
  obtain ⟨o, rfl⟩ := type_object (valid_part h (.head _))
  have hr := hs.readable
  have hreq := (valid_part h (.tail _ (.head _)))
  refine fields_reads ?_
  refine bind_reads (req_reads (valid_required hreq (by simp)) fun x hx => ?_) fun _ => ?_
  · have h := valid_property (valid_part h (.tail _ (.tail _ (.tail _ (.head _))))) (.head _) hx
    have hs := hs.member hx
    exact enum_reads (type_string (valid_part (v14_ref_dataFlow h) (.head _)))
  refine bind_reads (req_reads (valid_required hreq (by simp)) fun x hx => ?_) fun _ => ?_
  · have h := valid_property (valid_part h (.tail _ (.tail _ (.tail _ (.head _))))) (.tail _ (.head _)) hx
    have hs := hs.member hx
    exact string_reads (type_string h)
  exact ⟨_, rfl⟩

theorem v14_service_Service_n (n : Nat) : ∀ {j : Json}, Valid (schemaContext F .v1_4) Schema14.service j → Sane n j →
    CanRead (Service.ofJsonN .v1_4 n) j := by
  induction n with
  | zero =>
    intro j h hs
    obtain ⟨o, rfl⟩ := type_object (valid_part h (.head _))
    cases hs.within
  | succ n ih =>
    intro j h hs
    show CanRead (Service.ofJsonWith (Service.ofJsonN .v1_4 n) .v1_4) j
    obtain ⟨o, rfl⟩ := type_object (valid_part h (.head _))
    have hr := hs.readable
    have hreq := (valid_part h (.tail _ (.head _)))
    refine fields_reads ?_
    refine bind_reads (opt_reads fun x hx => ?_) fun _ => ?_
    · have h := valid_property (valid_part h (.tail _ (.tail _ (.tail _ (.head _))))) (.head _) hx
      have hs := hs.down hx
      exact string_reads (type_string (v14_ref_refType h))
    refine bind_reads (opt_reads fun x hx => ?_) fun _ => ?_
    · have h := valid_property (valid_part h (.tail _ (.tail _ (.tail _ (.head _))))) (.tail _ (.head _)) hx
      have hs := hs.down hx
      exact v14_organizationalEntity_OrganizationalEntity (v14_ref_organizationalEntity h) hs
    refine bind_reads (opt_reads fun x hx => ?_) fun _ => ?_
    · have h := valid_property (valid_part h (.tail _ (.tail _ (.tail _ (.head _))))) (.tail _ (.tail _ (.head _))) hx
      have hs := hs.down hx
      exact string_reads (type_string h)
    refine bind_reads (req_reads (valid_required hreq (by simp)) fun x hx => ?_) fun _ => ?_
    · have h := valid_property (valid_part h (.tail _ (.tail _ (.tail _ (.head _))))) (.tail _ (.tail _ (.tail _ (.head _)))) hx
      have hs := hs.down hx
      exact string_reads (type_string h)
    refine bind_reads (opt_reads fun x hx => ?_) fun _ => ?_
    · have h := valid_property (valid_part h (.tail _ (.tail _ (.tail _ (.head _))))) (.tail _ (.tail _ (.tail _ (.tail _ (.head _))))) hx
      have hs := hs.down hx
      exact string_reads (type_string h)
    refine bind_reads (opt_reads fun x hx => ?_) fun _ => ?_
    · have h := valid_property (valid_part h (.tail _ (.tail _ (.tail _ (.head _))))) (.tail _ (.tail _ (.tail _ (.tail _ (.tail _ (.head _)))))) hx
      have hs := hs.down hx
      exact string_reads (type_string h)
    refine bind_reads (opt_reads fun x hx => ?_) fun _ => ?_
    · have h := valid_property (valid_part h (.tail _ (.tail _ (.tail _ (.head _))))) (.tail _ (.tail _ (.tail _ (.tail _ (.tail _ (.tail _ (.head _))))))) hx
      have hs := hs.down hx
      refine items_reads (valid_part h (.head _)) (valid_part h (.tail _ (.head _))) hs fun l el y hy h hs => ?_
      exact string_reads (type_string (valid_part h (.head _)))
    refine bind_reads (opt_reads fun x hx => ?_) fun _ => ?_
    · have h := valid_property (valid_part h (.tail _ (.tail _ (.tail _ (.head _))))) (.tail _ (.tail _ (.tail _ (.tail _ (.tail _ (.tail _ (.tail _ (.head _)))))))) hx
      have hs := hs.down hx
      exact boolean_reads h
    refine bind_reads (opt_reads fun x hx => ?_) fun _ => ?_
    · have h := valid_property (valid_part h (.tail _ (.tail _ (.tail _ (.head _))))) (.tail _ (.tail _ (.tail _ (.tail _ (.tail _ (.tail _ (.tail _ (.tail _ (.head _))))))))) hx
      have hs := hs.down hx
      exact boolean_reads h
    refine bind_reads (opt_reads fun x hx => ?_) fun _ => ?_
    · have h := valid_property (valid_part h (.tail _ (.tail _ (.tail _ (.head _))))) (.tail _ (.tail _ (.tail _ (.tail _ (.tail _ (.tail _ (.tail _ (.tail _ (.tail _ (.head _)))))))))) hx
      have hs := hs.down hx
      have hl : CanRead (Json.array DataClassification.ofJson) _ := items_reads (valid_part h (.head _)) (valid_part h (.tail _ (.head _))) hs fun l el y hy h hs => v14_dataClassification_DataClassification (v14_ref_dataClassification h) hs
      obtain ⟨z, hz⟩ := hl
      exact ⟨.classification z, by simp only [ServiceDataChoice.ofJson, hz]⟩
    refine bind_reads (opt_reads fun x hx => ?_) fun _ => ?_
    · have h := valid_property (valid_part h (.tail _ (.tail _ (.tail _ (.head _))))) (.tail _ (.tail _ (.tail _ (.tail _ (.tail _ (.tail _ (.tail _ (.tail _ (.tail _ (.tail _ (.head _))))))))))) hx
      have hs := hs.down hx
      exact items_reads (valid_part h (.head _)) (valid_part h (.tail _ (.head _))) hs fun l el y hy h hs => v14_licenseChoice_LicenseChoice (v14_ref_licenseChoice h) hs
    refine bind_reads (opt_reads fun x hx => ?_) fun _ => ?_
    · have h := valid_property (valid_part h (.tail _ (.tail _ (.tail _ (.head _))))) (.tail _ (.tail _ (.tail _ (.tail _ (.tail _ (.tail _ (.tail _ (.tail _ (.tail _ (.tail _ (.tail _ (.head _)))))))))))) hx
      have hs := hs.down hx
      refine items_reads (valid_part h (.head _)) (valid_part h (.tail _ (.head _))) hs fun l el y hy h hs => ?_
      exact v14_externalReference_ExternalReference (v14_ref_externalReference h) hs
    refine bind_reads (opt_reads fun x hx => ?_) fun _ => ?_
    · have h := valid_property (valid_part h (.tail _ (.tail _ (.tail _ (.head _))))) (.tail _ (.tail _ (.tail _ (.tail _ (.tail _ (.tail _ (.tail _ (.tail _ (.tail _ (.tail _ (.tail _ (.tail _ (.tail _ (.tail _ (.head _))))))))))))))) hx
      have hs := hs.down hx
      refine items_reads (valid_part h (.head _)) (valid_part h (.tail _ (.head _))) hs fun l el y hy h hs => ?_
      exact v14_property_Property (v14_ref_property h) hs (hr.named _ (el ▸ hx) _ hy)
    refine bind_reads (opt_reads fun x hx => ?_) fun _ => ?_
    · have h := valid_property (valid_part h (.tail _ (.tail _ (.tail _ (.head _))))) (.tail _ (.tail _ (.tail _ (.tail _ (.tail _ (.tail _ (.tail _ (.tail _ (.tail _ (.tail _ (.tail _ (.tail _ (.head _))))))))))))) hx
      have hs := hs.down hx
      refine items_reads (valid_part h (.head _)) (valid_part h (.tail _ (.tail _ (.head _)))) hs fun l el y hy h hs => ?_
      exact ih (v14_ref_service h) hs
    refine bind_reads (opt_reads fun x hx => ?_) fun _ => ?_
    · have h := valid_property (valid_part h (.tail _ (.tail _ (.tail _ (.head _))))) (.tail _ (.tail _ (.tail _ (.tail _ (.tail _ (.tail _ (.tail _ (.tail _ (.tail _ (.tail _ (.tail _ (.tail _ (.tail _ (.tail _ (.tail _ (.head _)))))))))))))))) hx
      have hs := hs.down hx
      replace h := (v14_ref_signature h)
      exact signature_reads (v14_ref_jsf_signature h) hs (hr.signature _ hx)
    refine bind_reads ⟨_, rfl⟩ fun _ => ?_
    exact ⟨_, rfl⟩

theorem v14_service_Service {j : Json} (h : Valid (schemaContext F .v1_4) Schema14.service j) (hs : Sane ReadLimit.limit j) :
    CanRead (Service.ofJson .v1_4) j := v14_service_Service_n _ h hs

theorem v14_dependency_Dependency {n : Nat} {j : Json} (h : Valid (schemaContext F .v1_4) Schema14.dependency j) (hs : Sane n j) :
    CanRead (Dependency.ofJson) j := by
  obtain ⟨o, rfl⟩ := type_object (valid_part h (.head _))
  have hr := hs.readable
  have hreq := (valid_part h (.tail _ (.head _)))
  refine fields_reads ?_
  refine bind_reads (req_reads (valid_required hreq (by simp)) fun x hx => ?_) fun _ => ?_
  · have h := valid_property (valid_part h (.tail _ (.tail _ (.tail _ (.head _))))) (.head _) hx
    have hs := hs.member hx
    exact string_reads (type_string (v14_ref_refType h))
  refine bind_reads (orEmpty_reads fun x hx => ?_) fun _ => ?_
  · have h := valid_property (valid_part h (.tail _ (.tail _ (.tail _ (.head _))))) (.tail _ (.head _)) hx
    have hs := hs.member hx
    refine items_reads (valid_part h (.head _)) (valid_part h (.tail _ (.tail _ (.head _)))) hs fun l el y hy h hs => ?_
    exact string_reads (type_string (v14_ref_refType h))
  exact ⟨_, rfl⟩

theorem v14_compositions_Composition {n : Nat} {j : Json} (h : Valid (schemaContext F .v1_4) Schema14.compositions j) (hs : Sane n j) :
    CanRead (Composition.ofJson .v1_4) j := by
  obtain ⟨o, rfl⟩ := type_object (valid_part h (.head _))
  have hr := hs.readable
  have hreq := (valid_part h (.tail _ (.head _)))
  refine fields_reads ?_
  refine bind_reads ⟨_, rfl⟩ fun _ => ?_
  refine bind_reads (req_reads (valid_required hreq (by simp)) fun x hx => ?_) fun _ => ?_
  · have h := valid_property (valid_part h (.tail _ (.tail _ (.tail _ (.head _))))) (.head _) hx
    have hs := hs.member hx
    exact enum_reads (type_string (valid_part (v14_ref_aggregateType h) (.head _)))
  refine bind_reads (opt_reads fun x hx => ?_) fun _ => ?_
  · have h := valid_property (valid_part h (.tail _ (.tail _ (.tail _ (.head _))))) (.tail _ (.head _)) hx
    have hs := hs.member hx
    refine items_reads (valid_part h (.head _)) (valid_part h (.tail _ (.tail _ (.head _)))) hs fun l el y hy h hs => ?_
    exact string_reads (type_string h)
  refine bind_reads (opt_reads fun x hx => ?_) fun _ => ?_
  · have h := valid_property (valid_part h (.tail _ (.tail _ (.tail _ (.head _))))) (.tail _ (.tail _ (.head _))) hx
    have hs := hs.member hx
    refine items_reads (valid_part h (.head _)) (valid_part h (.tail _ (.tail _ (.head _)))) hs fun l el y hy h hs => ?_
    exact string_reads (type_string h)
  refine bind_reads ⟨_, rfl⟩ fun _ => ?_
  refine bind_reads (opt_reads fun x hx => ?_) fun _ => ?_
  · have h := valid_property (valid_part h (.tail _ (.tail _ (.tail _ (.head _))))) (.tail _ (.tail _ (.tail _ (.head _)))) hx
    have hs := hs.member hx
    replace h := (v14_ref_signature h)
    exact signature_reads (v14_ref_jsf_signature h) hs (hr.signature _ hx)
  exact ⟨_, rfl⟩

theorem v14_vulnerabilitySource_VulnerabilitySource {n : Nat} {j : Json} (h : Valid (schemaContext F .v1_4) Schema14.vulnerabilitySource j) (hs : Sane n j) :
    CanRead (VulnerabilitySource.ofJson) j := by
  obtain ⟨o, rfl⟩ := type_object (valid_part h (.head _))
  have hr := hs.readable
  refine fields_reads ?_
  refine bind_reads (opt_reads fun x hx => ?_) fun _ => ?_
  · have h := valid_property (valid_part h (.tail _ (.tail _ (.head _)))) (.tail _ (.head _)) hx
    have hs := hs.member hx
    exact string_reads (type_string h)
  refine bind_reads (opt_reads fun x hx => ?_) fun _ => ?_
  · have h := valid_property (valid_part h (.tail _ (.tail _ (.head _)))) (.head _) hx
    have hs := hs.member hx
    exact string_reads (type_string h)
  exact ⟨_, rfl⟩

theorem v14_rating_VulnerabilityRating {n : Nat} {j : Json} (h : Valid (schemaContext F .v1_4) Schema14.rating j) (hs : Sane n j) :
    CanRead (VulnerabilityRating.ofJson) j := by
  obtain ⟨o, rfl⟩ := type_object (valid_part h (.head _))
  have hr := hs.readable
  refine fields_reads ?_
  refine bind_reads (opt_reads fun x hx => ?_) fun _ => ?_
  · have h := valid_property (valid_part h (.tail _ (.tail _ (.head _)))) (.head _) hx
    have hs := hs.member hx
    exact v14_vulnerabilitySource_VulnerabilitySource (v14_ref_vulnerabilitySource h) hs
  refine bind_reads (opt_reads fun x hx => ?_) fun _ => ?_
  · have h := valid_property (valid_part h (.tail _ (.tail _ (.head _)))) (.tail _ (.head _)) hx
    have hs := hs.member hx
    exact f32_reads (type_number h) (fun e => hr.numbers _ (e ▸ hx))
  refine bind_reads (opt_reads fun x hx => ?_) fun _ => ?_
  · have h := valid_property (valid_part h (.tail _ (.tail _ (.head _)))) (.tail _ (.tail _ (.head _))) hx
    have hs := hs.member hx
    exact enum_reads (type_string (valid_part (v14_ref_severity h) (.head _)))
  refine bind_reads (opt_reads fun x hx => ?_) fun _ => ?_
  · have h := valid_property (valid_part h (.tail _ (.tail _ (.head _)))) (.tail _ (.tail _ (.tail _ (.head _)))) hx
    have hs := hs.member hx
    exact enum_reads (type_string (valid_part (v14_ref_scoreMethod h) (.head _)))
  refine bind_reads (opt_reads fun x hx => ?_) fun _ => ?_
  · have h := valid_property (valid_part h (.tail _ (.tail _ (.head _)))) (.tail _ (.tail _ (.tail _ (.tail _ (.head _))))) hx
    have hs := hs.member hx
    exact string_reads (type_string h)
  refine bind_reads (opt_reads fun x hx => ?_) fun _ => ?_
  · have h := valid_property (valid_part h (.tail _ (.tail _ (.head _)))) (.tail _ (.tail _ (.tail _ (.tail _ (.tail _ (.head _)))))) hx
    have hs := hs.member hx
    exact string_reads (type_string h)
  exact ⟨_, rfl⟩

theorem v14_advisory_Advisory {n : Nat} {j : Json} (h : Valid (schemaContext F .v1_4) Schema14.advisory j) (hs : Sane n j) :
    CanRead (Advisory.ofJson) j := by
  obtain ⟨o, rfl⟩ := type_object (valid_part h (.head _))
  have hr := hs.readable
  have hreq := (valid_part h (.tail _ (.head _)))
  refine fields_reads ?_
  refine bind_reads (opt_reads fun x hx => ?_) fun _ => ?_
  · have h := valid_property (valid_part h (.tail _ (.tail _ (.tail _ (.head _))))) (.head _) hx
    have hs := hs.member hx
    exact string_reads (type_string h)
  refine bind_reads (req_reads (valid_required hreq (by simp)) fun x hx => ?_) fun _ => ?_
  · have h := valid_property (valid_part h (.tail _ (.tail _ (.tail _ (.head _))))) (.tail _ (.head _)) hx
    have hs := hs.member hx
    exact string_reads (type_string (valid_part h (.head _)))
  exact ⟨_, rfl⟩

theorem v14_vulnerability_Vulnerability {n : Nat} {j : Json} (h : Valid (schemaContext F .v1_4) Schema14.vulnerability j) (hs : Sane n j) :
    CanRead (Vulnerability.ofJson .v1_4) j := by
  obtain ⟨o, rfl⟩ := type_object (valid_part h (.head _))
  have hr := hs.readable
  have hnotype : ¬ Has "type" (.obj o) := fun ⟨_, _, e, m⟩ => by
    cases e
    have := valid_closed (valid_part h (.tail _ (.head _))) m
    simp at this
  refine fields_reads ?_
  refine bind_reads (opt_reads fun x hx => ?_) fun _ => ?_
  · have h := valid_property (valid_part h (.tail _ (.tail _ (.head _)))) (.head _) hx
    have hs := hs.member hx
    exact string_reads (type_string (v14_ref_refType h))
  refine bind_reads (opt_reads fun x hx => ?_) fun _ => ?_
  · have h := valid_property (valid_part h (.tail _ (.tail _ (.head _)))) (.tail _ (.head _)) hx
    have hs := hs.member hx
    exact string_reads (type_string h)
  refine bind_reads (opt_reads fun x hx => ?_) fun _ => ?_
  · have h := valid_property (valid_part h (.tail _ (.tail _ (.head _)))) (.tail _ (.tail _ (.head _))) hx
    have hs := hs.member hx
    exact v14_vulnerabilitySource_VulnerabilitySource (v14_ref_vulnerabilitySource h) hs
  refine bind_reads (opt_reads fun x hx => ?_) fun _ => ?_
  · have h := valid_property (valid_part h (.tail _ (.tail _ (.head _)))) (.tail _ (.tail _ (.tail _ (.head _)))) hx
    have hs := hs.member hx
    refine items_reads (valid_part h (.head _)) (valid_part h (.tail _ (.head _))) hs fun l el y hy h hs => ?_
    obtain ⟨o, rfl⟩ := hr.references _ hnotype (el ▸ hx) _ hy
    have hr := hs.readable
    have hreq := (valid_part h (.head _))
    refine fields_reads ?_
    refine bind_reads (req_reads (valid_required hreq (by simp)) fun x hx => ?_) fun _ => ?_
    · have h := valid_property (valid_part h (.tail _ (.tail _ (.head _)))) (.head _) hx
      have hs := hs.member hx
      exact string_reads (type_string h)
    refine bind_reads (req_reads (valid_required hreq (by simp)) fun x hx => ?_) fun _ => ?_
    · have h := valid_property (valid_part h (.tail _ (.tail _ (.head _)))) (.tail _ (.head _)) hx
      have hs := hs.member hx
      exact v14_vulnerabilitySource_VulnerabilitySource (v14_ref_vulnerabilitySource h) hs
    exact ⟨_, rfl⟩
  refine bind_reads (opt_reads fun x hx => ?_) fun _ => ?_
  · have h := valid_property (valid_part h (.tail _ (.tail _ (.head _)))) (.tail _ (.tail _ (.tail _ (.tail _ (.head _))))) hx
    have hs := hs.member hx
    refine items_reads (valid_part h (.head _)) (valid_part h (.tail _ (.head _))) hs fun l el y hy h hs => ?_
    exact v14_rating_VulnerabilityRating (v14_ref_rating h) hs
  refine bind_reads (opt_reads fun x hx => ?_) fun _ => ?_
  · have h := valid_property (valid_part h (.tail _ (.tail _ (.head _)))) (.tail _ (.tail _ (.tail _ (.tail _ (.tail _ (.head _)))))) hx
    have hs := hs.member hx
    refine items_reads (valid_part h (.head _)) (valid_part h (.tail _ (.head _))) hs fun l el y hy h hs => ?_
    exact u32_reads (hr.cwes _ (el ▸ hx) _ hy)
  refine bind_reads (opt_reads fun x hx => ?_) fun _ => ?_
  · have h := valid_property (valid_part h (.tail _ (.tail _ (.head _)))) (.tail _ (.tail _ (.tail _ (.tail _ (.tail _ (.tail _ (.head _))))))) hx
    have hs := hs.member hx
    exact string_reads (type_string h)
  refine bind_reads (opt_reads fun x hx => ?_) fun _ => ?_
  · have h := valid_property (valid_part h (.tail _ (.tail _ (.head _)))) (.tail _ (.tail _ (.tail _ (.tail _ (.tail _ (.tail _ (.tail _ (.head _)))))))) hx
    have hs := hs.member hx
    exact string_reads (type_string h)
  refine bind_reads (opt_reads fun x hx => ?_) fun _ => ?_
  · have h := valid_property (valid_part h (.tail _ (.tail _ (.head _)))) (.tail _ (.tail _ (.tail _ (.tail _ (.tail _ (.tail _ (.tail _ (.tail _ (.head _))))))))) hx
    have hs := hs.member hx
    exact string_reads (type_string h)
  refine bind_reads ⟨_, rfl⟩ fun _ => ?_
  refine bind_reads ⟨_, rfl⟩ fun _ => ?_
  refine bind_reads (opt_reads fun x hx => ?_) fun _ => ?_
  · have h := valid_property (valid_part h (.tail _ (.tail _ (.head _)))) (.tail _ (.tail _ (.tail _ (.tail _ (.tail _ (.tail _ (.tail _ (.tail _ (.tail _ (.head _)))))))))) hx
    have hs := hs.member hx
    refine items_reads (valid_part h (.head _)) (valid_part h (.tail _ (.head _))) hs fun l el y hy h hs => ?_
    exact v14_advisory_Advisory (v14_ref_advisory h) hs
  refine bind_reads (opt_reads fun x hx => ?_) fun _ => ?_
  · have h := valid_property (valid_part h (.tail _ (.tail _ (.head _)))) (.tail _ (.tail _ (.tail _ (.tail _ (.tail _ (.tail _ (.tail _ (.tail _ (.tail _ (.tail _ (.head _))))))))))) hx
    have hs := hs.member hx
    exact string_reads (type_string (valid_part h (.head _)))
  refine bind_reads (opt_reads fun x hx => ?_) fun _ => ?_
  · have h := valid_property (valid_part h (.tail _ (.tail _ (.head _)))) (.tail _ (.tail _ (.tail _ (.tail _ (.tail _ (.tail _ (.tail _ (.tail _ (.tail _ (.tail _ (.tail _ (.head _)))))))))))) hx
    have hs := hs.member hx
    exact string_reads (type_string (valid_part h (.head _)))
  refine bind_reads (opt_reads fun x hx => ?_) fun _ => ?_
  · have h := valid_property (valid_part h (.tail _ (.tail _ (.head _)))) (.tail _ (.tail _ (.tail _ (.tail _ (.tail _ (.tail _ (.tail _ (.tail _ (.tail _ (.tail _ (.tail _ (.tail _ (.head _))))))))))))) hx
    have hs := hs.member hx
    exact string_reads (type_string (valid_part h (.head _)))
  refine bind_reads ⟨_, rfl⟩ fun _ => ?_
  refine bind_reads (opt_reads fun x hx => ?_) fun _ => ?_
  · have h := valid_property (valid_part h (.tail _ (.tail _ (.head _)))) (.tail _ (.tail _ (.tail _ (.tail _ (.tail _ (.tail _ (.tail _ (.tail _ (.tail _ (.tail _ (.tail _ (.tail _ (.tail _ (.head _)))))))))))))) hx
    have hs := hs.member hx
    obtain ⟨o, rfl⟩ := type_object (valid_part h (.head _))
    have hr := hs.readable
    refine fields_reads ?_
    refine bind_reads (opt_reads fun x hx => ?_) fun _ => ?_
    · have h := valid_property (valid_part h (.tail _ (.tail _ (.head _)))) (.head _) hx
      have hs := hs.member hx
      refine items_reads (valid_part h (.head _)) (valid_part h (.tail _ (.head _))) hs fun l el y hy h hs => ?_
      exact v14_organizationalEntity_OrganizationalEntity (v14_ref_organizationalEntity h) hs
    refine bind_reads (opt_reads fun x hx => ?_) fun _ => ?_
    · have h := valid_property (valid_part h (.tail _ (.tail _ (.head _)))) (.tail _ (.head _)) hx
      have hs := hs.member hx
      refine items_reads (valid_part h (.head _)) (valid_part h (.tail _ (.head _))) hs fun l el y hy h hs => ?_
      exact v14_organizationalContact_OrganizationalContact (v14_ref_organizationalContact h) hs
    exact ⟨_, rfl⟩
  refine bind_reads (opt_reads fun x hx => ?_) fun _ => ?_
  · have h := valid_property (valid_part h (.tail _ (.tail _ (.head _)))) (.tail _ (.tail _ (.tail _ (.tail _ (.tail _ (.tail _ (.tail _ (.tail _ (.tail _ (.tail _ (.tail _ (.tail _ (.tail _ (.tail _ (.head _))))))))))))))) hx
    have hs := hs.member hx
    have hl : CanRead (Json.array (Tool.ofJson .v1_4)) _ := items_reads (valid_part h (.head _)) (valid_part h (.tail _ (.head _))) hs fun l el y hy h hs => v14_tool_Tool (v14_ref_tool h) hs
    obtain ⟨z, hz⟩ := hl
    exact ⟨.list z, by simp only [Tools.ofJson, hz]⟩
  refine bind_reads (opt_reads fun x hx => ?_) fun _ => ?_
  · have h := valid_property (valid_part h (.tail _ (.tail _ (.head _)))) (.tail _ (.tail _ (.tail _ (.tail _ (.tail _ (.tail _ (.tail _ (.tail _ (.tail _ (.tail _ (.tail _ (.tail _ (.tail _ (.tail _ (.tail _ (.head _)))))))))))))))) hx
    have hs := hs.member hx
    obtain ⟨o, rfl⟩ := type_object (valid_part h (.head _))
    have hr := hs.readable
    refine fields_reads ?_
    refine bind_reads (opt_reads fun x hx => ?_) fun _ => ?_
    · have h := valid_property (valid_part h (.tail _ (.tail _ (.head _)))) (.head _) hx
      have hs := hs.member hx
      exact enum_reads (type_string (valid_part (v14_ref_impactAnalysisState h) (.head _)))
    refine bind_reads (opt_reads fun x hx => ?_) fun _ => ?_
    · have h := valid_property (valid_part h (.tail _ (.tail _ (.head _)))) (.tail _ (.head _)) hx
      have hs := hs.member hx
      exact enum_reads (type_string (valid_part (v14_ref_impactAnalysisJustification h) (.head _)))
    refine bind_reads (opt_reads fun x hx => ?_) fun _ => ?_
    · have := valid_closed (valid_part h (.tail _ (.head _))) hx
      simp at this
    refine bind_reads (opt_reads fun x hx => ?_) fun _ => ?_
    · have h := valid_property (valid_part h (.tail _ (.tail _ (.head _)))) (.tail _ (.tail _ (.tail _ (.head _)))) hx
      have hs := hs.member hx
      exact string_reads (type_string h)
    refine bind_reads ⟨_, rfl⟩ fun _ => ?_
    refine bind_reads ⟨_, rfl⟩ fun _ => ?_
    exact ⟨_, rfl⟩
  refine bind_reads (opt_reads fun x hx => ?_) fun _ => ?_
  · have h := valid_property (valid_part h (.tail _ (.tail _ (.head _)))) (.tail _ (.tail _ (.tail _ (.tail _ (.tail _ (.tail _ (.tail _ (.tail _ (.tail _ (.tail _ (.tail _ (.tail _ (.tail _ (.tail _ (.tail _ (.tail _ (.head _))))))))))))))))) hx
    have hs := hs.member hx
    refine items_reads (valid_part h (.head _)) (valid_part h (.tail _ (.tail _ (.head _)))) hs fun l el y hy h hs => ?_
    obtain ⟨o, rfl⟩ := hr.targets _ (el ▸ hx) _ hy
    have hr := hs.readable
    have hreq := (valid_part h (.head _))
    refine fields_reads ?_
    refine bind_reads (req_reads (valid_required hreq (by simp)) fun x hx => ?_) fun _ => ?_
    · have h := valid_property (valid_part h (.tail _ (.tail _ (.head _)))) (.head _) hx
      have hs := hs.member hx
      exact string_reads (type_string (v14_ref_refType h))
    refine bind_reads (opt_reads fun x hx => ?_) fun _ => ?_
    · have h := valid_property (valid_part h (.tail _ (.tail _ (.head _)))) (.tail _ (.head _)) hx
      have hs := hs.member hx
      refine items_reads (valid_part h (.head _)) (valid_part h (.tail _ (.head _))) hs fun l el y hy h hs => ?_
      have hh := hr.versions _ (el ▸ hx) _ hy
      obtain ⟨o, rfl⟩ := (show ∃ o, y = .obj o from let ⟨o, _, e, _⟩ := hh; ⟨o, e⟩)
      have hr := hs.readable
      refine fields_reads ?_
      refine bind_reads (?_ : ∃ y, VersionRange.ofFields o = .ok y) fun _ => ?_
      ·
        obtain ⟨k, hk, ⟨x, hx⟩, -⟩ := oneOf_member (ks := ["version", "range"]) (valid_part h (.tail _ (.tail _ (.head _))))
        refine flatVariant_reads ?_ ?_
        · simp only [List.mem_cons, List.not_mem_nil, or_false] at hk
          rcases hk with rfl | rfl
          · exact ⟨_, (.tail _ (.tail _ (.head _))), x, hx⟩
          · exact ⟨_, (.head _), x, hx⟩
        · intro p hp x hx
          simp only [List.mem_cons, List.not_mem_nil, or_false] at hp
          rcases hp with rfl | rfl | rfl
          · have h := valid_property (valid_part h (.tail _ (.head _))) (.tail _ (.head _)) hx
            have hs := hs.member hx
            refine map_reads (?_ : CanRead (Json.string) x)
            exact string_reads (type_string (valid_part (v14_ref_range h) (.head _)))
          · have := valid_closed (valid_part h (.head _)) hx
            simp at this
          · have h := valid_property (valid_part h (.tail _ (.head _))) (.head _) hx
            have hs := hs.member hx
            refine map_reads (?_ : CanRead (Json.string) x)
            exact string_reads (type_string (valid_part (v14_ref_version h) (.head _)))
      refine bind_reads (req_reads hh.lookup fun x hx => ?_) fun _ => ?_
      · have h := valid_property (valid_part h (.tail _ (.head _))) (.tail _ (.tail _ (.head _))) hx
        have hs := hs.member hx
        exact enum_reads (type_string (valid_part (v14_ref_affectedStatus h) (.head _)))
      exact ⟨_, rfl⟩
    exact ⟨_, rfl⟩
  refine bind_reads (opt_reads fun x hx => ?_) fun _ => ?_
  · have h := valid_property (valid_part h (.tail _ (.tail _ (.head _)))) (.tail _ (.tail _ (.tail _ (.tail _ (.tail _ (.tail _ (.tail _ (.tail _ (.tail _ (.tail _ (.tail _ (.tail _ (.tail _ (.tail _ (.tail _ (.tail _ (.tail _ (.head _)))))))))))))))))) hx
    have hs := hs.member hx
    refine items_reads (valid_part h (.head _)) (valid_part h (.tail _ (.head _))) hs fun l el y hy h hs => ?_
    exact v14_property_Property (v14_ref_property h) hs (hr.named _ (el ▸ hx) _ hy)
  exact ⟨_, rfl⟩

theorem v14_root_Bom {j : Json} (h : Valid (schemaContext F .v1_4) Schema14.root j) (hs : Sane ReadLimit.limit j)
    (hspec : ∀ o, j = .obj o → ∀ x, ("specVersion", x) ∈ o → CanRead SpecVersion.ofJson x) :
    CanRead (Bom.ofJson .v1_4) j := by
  obtain ⟨o, rfl⟩ := type_object (valid_part h (.head _))
  have hr := hs.readable
  have hreq := (valid_part h (.tail _ (.head _)))
  refine fields_reads ?_
  refine bind_reads (req_reads (valid_required hreq (by simp)) fun x hx => ?_) fun _ => ?_
  · have h := valid_property (valid_part h (.tail _ (.tail _ (.tail _ (.head _))))) (.tail _ (.head _)) hx
    have hs := hs.member hx
    obtain ⟨s, hm, rfl⟩ := valid_kw.mp (valid_part h (.tail _ (.head _)))
    simp only [List.mem_cons, List.not_mem_nil, or_false] at hm
    subst hm
    exact ⟨(), rfl⟩
  refine bind_reads (req_reads (valid_required hreq (by simp)) fun x hx => hspec _ rfl _ hx) fun _ => ?_
  refine bind_reads (req_reads (valid_required hreq (by simp)) fun x hx => ?_) fun _ => ?_
  · have h := valid_property (valid_part h (.tail _ (.tail _ (.tail _ (.head _))))) (.tail _ (.tail _ (.tail _ (.tail _ (.head _))))) hx
    have hs := hs.member hx
    exact u32_reads (hr.small _ _ hx (by simp) (integer_number h))
  refine bind_reads (opt_reads fun x hx => ?_) fun _ => ?_
  · have h := valid_property (valid_part h (.tail _ (.tail _ (.tail _ (.head _))))) (.tail _ (.tail _ (.tail _ (.head _)))) hx
    have hs := hs.member hx
    exact string_reads (type_string (valid_part h (.head _)))
  refine bind_reads (opt_reads fun x hx => ?_) fun _ => ?_
  · have h := valid_property (valid_part h (.tail _ (.tail _ (.tail _ (.head _))))) (.tail _ (.tail _ (.tail _ (.tail _ (.tail _ (.head _)))))) hx
    have hs := hs.member hx
    exact v14_metadata_Metadata (v14_ref_metadata h) hs
  refine bind_reads (opt_reads fun x hx => ?_) fun _ => ?_
  · have h := valid_property (valid_part h (.tail _ (.tail _ (.tail _ (.head _))))) (.tail _ (.tail _ (.tail _ (.tail _ (.tail _ (.tail _ (.head _))))))) hx
    have hs := hs.member hx
    refine items_reads (valid_part h (.head _)) (valid_part h (.tail _ (.tail _ (.head _)))) hs fun l el y hy h hs => ?_
    exact v14_component_Component (v14_ref_component h) hs
  refine bind_reads (opt_reads fun x hx => ?_) fun _ => ?_
  · have h := valid_property (valid_part h (.tail _ (.tail _ (.tail _ (.head _))))) (.tail _ (.tail _ (.tail _ (.tail _ (.tail _ (.tail _ (.tail _ (.head _)))))))) hx
    have hs := hs.member hx
    refine items_reads (valid_part h (.head _)) (valid_part h (.tail _ (.tail _ (.head _)))) hs fun l el y hy h hs => ?_
    exact v14_service_Service (v14_ref_service h) hs
  refine bind_reads (opt_reads fun x hx => ?_) fun _ => ?_
  · have h := valid_property (valid_part h (.tail _ (.tail _ (.tail _ (.head _))))) (.tail _ (.tail _ (.tail _ (.tail _ (.tail _ (.tail _ (.tail _ (.tail _ (.head _))))))))) hx
    have hs := hs.member hx
    refine items_reads (valid_part h (.head _)) (valid_part h (.tail _ (.head _))) hs fun l el y hy h hs => ?_
    exact v14_externalReference_ExternalReference (v14_ref_externalReference h) hs
  refine bind_reads (opt_reads fun x hx => ?_) fun _ => ?_
  · have h := valid_property (valid_part h (.tail _ (.tail _ (.tail _ (.head _))))) (.tail _ (.tail _ (.tail _ (.tail _ (.tail _ (.tail _ (.tail _ (.tail _ (.tail _ (.head _)))))))))) hx
    have hs := hs.member hx
    refine items_reads (valid_part h (.head _)) (valid_part h (.tail _ (.tail _ (.head _)))) hs fun l el y hy h hs => ?_
    exact v14_dependency_Dependency (v14_ref_dependency h) hs
  refine bind_reads (opt_reads fun x hx => ?_) fun _ => ?_
  · have h := valid_property (valid_part h (.tail _ (.tail _ (.tail _ (.head _))))) (.tail _ (.tail _ (.tail _ (.tail _ (.tail _ (.tail _ (.tail _ (.tail _ (.tail _ (.tail _ (.head _))))))))))) hx
    have hs := hs.member hx
    refine items_reads (valid_part h (.head _)) (valid_part h (.tail _ (.tail _ (.head _)))) hs fun l el y hy h hs => ?_
    exact v14_compositions_Composition (v14_ref_compositions h) hs
  refine bind_reads (opt_reads fun x hx => ?_) fun _ => ?_
  · have h := valid_property (valid_part h (.tail _ (.tail _ (.tail _ (.head _))))) (.tail _ (.tail _ (.tail _ (.tail _ (.tail _ (.tail _ (.tail _ (.tail _ (.tail _ (.tail _ (.tail _ (.head _)))))))))))) hx
    have hs := hs.member hx
    refine items_reads (valid_part h (.head _)) (valid_part h (.tail _ (.tail _ (.head _)))) hs fun l el y hy h hs => ?_
    exact v14_vulnerability_Vulnerability (v14_ref_vulnerability h) hs
  refine bind_reads (opt_reads fun x hx => ?_) fun _ => ?_
  · have h := valid_property (valid_part h (.tail _ (.tail _ (.tail _ (.head _))))) (.tail _ (.tail _ (.tail _ (.tail _ (.tail _ (.tail _ (.tail _ (.tail _ (.tail _ (.tail _ (.tail _ (.tail _ (.head _))))))))))))) hx
    have hs := hs.member hx
    replace h := (v14_ref_signature h)
    exact signature_reads (v14_ref_jsf_signature h) hs (hr.signature _ hx)
  refine bind_reads ⟨_, rfl⟩ fun _ => ?_
  refine bind_reads ⟨_, rfl⟩ fun _ => ?_
  refine bind_reads ⟨_, rfl⟩ fun _ => ?_
  exact ⟨_, rfl⟩

end Cdx
