import Verif.Lemmas.Readable

/-!
# Lemmas: the readers accept what the schema of CycloneDX 1.3 accepts

One theorem for each definition of the schema and each reader that meets it.
-/

namespace Cdx

open Spec

set_option linter.unusedVariables false
set_option linter.unusedSectionVars false
set_option linter.unusedSimpArgs false

variable [F32Format] [ReadLimit] {F : Formats}

theorem v13_ref_metadata {j : Json} (h : Valid (schemaContext F .v1_3) (.ref "metadata") j) :
    Valid (schemaContext F .v1_3) Schema13.metadata j := valid_unref h rfl

theorem v13_ref_hash {j : Json} (h : Valid (schemaContext F .v1_3) (.ref "hash") j) :
    Valid (schemaContext F .v1_3) Schema13.hash j := valid_unref h rfl

theorem v13_ref_hash_alg {j : Json} (h : Valid (schemaContext F .v1_3) (.ref "hash-alg") j) :
    Valid (schemaContext F .v1_3) Schema13.hashAlg j := valid_unref h rfl

theorem v13_ref_hash_content {j : Json} (h : Valid (schemaContext F .v1_3) (.ref "hash-content") j) :
    Valid (schemaContext F .v1_3) Schema13.hashContent j := valid_unref h rfl

theorem v13_ref_tool {j : Json} (h : Valid (schemaContext F .v1_3) (.ref "tool") j) :
    Valid (schemaContext F .v1_3) Schema13.tool j := valid_unref h rfl

theorem v13_ref_organizationalContact {j : Json} (h : Valid (schemaContext F .v1_3) (.ref "organizationalContact") j) :
    Valid (schemaContext F .v1_3) Schema13.organizationalContact j := valid_unref h rfl

theorem v13_ref_component {j : Json} (h : Valid (schemaContext F .v1_3) (.ref "component") j) :
    Valid (schemaContext F .v1_3) Schema13.component j := valid_unref h rfl

theorem v13_ref_refType {j : Json} (h : Valid (schemaContext F .v1_3) (.ref "refType") j) :
    Valid (schemaContext F .v1_3) Schema13.refType j := valid_unref h rfl

theorem v13_ref_organizationalEntity {j : Json} (h : Valid (schemaContext F .v1_3) (.ref "organizationalEntity") j) :
    Valid (schemaContext F .v1_3) Schema13.organizationalEntity j := valid_unref h rfl

theorem v13_ref_licenseChoice {j : Json} (h : Valid (schemaContext F .v1_3) (.ref "licenseChoice") j) :
    Valid (schemaContext F .v1_3) Schema13.licenseChoice j := valid_unref h rfl

theorem v13_ref_spdx {j : Json} (h : Valid (schemaContext F .v1_3) (.ref "spdx") j) :
    Valid (schemaContext F .v1_3) SchemaSpdx.spdx j := valid_unref h rfl

theorem v13_ref_attachment {j : Json} (h : Valid (schemaContext F .v1_3) (.ref "attachment") j) :
    Valid (schemaContext F .v1_3) Schema13.attachment j := valid_unref h rfl

theorem v13_ref_license {j : Json} (h : Valid (schemaContext F .v1_3) (.ref "license") j) :
    Valid (schemaContext F .v1_3) Schema13.license j := valid_unref h rfl

theorem v13_ref_swid {j : Json} (h : Valid (schemaContext F .v1_3) (.ref "swid") j) :
    Valid (schemaContext F .v1_3) Schema13.swid j := valid_unref h rfl

theorem v13_ref_commit {j : Json} (h : Valid (schemaContext F .v1_3) (.ref "commit") j) :
    Valid (schemaContext F .v1_3) Schema13.commit j := valid_unref h rfl

theorem v13_ref_identifiableAction {j : Json} (h : Valid (schemaContext F .v1_3) (.ref "identifiableAction") j) :
    Valid (schemaContext F .v1_3) Schema13.identifiableAction j := valid_unref h rfl

theorem v13_ref_patch {j : Json} (h : Valid (schemaContext F .v1_3) (.ref "patch") j) :
    Valid (schemaContext F .v1_3) Schema13.patch j := valid_unref h rfl

theorem v13_ref_diff {j : Json} (h : Valid (schemaContext F .v1_3) (.ref "diff") j) :
    Valid (schemaContext F .v1_3) Schema13.diff j := valid_unref h rfl

theorem v13_ref_issue {j : Json} (h : Valid (schemaContext F .v1_3) (.ref "issue") j) :
    Valid (schemaContext F .v1_3) Schema13.issue j := valid_unref h rfl

theorem v13_ref_externalReference {j : Json} (h : Valid (schemaContext F .v1_3) (.ref "externalReference") j) :
    Valid (schemaContext F .v1_3) Schema13.externalReference j := valid_unref h rfl

theorem v13_ref_property {j : Json} (h : Valid (schemaContext F .v1_3) (.ref "property") j) :
    Valid (schemaContext F .v1_3) Schema13.property j := valid_unref h rfl

theorem v13_ref_componentEvidence {j : Json} (h : Valid (schemaContext F .v1_3) (.ref "componentEvidence") j) :
    Valid (schemaContext F .v1_3) Schema13.componentEvidence j := valid_unref h rfl

theorem v13_ref_copyright {j : Json} (h : Valid (schemaContext F .v1_3) (.ref "copyright") j) :
    Valid (schemaContext F .v1_3) Schema13.copyright j := valid_unref h rfl

theorem v13_ref_service {j : Json} (h : Valid (schemaContext F .v1_3) (.ref "service") j) :
    Valid (schemaContext F .v1_3) Schema13.service j := valid_unref h rfl

theorem v13_ref_dataFlow {j : Json} (h : Valid (schemaContext F .v1_3) (.ref "dataFlow") j) :
    Valid (schemaContext F .v1_3) Schema13.dataFlow j := valid_unref h rfl

theorem v13_ref_dataClassification {j : Json} (h : Valid (schemaContext F .v1_3) (.ref "dataClassification") j) :
    Valid (schemaContext F .v1_3) Schema13.dataClassification j := valid_unref h rfl

theorem v13_ref_dependency {j : Json} (h : Valid (schemaContext F .v1_3) (.ref "dependency") j) :
    Valid (schemaContext F .v1_3) Schema13.dependency j := valid_unref h rfl

theorem v13_ref_compositions {j : Json} (h : Valid (schemaContext F .v1_3) (.ref "compositions") j) :
    Valid (schemaContext F .v1_3) Schema13.compositions j := valid_unref h rfl

theorem v13_ref_aggregateType {j : Json} (h : Valid (schemaContext F .v1_3) (.ref "aggregateType") j) :
    Valid (schemaContext F .v1_3) Schema13.aggregateType j := valid_unref h rfl


theorem v13_hash_Hash {n : Nat} {j : Json} (h : Valid (schemaContext F .v1_3) Schema13.hash j) (hs : Sane n j) :
    CanRead (Hash.ofJson) j := by
  obtain ⟨o, rfl⟩ := type_object (valid_part h (.head _))
  have hr := hs.readable
  have hreq := (valid_part h (.tail _ (.head _)))
  refine fields_reads ?_
  refine bind_reads (req_reads (valid_required hreq (by simp)) fun x hx => ?_) fun _ => ?_
  · have h := valid_property (valid_part h (.tail _ (.tail _ (.head _)))) (.head _) hx
    have hs := hs.member hx
    exact enum_reads (type_string (valid_part (v13_ref_hash_alg h) (.head _)))
  refine bind_reads (req_reads (valid_required hreq (by simp)) fun x hx => ?_) fun _ => ?_
  · have h := valid_property (valid_part h (.tail _ (.tail _ (.head _)))) (.tail _ (.head _)) hx
    have hs := hs.member hx
    exact string_reads (type_string (valid_part (v13_ref_hash_content h) (.head _)))
  exact ⟨_, rfl⟩

theorem v13_tool_Tool {n : Nat} {j : Json} (h : Valid (schemaContext F .v1_3) Schema13.tool j) (hs : Sane n j) :
    CanRead (Tool.ofJson .v1_3) j := by
  obtain ⟨o, rfl⟩ := type_object (valid_part h (.head _))
  have hr := hs.readable
  refine fields_reads ?_
  refine bind_reads (opt_reads fun x hx => ?_) fun _ => ?_
  · have h := valid_property (valid_part h (.tail _ (.head _))) (.head _) hx
    have hs := hs.member hx
    exact string_reads (type_string h)
  refine bind_reads (opt_reads fun x hx => ?_) fun _ => ?_
  · have h := valid_property (valid_part h (.tail _ (.head _))) (.tail _ (.head _)) hx
    have hs := hs.member hx
    exact string_reads (type_string h)
  refine bind_reads (opt_reads fun x hx => ?_) fun _ => ?_
  · have h := valid_property (valid_part h (.tail _ (.head _))) (.tail _ (.tail _ (.head _))) hx
    have hs := hs.member hx
    exact string_reads (type_string h)
  refine bind_reads (opt_reads fun x hx => ?_) fun _ => ?_
  · have h := valid_property (valid_part h (.tail _ (.head _))) (.tail _ (.tail _ (.tail _ (.head _)))) hx
    have hs := hs.member hx
    refine items_reads (valid_part h (.head _)) (valid_part h (.tail _ (.head _))) hs fun l el y hy h hs => ?_
    exact v13_hash_Hash (v13_ref_hash h) hs
  refine bind_reads ⟨_, rfl⟩ fun _ => ?_
  exact ⟨_, rfl⟩

theorem v13_organizationalContact_OrganizationalContact {n : Nat} {j : Json} (h : Valid (schemaContext F .v1_3) Schema13.organizationalContact j) (hs : Sane n j) :
    CanRead (OrganizationalContact.ofJson) j := by
  obtain ⟨o, rfl⟩ := type_object (valid_part h (.head _))
  have hr := hs.readable
  refine fields_reads ?_
  refine bind_reads (opt_reads fun x hx => ?_) fun _ => ?_
  · exact string_reads (hr.bomRef _ hx)
  refine bind_reads (opt_reads fun x hx => ?_) fun _ => ?_
  · have h := valid_property (valid_part h (.tail _ (.head _))) (.head _) hx
    have hs := hs.member hx
    exact string_reads (type_string h)
  refine bind_reads (opt_reads fun x hx => ?_) fun _ => ?_
  · have h := valid_property (valid_part h (.tail _ (.head _))) (.tail _ (.head _)) hx
    have hs := hs.member hx
    exact string_reads (type_string h)
  refine bind_reads (opt_reads fun x hx => ?_) fun _ => ?_
  · have h := valid_property (valid_part h (.tail _ (.head _))) (.tail _ (.tail _ (.head _))) hx
    have hs := hs.member hx
    exact string_reads (type_string h)
  exact ⟨_, rfl⟩

theorem v13_organizationalEntity_OrganizationalEntity {n : Nat} {j : Json} (h : Valid (schemaContext F .v1_3) Schema13.organizationalEntity j) (hs : Sane n j) :
    CanRead (OrganizationalEntity.ofJson) j := by
  obtain ⟨o, rfl⟩ := type_object (valid_part h (.head _))
  have hr := hs.readable
  refine fields_reads ?_
  refine bind_reads (opt_reads fun x hx => ?_) fun _ => ?_
  · exact string_reads (hr.bomRef _ hx)
  refine bind_reads (opt_reads fun x hx => ?_) fun _ => ?_
  · have h := valid_property (valid_part h (.tail _ (.head _))) (.head _) hx
    have hs := hs.member hx
    exact string_reads (type_string h)
  refine bind_reads (opt_reads fun x hx => ?_) fun _ => ?_
  · have h := valid_property (valid_part h (.tail _ (.head _))) (.tail _ (.head _)) hx
    have hs := hs.member hx
    refine items_reads (valid_part h (.head _)) (valid_part h (.tail _ (.head _))) hs fun l el y hy h hs => ?_
    exact string_reads (type_string (valid_part h (.head _)))
  refine bind_reads (opt_reads fun x hx => ?_) fun _ => ?_
  · have h := valid_property (valid_part h (.tail _ (.head _))) (.tail _ (.tail _ (.head _))) hx
    have hs := hs.member hx
    refine items_reads (valid_part h (.head _)) (valid_part h (.tail _ (.head _))) hs fun l el y hy h hs => ?_
    exact v13_organizationalContact_OrganizationalContact (v13_ref_organizationalContact h) hs
  exact ⟨_, rfl⟩

theorem v13_attachment_AttachedText {n : Nat} {j : Json} (h : Valid (schemaContext F .v1_3) Schema13.attachment j) (hs : Sane n j) :
    CanRead (AttachedText.ofJson) j := by
  obtain ⟨o, rfl⟩ := type_object (valid_part h (.head _))
  have hr := hs.readable
  have hreq := (valid_part h (.tail _ (.head _)))
  refine fields_reads ?_
  refine bind_reads (opt_reads fun x hx => ?_) fun _ => ?_
  · have h := valid_property (valid_part h (.tail _ (.tail _ (.head _)))) (.head _) hx
    have hs := hs.member hx
    exact string_reads (type_string h)
  refine bind_reads (opt_reads fun x hx => ?_) fun _ => ?_
  · have h := valid_property (valid_part h (.tail _ (.tail _ (.head _)))) (.tail _ (.head _)) hx
    have hs := hs.member hx
    exact enum_reads (type_string (valid_part h (.head _)))
  refine bind_reads (req_reads (valid_required hreq (by simp)) fun x hx => ?_) fun _ => ?_
  · have h := valid_property (valid_part h (.tail _ (.tail _ (.head _)))) (.tail _ (.tail _ (.head _))) hx
    have hs := hs.member hx
    exact string_reads (type_string h)
  exact ⟨_, rfl⟩

theorem v13_license_License {n : Nat} {j : Json} (h : Valid (schemaContext F .v1_3) Schema13.license j) (hs : Sane n j) :
    CanRead (License.ofJson .v1_3) j := by
  obtain ⟨o, rfl⟩ := type_object (valid_part h (.head _))
  have hr := hs.readable
  refine fields_reads ?_
  refine bind_reads ⟨_, rfl⟩ fun _ => ?_
  refine bind_reads (?_ : ∃ y, LicenseIdentifier.ofFields o = .ok y) fun _ => ?_
  ·
    obtain ⟨k, hk, ⟨x, hx⟩, -⟩ := oneOf_member (ks := ["id", "name"]) (valid_part h (.tail _ (.tail _ (.head _))))
    refine flatVariant_reads ?_ ?_
    · simp only [List.mem_cons, List.not_mem_nil, or_false] at hk
      rcases hk with rfl | rfl
      · exact ⟨_, (.head _), x, hx⟩
      · exact ⟨_, (.tail _ (.head _)), x, hx⟩
    · intro p hp x hx
      simp only [List.mem_cons, List.not_mem_nil, or_false] at hp
      rcases hp with rfl | rfl
      · have h := valid_property (valid_part h (.tail _ (.head _))) (.head _) hx
        have hs := hs.member hx
        refine map_reads (?_ : CanRead (Json.string) x)
        exact string_reads (type_string (valid_part (v13_ref_spdx h) (.head _)))
      · have h := valid_property (valid_part h (.tail _ (.head _))) (.tail _ (.head _)) hx
        have hs := hs.member hx
        refine map_reads (?_ : CanRead (Json.string) x)
        exact string_reads (type_string h)
  refine bind_reads (opt_reads fun x hx => ?_) fun _ => ?_
  · have h := valid_property (valid_part h (.tail _ (.head _))) (.tail _ (.tail _ (.head _))) hx
    have hs := hs.member hx
    exact v13_attachment_AttachedText (v13_ref_attachment h) hs
  refine bind_reads (opt_reads fun x hx => ?_) fun _ => ?_
  · have h := valid_property (valid_part h (.tail _ (.head _))) (.tail _ (.tail _ (.tail _ (.head _)))) hx
    have hs := hs.member hx
    exact string_reads (type_string (valid_part h (.head _)))
  refine bind_reads ⟨_, rfl⟩ fun _ => ?_
  refine bind_reads ⟨_, rfl⟩ fun _ => ?_
  exact ⟨_, rfl⟩

theorem v13_licenseChoice_LicenseChoice {n : Nat} {j : Json} (h : Valid (schemaContext F .v1_3) Schema13.licenseChoice j) (hs : Sane n j) :
    CanRead (LicenseChoice.ofJson .v1_3) j := by
  obtain ⟨o, rfl⟩ := type_object (valid_part h (.head _))
  have hr := hs.readable
  obtain ⟨k, hk, ⟨x, hx⟩, -⟩ := oneOf_member (ks := ["license", "expression"]) (valid_part h (.tail _ (.tail _ (.head _))))
  simp only [List.mem_cons, List.not_mem_nil, or_false] at hk
  rcases hk with rfl | rfl
  · have e := one_member hs.nodup hx (hr.license ⟨_, _, rfl, hx⟩)
    have h := valid_property (valid_part h (.tail _ (.head _))) (.head _) hx
    obtain ⟨z, hz⟩ := v13_license_License (v13_ref_license h) (hs.member hx)
    subst e
    exact ⟨.license z, by simp [LicenseChoice.ofJson, Json.tagged, List.lookup, hz, Except.map]⟩
  · have he : CanRead SpdxExpression.ofJson (.obj o) := by
      refine fields_reads ?_
      refine bind_reads (opt_reads fun x hx => string_reads (hr.bomRef _ hx)) fun _ => ?_
      exact bind_reads (req_reads ⟨x, hx⟩ fun x hx => string_reads (type_string (valid_property (valid_part h (.tail _ (.head _))) (.tail _ (.head _)) hx))) fun _ => ⟨_, rfl⟩
    obtain ⟨z, hz⟩ := he
    unfold CanRead LicenseChoice.ofJson
    split
    · exact ⟨_, rfl⟩
    · exact ⟨_, by rw [hz]; rfl⟩

theorem v13_swid_Swid {n : Nat} {j : Json} (h : Valid (schemaContext F .v1_3) Schema13.swid j) (hs : Sane n j) :
    CanRead (Swid.ofJson) j := by
  obtain ⟨o, rfl⟩ := type_object (valid_part h (.head _))
  have hr := hs.readable
  have hreq := (valid_part h (.tail _ (.head _)))
  refine fields_reads ?_
  refine bind_reads (req_reads (valid_required hreq (by simp)) fun x hx => ?_) fun _ => ?_
  · have h := valid_property (valid_part h (.tail _ (.tail _ (.head _)))) (.head _) hx
    have hs := hs.member hx
    exact string_reads (type_string h)
  refine bind_reads (req_reads (valid_required hreq (by simp)) fun x hx => ?_) fun _ => ?_
  · have h := valid_property (valid_part h (.tail _ (.tail _ (.head _)))) (.tail _ (.head _)) hx
    have hs := hs.member hx
    exact string_reads (type_string h)
  refine bind_reads (opt_reads fun x hx => ?_) fun _ => ?_
  · have h := valid_property (valid_part h (.tail _ (.tail _ (.head _)))) (.tail _ (.tail _ (.head _))) hx
    have hs := hs.member hx
    exact string_reads (type_string h)
  refine bind_reads (opt_reads fun x hx => ?_) fun _ => ?_
  · have h := valid_property (valid_part h (.tail _ (.tail _ (.head _)))) (.tail _ (.tail _ (.tail _ (.head _)))) hx
    have hs := hs.member hx
    exact u32_reads (hr.small _ _ hx (by simp) (integer_number h))
  refine bind_reads (opt_reads fun x hx => ?_) fun _ => ?_
  · have h := valid_property (valid_part h (.tail _ (.tail _ (.head _)))) (.tail _ (.tail _ (.tail _ (.tail _ (.head _))))) hx
    have hs := hs.member hx
    exact boolean_reads h
  refine bind_reads (opt_reads fun x hx => ?_) fun _ => ?_
  · have h := valid_property (valid_part h (.tail _ (.tail _ (.head _)))) (.tail _ (.tail _ (.tail _ (.tail _ (.tail _ (.head _)))))) hx
    have hs := hs.member hx
    exact v13_attachment_AttachedText (v13_ref_attachment h) hs
  refine bind_reads (opt_reads fun x hx => ?_) fun _ => ?_
  · have h := valid_property (valid_part h (.tail _ (.tail _ (.head _)))) (.tail _ (.tail _ (.tail _ (.tail _ (.tail _ (.tail _ (.head _))))))) hx
    have hs := hs.member hx
    exact string_reads (type_string (valid_part h (.head _)))
  exact ⟨_, rfl⟩

theorem v13_identifiableAction_IdentifiableAction {n : Nat} {j : Json} (h : Valid (schemaContext F .v1_3) Schema13.identifiableAction j) (hs : Sane n j) :
    CanRead (IdentifiableAction.ofJson) j := by
  obtain ⟨o, rfl⟩ := type_object (valid_part h (.head _))
  have hr := hs.readable
  refine fields_reads ?_
  refine bind_reads (opt_reads fun x hx => ?_) fun _ => ?_
  · have h := valid_property (valid_part h (.tail _ (.head _))) (.head _) hx
    have hs := hs.member hx
    exact string_reads (type_string (valid_part h (.head _)))
  refine bind_reads (opt_reads fun x hx => ?_) fun _ => ?_
  · have h := valid_property (valid_part h (.tail _ (.head _))) (.tail _ (.head _)) hx
    have hs := hs.member hx
    exact string_reads (type_string h)
  refine bind_reads (opt_reads fun x hx => ?_) fun _ => ?_
  · have h := valid_property (valid_part h (.tail _ (.head _))) (.tail _ (.tail _ (.head _))) hx
    have hs := hs.member hx
    exact string_reads (type_string (valid_part h (.head _)))
  exact ⟨_, rfl⟩

theorem v13_commit_Commit {n : Nat} {j : Json} (h : Valid (schemaContext F .v1_3) Schema13.commit j) (hs : Sane n j) :
    CanRead (Commit.ofJson) j := by
  obtain ⟨o, rfl⟩ := type_object (valid_part h (.head _))
  have hr := hs.readable
  refine fields_reads ?_
  refine bind_reads (opt_reads fun x hx => ?_) fun _ => ?_
  · have h := valid_property (valid_part h (.tail _ (.head _))) (.head _) hx
    have hs := hs.member hx
    exact string_reads (type_string h)
  refine bind_reads (opt_reads fun x hx => ?_) fun _ => ?_
  · have h := valid_property (valid_part h (.tail _ (.head _))) (.tail _ (.head _)) hx
    have hs := hs.member hx
    exact string_reads (type_string (valid_part h (.head _)))
  refine bind_reads (opt_reads fun x hx => ?_) fun _ => ?_
  · have h := valid_property (valid_part h (.tail _ (.head _))) (.tail _ (.tail _ (.head _))) hx
    have hs := hs.member hx
    exact v13_identifiableAction_IdentifiableAction (v13_ref_identifiableAction h) hs
  refine bind_reads (opt_reads fun x hx => ?_) fun _ => ?_
  · have h := valid_property (valid_part h (.tail _ (.head _))) (.tail _ (.tail _ (.tail _ (.head _)))) hx
    have hs := hs.member hx
    exact v13_identifiableAction_IdentifiableAction (v13_ref_identifiableAction h) hs
  refine bind_reads (opt_reads fun x hx => ?_) fun _ => ?_
  · have h := valid_property (valid_part h (.tail _ (.head _))) (.tail _ (.tail _ (.tail _ (.tail _ (.head _))))) hx
    have hs := hs.member hx
    exact string_reads (type_string h)
  exact ⟨_, rfl⟩

theorem v13_diff_Diff {n : Nat} {j : Json} (h : Valid (schemaContext F .v1_3) Schema13.diff j) (hs : Sane n j) :
    CanRead (Diff.ofJson) j := by
  obtain ⟨o, rfl⟩ := type_object (valid_part h (.head _))
  have hr := hs.readable
  refine fields_reads ?_
  refine bind_reads (opt_reads fun x hx => ?_) fun _ => ?_
  · have h := valid_property (valid_part h (.tail _ (.head _))) (.head _) hx
    have hs := hs.member hx
    exact v13_attachment_AttachedText (v13_ref_attachment h) hs
  refine bind_reads (opt_reads fun x hx => ?_) fun _ => ?_
  · have h := valid_property (valid_part h (.tail _ (.head _))) (.tail _ (.head _)) hx
    have hs := hs.member hx
    exact string_reads (type_string (valid_part h (.head _)))
  exact ⟨_, rfl⟩

theorem v13_issue_Issue {n : Nat} {j : Json} (h : Valid (schemaContext F .v1_3) Schema13.issue j) (hs : Sane n j) :
    CanRead (Issue.ofJson) j := by
  obtain ⟨o, rfl⟩ := type_object (valid_part h (.head _))
  have hr := hs.readable
  have hreq := (valid_part h (.tail _ (.head _)))
  refine fields_reads ?_
  refine bind_reads (req_reads (valid_required hreq (by simp)) fun x hx => ?_) fun _ => ?_
  · have h := valid_property (valid_part h (.tail _ (.tail _ (.head _)))) (.head _) hx
    have hs := hs.member hx
    exact enum_reads (type_string (valid_part h (.head _)))
  refine bind_reads (opt_reads fun x hx => ?_) fun _ => ?_
  · have h := valid_property (valid_part h (.tail _ (.tail _ (.head _)))) (.tail _ (.head _)) hx
    have hs := hs.member hx
    exact string_reads (type_string h)
  refine bind_reads (opt_reads fun x hx => ?_) fun _ => ?_
  · have h := valid_property (valid_part h (.tail _ (.tail _ (.head _)))) (.tail _ (.tail _ (.head _))) hx
    have hs := hs.member hx
    exact string_reads (type_string h)
  refine bind_reads (opt_reads fun x hx => ?_) fun _ => ?_
  · have h := valid_property (valid_part h (.tail _ (.tail _ (.head _)))) (.tail _ (.tail _ (.tail _ (.head _)))) hx
    have hs := hs.member hx
    exact string_reads (type_string h)
  refine bind_reads (opt_reads fun x hx => ?_) fun _ => ?_
  · have h := valid_property (valid_part h (.tail _ (.tail _ (.head _)))) (.tail _ (.tail _ (.tail _ (.tail _ (.head _))))) hx
    have hs := hs.member hx
    obtain ⟨o, rfl⟩ := type_object (valid_part h (.head _))
    have hr := hs.readable
    refine fields_reads ?_
    refine bind_reads (opt_reads fun x hx => ?_) fun _ => ?_
    · have h := valid_property (valid_part h (.tail _ (.head _))) (.head _) hx
      have hs := hs.member hx
      exact string_reads (type_string h)
    refine bind_reads (opt_reads fun x hx => ?_) fun _ => ?_
    · have h := valid_property (valid_part h (.tail _ (.head _))) (.tail _ (.head _)) hx
      have hs := hs.member hx
      exact string_reads (type_string (valid_part h (.head _)))
    exact ⟨_, rfl⟩
  refine bind_reads (opt_reads fun x hx => ?_) fun _ => ?_
  · have h := valid_property (valid_part h (.tail _ (.tail _ (.head _)))) (.tail _ (.tail _ (.tail _ (.tail _ (.tail _ (.head _)))))) hx
    have hs := hs.member hx
    refine items_reads (valid_part h (.head _)) (valid_part h (.tail _ (.head _))) hs fun l el y hy h hs => ?_
    exact string_reads (type_string (valid_part h (.head _)))
  exact ⟨_, rfl⟩

theorem v13_patch_Patch {n : Nat} {j : Json} (h : Valid (schemaContext F .v1_3) Schema13.patch j) (hs : Sane n j) :
    CanRead (Patch.ofJson) j := by
  obtain ⟨o, rfl⟩ := type_object (valid_part h (.head _))
  have hr := hs.readable
  have hreq := (valid_part h (.tail _ (.head _)))
  refine fields_reads ?_
  refine bind_reads (req_reads (valid_required hreq (by simp)) fun x hx => ?_) fun _ => ?_
  · have h := valid_property (valid_part h (.tail _ (.tail _ (.head _)))) (.head _) hx
    have hs := hs.member hx
    exact enum_reads (type_string (valid_part h (.head _)))
  refine bind_reads (opt_reads fun x hx => ?_) fun _ => ?_
  · have h := valid_property (valid_part h (.tail _ (.tail _ (.head _)))) (.tail _ (.head _)) hx
    have hs := hs.member hx
    exact v13_diff_Diff (v13_ref_diff h) hs
  refine bind_reads (opt_reads fun x hx => ?_) fun _ => ?_
  · have h := valid_property (valid_part h (.tail _ (.tail _ (.head _)))) (.tail _ (.tail _ (.head _))) hx
    have hs := hs.member hx
    refine items_reads (valid_part h (.head _)) (valid_part h (.tail _ (.head _))) hs fun l el y hy h hs => ?_
    exact v13_issue_Issue (v13_ref_issue h) hs
  exact ⟨_, rfl⟩

theorem v13_externalReference_ExternalReference {n : Nat} {j : Json} (h : Valid (schemaContext F .v1_3) Schema13.externalReference j) (hs : Sane n j) :
    CanRead (ExternalReference.ofJson) j := by
  obtain ⟨o, rfl⟩ := type_object (valid_part h (.head _))
  have hr := hs.readable
  have hreq := (valid_part h (.tail _ (.head _)))
  refine fields_reads ?_
  refine bind_reads (req_reads (valid_required hreq (by simp)) fun x hx => ?_) fun _ => ?_
  · have h := valid_property (valid_part h (.tail _ (.tail _ (.head _)))) (.tail _ (.tail _ (.head _))) hx
    have hs := hs.member hx
    exact enum_reads (type_string (valid_part h (.head _)))
  refine bind_reads (req_reads (valid_required hreq (by simp)) fun x hx => ?_) fun _ => ?_
  · have h := valid_property (valid_part h (.tail _ (.tail _ (.head _)))) (.head _) hx
    have hs := hs.member hx
    exact enum_reads (type_string (valid_part h (.head _)))
  refine bind_reads (opt_reads fun x hx => ?_) fun _ => ?_
  · have h := valid_property (valid_part h (.tail _ (.tail _ (.head _)))) (.tail _ (.head _)) hx
    have hs := hs.member hx
    exact string_reads (type_string h)
  refine bind_reads (opt_reads fun x hx => ?_) fun _ => ?_
  · have h := valid_property (valid_part h (.tail _ (.tail _ (.head _)))) (.tail _ (.tail _ (.tail _ (.head _)))) hx
    have hs := hs.member hx
    refine items_reads (valid_part h (.head _)) (valid_part h (.tail _ (.head _))) hs fun l el y hy h hs => ?_
    exact v13_hash_Hash (v13_ref_hash h) hs
  exact ⟨_, rfl⟩

theorem v13_property_Property {n : Nat} {j : Json} (h : Valid (schemaContext F .v1_3) Schema13.property j) (hs : Sane n j)
    (hh : Has "name" j ∧ Has "value" j) :
    CanRead (Property.ofJson) j := by
  obtain ⟨o, rfl⟩ := type_object (valid_part h (.head _))
  have hr := hs.readable
  refine fields_reads ?_
  refine bind_reads (req_reads hh.1.lookup fun x hx => ?_) fun _ => ?_
  · have h := valid_property (valid_part h (.tail _ (.head _))) (.head _) hx
    have hs := hs.member hx
    exact string_reads (type_string h)
  refine bind_reads (req_reads hh.2.lookup fun x hx => ?_) fun _ => ?_
  · have h := valid_property (valid_part h (.tail _ (.head _))) (.tail _ (.head _)) hx
    have hs := hs.member hx
    exact string_reads (type_string h)
  exact ⟨_, rfl⟩

theorem v13_copyright_Copyright {n : Nat} {j : Json} (h : Valid (schemaContext F .v1_3) Schema13.copyright j) (hs : Sane n j) :
    CanRead (Copyright.ofJson) j := by
  obtain ⟨o, rfl⟩ := type_object (valid_part h (.head _))
  have hr := hs.readable
  have hreq := (valid_part h (.tail _ (.head _)))
  refine fields_reads ?_
  exact req_reads (valid_required hreq (by simp)) fun x hx => string_reads (type_string (valid_property (valid_part h (.tail _ (.tail _ (.head _)))) (.head _) hx))

theorem v13_componentEvidence_ComponentEvidence {n : Nat} {j : Json} (h : Valid (schemaContext F .v1_3) Schema13.componentEvidence j) (hs : Sane n j) :
    CanRead (ComponentEvidence.ofJson .v1_3) j := by
  obtain ⟨o, rfl⟩ := type_object (valid_part h (.head _))
  have hr := hs.readable
  refine fields_reads ?_
  refine bind_reads (opt_reads fun x hx => ?_) fun _ => ?_
  · have h := valid_property (valid_part h (.tail _ (.head _))) (.head _) hx
    have hs := hs.member hx
    exact items_reads (valid_part h (.head _)) (valid_part h (.tail _ (.head _))) hs fun l el y hy h hs => v13_licenseChoice_LicenseChoice (v13_ref_licenseChoice h) hs
  refine bind_reads (opt_reads fun x hx => ?_) fun _ => ?_
  · have h := valid_property (valid_part h (.tail _ (.head _))) (.tail _ (.head _)) hx
    have hs := hs.member hx
    refine items_reads (valid_part h (.head _)) (valid_part h (.tail _ (.head _))) hs fun l el y hy h hs => ?_
    exact v13_copyright_Copyright (v13_ref_copyright h) hs
  refine bind_reads ⟨_, rfl⟩ fun _ => ?_
  refine bind_reads ⟨_, rfl⟩ fun _ => ?_
  refine bind_reads ⟨_, rfl⟩ fun _ => ?_
  exact ⟨_, rfl⟩

theorem v13_component_Component_n (n : Nat) : ∀ {j : Json}, Valid (schemaContext F .v1_3) Schema13.component j → Sane n j →
    CanRead (Component.ofJsonN .v1_3 n) j := by
  induction n with
  | zero =>
    intro j h hs
    obtain ⟨o, rfl⟩ := type_object (valid_part h (.head _))
    cases hs.within
  | succ n ih =>
    intro j h hs
    show CanRead (Component.ofJsonWith (Component.ofJsonN .v1_3 n) .v1_3) j
    obtain ⟨o, rfl⟩ := type_object (valid_part h (.head _))
    have hr := hs.readable
    have hreq := (valid_part h (.tail _ (.head _)))
    refine fields_reads ?_
    refine bind_reads (req_reads (valid_required hreq (by simp)) fun x hx => ?_) fun _ => ?_
    · have h := valid_property (valid_part h (.tail _ (.tail _ (.head _)))) (.head _) hx
      have hs := hs.down hx
      exact enum_reads (type_string (valid_part h (.head _)))
    refine bind_reads (opt_reads fun x hx => ?_) fun _ => ?_
    · have h := valid_property (valid_part h (.tail _ (.tail _ (.head _)))) (.tail _ (.head _)) hx
      have hs := hs.down hx
      exact string_reads (type_string (valid_part h (.head _)))
    refine bind_reads (opt_reads fun x hx => ?_) fun _ => ?_
    · have h := valid_property (valid_part h (.tail _ (.tail _ (.head _)))) (.tail _ (.tail _ (.head _))) hx
      have hs := hs.down hx
      exact string_reads (type_string (v13_ref_refType h))
    refine bind_reads (opt_reads fun x hx => ?_) fun _ => ?_
    · have h := valid_property (valid_part h (.tail _ (.tail _ (.head _)))) (.tail _ (.tail _ (.tail _ (.head _)))) hx
      have hs := hs.down hx
      exact v13_organizationalEntity_OrganizationalEntity (v13_ref_organizationalEntity h) hs
    refine bind_reads (opt_reads fun x hx => ?_) fun _ => ?_
    · have h := valid_property (valid_part h (.tail _ (.tail _ (.head _)))) (.tail _ (.tail _ (.tail _ (.tail _ (.head _))))) hx
      have hs := hs.down hx
      exact string_reads (type_string h)
    refine bind_reads (opt_reads fun x hx => ?_) fun _ => ?_
    · have h := valid_property (valid_part h (.tail _ (.tail _ (.head _)))) (.tail _ (.tail _ (.tail _ (.tail _ (.tail _ (.head _)))))) hx
      have hs := hs.down hx
      exact string_reads (type_string h)
    refine bind_reads (opt_reads fun x hx => ?_) fun _ => ?_
    · have h := valid_property (valid_part h (.tail _ (.tail _ (.head _)))) (.tail _ (.tail _ (.tail _ (.tail _ (.tail _ (.tail _ (.head _))))))) hx
      have hs := hs.down hx
      exact string_reads (type_string h)
    refine bind_reads (req_reads (valid_required hreq (by simp)) fun x hx => ?_) fun _ => ?_
    · have h := valid_property (valid_part h (.tail _ (.tail _ (.head _)))) (.tail _ (.tail _ (.tail _ (.tail _ (.tail _ (.tail _ (.tail _ (.head _)))))))) hx
      have hs := hs.down hx
      exact string_reads (type_string h)
    refine bind_reads (map_reads (req_reads (valid_required hreq (by simp)) fun x hx => ?_)) fun _ => ?_
    · have h := valid_property (valid_part h (.tail _ (.tail _ (.head _)))) (.tail _ (.tail _ (.tail _ (.tail _ (.tail _ (.tail _ (.tail _ (.tail _ (.head _))))))))) hx
      have hs := hs.down hx
      exact string_reads (type_string h)
    refine bind_reads (opt_reads fun x hx => ?_) fun _ => ?_
    · have h := valid_property (valid_part h (.tail _ (.tail _ (.head _)))) (.tail _ (.tail _ (.tail _ (.tail _ (.tail _ (.tail _ (.tail _ (.tail _ (.tail _ (.head _)))))))))) hx
      have hs := hs.down hx
      exact string_reads (type_string h)
    refine bind_reads (opt_reads fun x hx => ?_) fun _ => ?_
    · have h := valid_property (valid_part h (.tail _ (.tail _ (.head _)))) (.tail _ (.tail _ (.tail _ (.tail _ (.tail _ (.tail _ (.tail _ (.tail _ (.tail _ (.tail _ (.head _))))))))))) hx
      have hs := hs.down hx
      exact enum_reads (type_string (valid_part h (.head _)))
    refine bind_reads (opt_reads fun x hx => ?_) fun _ => ?_
    · have h := valid_property (valid_part h (.tail _ (.tail _ (.head _)))) (.tail _ (.tail _ (.tail _ (.tail _ (.tail _ (.tail _ (.tail _ (.tail _ (.tail _ (.tail _ (.tail _ (.head _)))))))))))) hx
      have hs := hs.down hx
      refine items_reads (valid_part h (.head _)) (valid_part h (.tail _ (.head _))) hs fun l el y hy h hs => ?_
      exact v13_hash_Hash (v13_ref_hash h) hs
    refine bind_reads (opt_reads fun x hx => ?_) fun _ => ?_
    · have h := valid_property (valid_part h (.tail _ (.tail _ (.head _)))) (.tail _ (.tail _ (.tail _ (.tail _ (.tail _ (.tail _ (.tail _ (.tail _ (.tail _ (.tail _ (.tail _ (.tail _ (.head _))))))))))))) hx
      have hs := hs.down hx
      exact items_reads (valid_part h (.head _)) (valid_part h (.tail _ (.head _))) hs fun l el y hy h hs => v13_licenseChoice_LicenseChoice (v13_ref_licenseChoice h) hs
    refine bind_reads (opt_reads fun x hx => ?_) fun _ => ?_
    · have h := valid_property (valid_part h (.tail _ (.tail _ (.head _)))) (.tail _ (.tail _ (.tail _ (.tail _ (.tail _ (.tail _ (.tail _ (.tail _ (.tail _ (.tail _ (.tail _ (.tail _ (.tail _ (.head _)))))))))))))) hx
      have hs := hs.down hx
      exact string_reads (type_string h)
    refine bind_reads (opt_reads fun x hx => ?_) fun _ => ?_
    · have h := valid_property (valid_part h (.tail _ (.tail _ (.head _)))) (.tail _ (.tail _ (.tail _ (.tail _ (.tail _ (.tail _ (.tail _ (.tail _ (.tail _ (.tail _ (.tail _ (.tail _ (.tail _ (.tail _ (.head _))))))))))))))) hx
      have hs := hs.down hx
      exact string_reads (type_string h)
    refine bind_reads (opt_reads fun x hx => ?_) fun _ => ?_
    · have h := valid_property (valid_part h (.tail _ (.tail _ (.head _)))) (.tail _ (.tail _ (.tail _ (.tail _ (.tail _ (.tail _ (.tail _ (.tail _ (.tail _ (.tail _ (.tail _ (.tail _ (.tail _ (.tail _ (.tail _ (.head _)))))))))))))))) hx
      have hs := hs.down hx
      exact string_reads (type_string h)
    refine bind_reads (opt_reads fun x hx => ?_) fun _ => ?_
    · have h := valid_property (valid_part h (.tail _ (.tail _ (.head _)))) (.tail _ (.tail _ (.tail _ (.tail _ (.tail _ (.tail _ (.tail _ (.tail _ (.tail _ (.tail _ (.tail _ (.tail _ (.tail _ (.tail _ (.tail _ (.tail _ (.head _))))))))))))))))) hx
      have hs := hs.down hx
      exact v13_swid_Swid (v13_ref_swid h) hs
    refine bind_reads (opt_reads fun x hx => ?_) fun _ => ?_
    · have h := valid_property (valid_part h (.tail _ (.tail _ (.head _)))) (.tail _ (.tail _ (.tail _ (.tail _ (.tail _ (.tail _ (.tail _ (.tail _ (.tail _ (.tail _ (.tail _ (.tail _ (.tail _ (.tail _ (.tail _ (.tail _ (.tail _ (.head _)))))))))))))))))) hx
      have hs := hs.down hx
      exact boolean_reads h
    refine bind_reads (opt_reads fun x hx => ?_) fun _ => ?_
    · have h := valid_property (valid_part h (.tail _ (.tail _ (.head _)))) (.tail _ (.tail _ (.tail _ (.tail _ (.tail _ (.tail _ (.tail _ (.tail _ (.tail _ (.tail _ (.tail _ (.tail _ (.tail _ (.tail _ (.tail _ (.tail _ (.tail _ (.tail _ (.head _))))))))))))))))))) hx
      have hs := hs.down hx
      obtain ⟨o, rfl⟩ := type_object (valid_part h (.head _))
      have hr := hs.readable
      refine fields_reads ?_
      refine bind_reads (opt_reads fun x hx => ?_) fun _ => ?_
      · have h := valid_property (valid_part h (.tail _ (.head _))) (.head _) hx
        have hs := hs.member hx
        refine items_reads (valid_part h (.head _)) (valid_part h (.tail _ (.head _))) hs fun l el y hy h hs => ?_
        exact ih (v13_ref_component h) hs
      refine bind_reads (opt_reads fun x hx => ?_) fun _ => ?_
      · have h := valid_property (valid_part h (.tail _ (.head _))) (.tail _ (.head _)) hx
        have hs := hs.member hx
        refine items_reads (valid_part h (.head _)) (valid_part h (.tail _ (.head _))) hs fun l el y hy h hs => ?_
        exact ih (v13_ref_component h) hs
      refine bind_reads (opt_reads fun x hx => ?_) fun _ => ?_
      · have h := valid_property (valid_part h (.tail _ (.head _))) (.tail _ (.tail _ (.head _))) hx
        have hs := hs.member hx
        refine items_reads (valid_part h (.head _)) (valid_part h (.tail _ (.head _))) hs fun l el y hy h hs => ?_
        exact ih (v13_ref_component h) hs
      refine bind_reads (opt_reads fun x hx => ?_) fun _ => ?_
      · have h := valid_property (valid_part h (.tail _ (.head _))) (.tail _ (.tail _ (.tail _ (.head _)))) hx
        have hs := hs.member hx
        refine items_reads (valid_part h (.head _)) (valid_part h (.tail _ (.head _))) hs fun l el y hy h hs => ?_
        exact v13_commit_Commit (v13_ref_commit h) hs
      refine bind_reads (opt_reads fun x hx => ?_) fun _ => ?_
      · have h := valid_property (valid_part h (.tail _ (.head _))) (.tail _ (.tail _ (.tail _ (.tail _ (.head _))))) hx
        have hs := hs.member hx
        refine items_reads (valid_part h (.head _)) (valid_part h (.tail _ (.head _))) hs fun l el y hy h hs => ?_
        exact v13_patch_Patch (v13_ref_patch h) hs
      refine bind_reads (opt_reads fun x hx => ?_) fun _ => ?_
      · have h := valid_property (valid_part h (.tail _ (.head _))) (.tail _ (.tail _ (.tail _ (.tail _ (.tail _ (.head _)))))) hx
        have hs := hs.member hx
        exact string_reads (type_string h)
      exact ⟨_, rfl⟩
    refine bind_reads (opt_reads fun x hx => ?_) fun _ => ?_
    · have h := valid_property (valid_part h (.tail _ (.tail _ (.head _)))) (.tail _ (.tail _ (.tail _ (.tail _ (.tail _ (.tail _ (.tail _ (.tail _ (.tail _ (.tail _ (.tail _ (.tail _ (.tail _ (.tail _ (.tail _ (.tail _ (.tail _ (.tail _ (.tail _ (.head _)))))))))))))))))))) hx
      have hs := hs.down hx
      refine items_reads (valid_part h (.head _)) (valid_part h (.tail _ (.head _))) hs fun l el y hy h hs => ?_
      exact v13_externalReference_ExternalReference (v13_ref_externalReference h) hs
    refine bind_reads (opt_reads fun x hx => ?_) fun _ => ?_
    · have h := valid_property (valid_part h (.tail _ (.tail _ (.head _)))) (.tail _ (.tail _ (.tail _ (.tail _ (.tail _ (.tail _ (.tail _ (.tail _ (.tail _ (.tail _ (.tail _ (.tail _ (.tail _ (.tail _ (.tail _ (.tail _ (.tail _ (.tail _ (.tail _ (.tail _ (.tail _ (.tail _ (.head _))))))))))))))))))))))) hx
      have hs := hs.down hx
      refine items_reads (valid_part h (.head _)) (valid_part h (.tail _ (.head _))) hs fun l el y hy h hs => ?_
      exact v13_property_Property (v13_ref_property h) hs (hr.named _ (el ▸ hx) _ hy)
    refine bind_reads (opt_reads fun x hx => ?_) fun _ => ?_
    · have h := valid_property (valid_part h (.tail _ (.tail _ (.head _)))) (.tail _ (.tail _ (.tail _ (.tail _ (.tail _ (.tail _ (.tail _ (.tail _ (.tail _ (.tail _ (.tail _ (.tail _ (.tail _ (.tail _ (.tail _ (.tail _ (.tail _ (.tail _ (.tail _ (.tail _ (.head _))))))))))))))))))))) hx
      have hs := hs.down hx
      refine items_reads (valid_part h (.head _)) (valid_part h (.tail _ (.tail _ (.head _)))) hs fun l el y hy h hs => ?_
      exact ih (v13_ref_component h) hs
    refine bind_reads (opt_reads fun x hx => ?_) fun _ => ?_
    · have h := valid_property (valid_part h (.tail _ (.tail _ (.head _)))) (.tail _ (.tail _ (.tail _ (.tail _ (.tail _ (.tail _ (.tail _ (.tail _ (.tail _ (.tail _ (.tail _ (.tail _ (.tail _ (.tail _ (.tail _ (.tail _ (.tail _ (.tail _ (.tail _ (.tail _ (.tail _ (.head _)))))))))))))))))))))) hx
      have hs := hs.down hx
      exact v13_componentEvidence_ComponentEvidence (v13_ref_componentEvidence h) hs
    refine bind_reads ⟨_, rfl⟩ fun _ => ?_
    refine bind_reads ⟨_, rfl⟩ fun _ => ?_
    refine bind_reads ⟨_, rfl⟩ fun _ => ?_
    exact ⟨_, rfl⟩

theorem v13_component_Component {j : Json} (h : Valid (schemaContext F .v1_3) Schema13.component j) (hs : Sane ReadLimit.limit j) :
    CanRead (Component.ofJson .v1_3) j := v13_component_Component_n _ h hs

theorem v13_metadata_Metadata {j : Json} (h : Valid (schemaContext F .v1_3) Schema13.metadata j) (hs : Sane ReadLimit.limit j) :
    CanRead (Metadata.ofJson .v1_3) j := by
  obtain ⟨o, rfl⟩ := type_object (valid_part h (.head _))
  have hr := hs.readable
  refine fields_reads ?_
  refine bind_reads (opt_reads fun x hx => ?_) fun _ => ?_
  · have h := valid_property (valid_part h (.tail _ (.head _))) (.head _) hx
    have hs := hs.member hx
    exact string_reads (type_string (valid_part h (.head _)))
  refine bind_reads (opt_reads fun x hx => ?_) fun _ => ?_
  · have h := valid_property (valid_part h (.tail _ (.head _))) (.tail _ (.head _)) hx
    have hs := hs.member hx
    have hl : CanRead (Json.array (Tool.ofJson .v1_3)) _ := items_reads (valid_part h (.head _)) (valid_part h (.tail _ (.head _))) hs fun l el y hy h hs => v13_tool_Tool (v13_ref_tool h) hs
    obtain ⟨z, hz⟩ := hl
    exact ⟨.list z, by simp only [Tools.ofJson, hz]⟩
  refine bind_reads (opt_reads fun x hx => ?_) fun _ => ?_
  · have h := valid_property (valid_part h (.tail _ (.head _))) (.tail _ (.tail _ (.head _))) hx
    have hs := hs.member hx
    refine items_reads (valid_part h (.head _)) (valid_part h (.tail _ (.head _))) hs fun l el y hy h hs => ?_
    exact v13_organizationalContact_OrganizationalContact (v13_ref_organizationalContact h) hs
  refine bind_reads (opt_reads fun x hx => ?_) fun _ => ?_
  · have h := valid_property (valid_part h (.tail _ (.head _))) (.tail _ (.tail _ (.tail _ (.head _)))) hx
    have hs := hs.member hx
    exact v13_component_Component (v13_ref_component h) hs
  refine bind_reads (opt_reads fun x hx => ?_) fun _ => ?_
  · have h := valid_property (valid_part h (.tail _ (.head _))) (.tail _ (.tail _ (.tail _ (.tail _ (.head _))))) hx
    have hs := hs.member hx
    exact v13_organizationalEntity_OrganizationalEntity (v13_ref_organizationalEntity h) hs
  refine bind_reads (opt_reads fun x hx => ?_) fun _ => ?_
  · have h := valid_property (valid_part h (.tail _ (.head _))) (.tail _ (.tail _ (.tail _ (.tail _ (.tail _ (.head _)))))) hx
    have hs := hs.member hx
    exact v13_organizationalEntity_OrganizationalEntity (v13_ref_organizationalEntity h) hs
  refine bind_reads (opt_reads fun x hx => ?_) fun _ => ?_
  · have h := valid_property (valid_part h (.tail _ (.head _))) (.tail _ (.tail _ (.tail _ (.tail _ (.tail _ (.tail _ (.head _))))))) hx
    have hs := hs.member hx
    exact items_reads (valid_part h (.head _)) (valid_part h (.tail _ (.head _))) hs fun l el y hy h hs => v13_licenseChoice_LicenseChoice (v13_ref_licenseChoice h) hs
  refine bind_reads (opt_reads fun x hx => ?_) fun _ => ?_
  · have h := valid_property (valid_part h (.tail _ (.head _))) (.tail _ (.tail _ (.tail _ (.tail _ (.tail _ (.tail _ (.tail _ (.head _)))))))) hx
    have hs := hs.member hx
    refine items_reads (valid_part h (.head _)) (valid_part h (.tail _ (.head _))) hs fun l el y hy h hs => ?_
    exact v13_property_Property (v13_ref_property h) hs (hr.named _ (el ▸ hx) _ hy)
  refine bind_reads ⟨_, rfl⟩ fun _ => ?_
  exact ⟨_, rfl⟩

theorem v13_dataClassification_DataClassification {n : Nat} {j : Json} (h : Valid (schemaContext F .v1_3) Schema13.dataClassification j) (hs : Sane n j) :
    CanRead (DataClassification.ofJson) j := by
  obtain ⟨o, rfl⟩ := type_object (valid_part h (.head _))
  have hr := hs.readable
  have hreq := (valid_part h (.tail _ (.head _)))
  refine fields_reads ?_
  refine bind_reads (req_reads (valid_required hreq (by simp)) fun x hx => ?_) fun _ => ?_
  · have h := valid_property (valid_part h (.tail _ (.tail _ (.head _)))) (.head _) hx
    have hs := hs.member hx
    exact enum_reads (type_string (valid_part (v13_ref_dataFlow h) (.head _)))
  refine bind_reads (req_reads (valid_required hreq (by simp)) fun x hx => ?_) fun _ => ?_
  · have h := valid_property (valid_part h (.tail _ (.tail _ (.head _)))) (.tail _ (.head _)) hx
    have hs := hs.member hx
    exact string_reads (type_string h)
  exact ⟨_, rfl⟩

theorem v13_service_Service_n (n : Nat) : ∀ {j : Json}, Valid (schemaContext F .v1_3) Schema13.service j → Sane n j →
    CanRead (Service.ofJsonN .v1_3 n) j := by
  induction n with
  | zero =>
    intro j h hs
    obtain ⟨o, rfl⟩ := type_object (valid_part h (.head _))
    cases hs.within
  | succ n ih =>
    intro j h hs
    show CanRead (Service.ofJsonWith (Service.ofJsonN .v1_3 n) .v1_3) j
    obtain ⟨o, rfl⟩ := type_object (valid_part h (.head _))
    have hr := hs.readable
    have hreq := (valid_part h (.tail _ (.head _)))
    refine fields_reads ?_
    refine bind_reads (opt_reads fun x hx => ?_) fun _ => ?_
    · have h := valid_property (valid_part h (.tail _ (.tail _ (.head _)))) (.head _) hx
      have hs := hs.down hx
      exact string_reads (type_string (v13_ref_refType h))
    refine bind_reads (opt_reads fun x hx => ?_) fun _ => ?_
    · have h := valid_property (valid_part h (.tail _ (.tail _ (.head _)))) (.tail _ (.head _)) hx
      have hs := hs.down hx
      exact v13_organizationalEntity_OrganizationalEntity (v13_ref_organizationalEntity h) hs
    refine bind_reads (opt_reads fun x hx => ?_) fun _ => ?_
    · have h := valid_property (valid_part h (.tail _ (.tail _ (.head _)))) (.tail _ (.tail _ (.head _))) hx
      have hs := hs.down hx
      exact string_reads (type_string h)
    refine bind_reads (req_reads (valid_required hreq (by simp)) fun x hx => ?_) fun _ => ?_
    · have h := valid_property (valid_part h (.tail _ (.tail _ (.head _)))) (.tail _ (.tail _ (.tail _ (.head _)))) hx
      have hs := hs.down hx
      exact string_reads (type_string h)
    refine bind_reads (opt_reads fun x hx => ?_) fun _ => ?_
    · have h := valid_property (valid_part h (.tail _ (.tail _ (.head _)))) (.tail _ (.tail _ (.tail _ (.tail _ (.head _))))) hx
      have hs := hs.down hx
      exact string_reads (type_string h)
    refine bind_reads (opt_reads fun x hx => ?_) fun _ => ?_
    · have h := valid_property (valid_part h (.tail _ (.tail _ (.head _)))) (.tail _ (.tail _ (.tail _ (.tail _ (.tail _ (.head _)))))) hx
      have hs := hs.down hx
      exact string_reads (type_string h)
    refine bind_reads (opt_reads fun x hx => ?_) fun _ => ?_
    · have h := valid_property (valid_part h (.tail _ (.tail _ (.head _)))) (.tail _ (.tail _ (.tail _ (.tail _ (.tail _ (.tail _ (.head _))))))) hx
      have hs := hs.down hx
      refine items_reads (valid_part h (.head _)) (valid_part h (.tail _ (.head _))) hs fun l el y hy h hs => ?_
      exact string_reads (type_string (valid_part h (.head _)))
    refine bind_reads (opt_reads fun x hx => ?_) fun _ => ?_
    · have h := valid_property (valid_part h (.tail _ (.tail _ (.head _)))) (.tail _ (.tail _ (.tail _ (.tail _ (.tail _ (.tail _ (.tail _ (.head _)))))))) hx
      have hs := hs.down hx
      exact boolean_reads h
    refine bind_reads (opt_reads fun x hx => ?_) fun _ => ?_
    · have h := valid_property (valid_part h (.tail _ (.tail _ (.head _)))) (.tail _ (.tail _ (.tail _ (.tail _ (.tail _ (.tail _ (.tail _ (.tail _ (.head _))))))))) hx
      have hs := hs.down hx
      exact boolean_reads h
    refine bind_reads (opt_reads fun x hx => ?_) fun _ => ?_
    · have h := valid_property (valid_part h (.tail _ (.tail _ (.head _)))) (.tail _ (.tail _ (.tail _ (.tail _ (.tail _ (.tail _ (.tail _ (.tail _ (.tail _ (.head _)))))))))) hx
      have hs := hs.down hx
      have hl : CanRead (Json.array DataClassification.ofJson) _ := items_reads (valid_part h (.head _)) (valid_part h (.tail _ (.head _))) hs fun l el y hy h hs => v13_dataClassification_DataClassification (v13_ref_dataClassification h) hs
      obtain ⟨z, hz⟩ := hl
      exact ⟨.classification z, by simp only [ServiceDataChoice.ofJson, hz]⟩
    refine bind_reads (opt_reads fun x hx => ?_) fun _ => ?_
    · have h := valid_property (valid_part h (.tail _ (.tail _ (.head _)))) (.tail _ (.tail _ (.tail _ (.tail _ (.tail _ (.tail _ (.tail _ (.tail _ (.tail _ (.tail _ (.head _))))))))))) hx
      have hs := hs.down hx
      exact items_reads (valid_part h (.head _)) (valid_part h (.tail _ (.head _))) hs fun l el y hy h hs => v13_licenseChoice_LicenseChoice (v13_ref_licenseChoice h) hs
    refine bind_reads (opt_reads fun x hx => ?_) fun _ => ?_
    · have h := valid_property (valid_part h (.tail _ (.tail _ (.head _)))) (.tail _ (.tail _ (.tail _ (.tail _ (.tail _ (.tail _ (.tail _ (.tail _ (.tail _ (.tail _ (.tail _ (.head _)))))))))))) hx
      have hs := hs.down hx
      refine items_reads (valid_part h (.head _)) (valid_part h (.tail _ (.head _))) hs fun l el y hy h hs => ?_
      exact v13_externalReference_ExternalReference (v13_ref_externalReference h) hs
    refine bind_reads (opt_reads fun x hx => ?_) fun _ => ?_
    · have h := valid_property (valid_part h (.tail _ (.tail _ (.head _)))) (.tail _ (.tail _ (.tail _ (.tail _ (.tail _ (.tail _ (.tail _ (.tail _ (.tail _ (.tail _ (.tail _ (.tail _ (.tail _ (.head _)))))))))))))) hx
      have hs := hs.down hx
      refine items_reads (valid_part h (.head _)) (valid_part h (.tail _ (.head _))) hs fun l el y hy h hs => ?_
      exact v13_property_Property (v13_ref_property h) hs (hr.named _ (el ▸ hx) _ hy)
    refine bind_reads (opt_reads fun x hx => ?_) fun _ => ?_
    · have h := valid_property (valid_part h (.tail _ (.tail _ (.head _)))) (.tail _ (.tail _ (.tail _ (.tail _ (.tail _ (.tail _ (.tail _ (.tail _ (.tail _ (.tail _ (.tail _ (.tail _ (.head _))))))))))))) hx
      have hs := hs.down hx
      refine items_reads (valid_part h (.head _)) (valid_part h (.tail _ (.tail _ (.head _)))) hs fun l el y hy h hs => ?_
      exact ih (v13_ref_service h) hs
    refine bind_reads ⟨_, rfl⟩ fun _ => ?_
    refine bind_reads ⟨_, rfl⟩ fun _ => ?_
    exact ⟨_, rfl⟩

theorem v13_service_Service {j : Json} (h : Valid (schemaContext F .v1_3) Schema13.service j) (hs : Sane ReadLimit.limit j) :
    CanRead (Service.ofJson .v1_3) j := v13_service_Service_n _ h hs

theorem v13_dependency_Dependency {n : Nat} {j : Json} (h : Valid (schemaContext F .v1_3) Schema13.dependency j) (hs : Sane n j) :
    CanRead (Dependency.ofJson) j := by
  obtain ⟨o, rfl⟩ := type_object (valid_part h (.head _))
  have hr := hs.readable
  have hreq := (valid_part h (.tail _ (.head _)))
  refine fields_reads ?_
  refine bind_reads (req_reads (valid_required hreq (by simp)) fun x hx => ?_) fun _ => ?_
  · have h := valid_property (valid_part h (.tail _ (.tail _ (.head _)))) (.head _) hx
    have hs := hs.member hx
    exact string_reads (type_string (v13_ref_refType h))
  refine bind_reads (orEmpty_reads fun x hx => ?_) fun _ => ?_
  · have h := valid_property (valid_part h (.tail _ (.tail _ (.head _)))) (.tail _ (.head _)) hx
    have hs := hs.member hx
    refine items_reads (valid_part h (.head _)) (valid_part h (.tail _ (.tail _ (.head _)))) hs fun l el y hy h hs => ?_
    exact string_reads (type_string (v13_ref_refType h))
  exact ⟨_, rfl⟩

theorem v13_compositions_Composition {n : Nat} {j : Json} (h : Valid (schemaContext F .v1_3) Schema13.compositions j) (hs : Sane n j) :
    CanRead (Composition.ofJson .v1_3) j := by
  obtain ⟨o, rfl⟩ := type_object (valid_part h (.head _))
  have hr := hs.readable
  have hreq := (valid_part h (.tail _ (.head _)))
  refine fields_reads ?_
  refine bind_reads ⟨_, rfl⟩ fun _ => ?_
  refine bind_reads (req_reads (valid_required hreq (by simp)) fun x hx => ?_) fun _ => ?_
  · have h := valid_property (valid_part h (.tail _ (.tail _ (.head _)))) (.head _) hx
    have hs := hs.member hx
    exact enum_reads (type_string (valid_part (v13_ref_aggregateType h) (.head _)))
  refine bind_reads (opt_reads fun x hx => ?_) fun _ => ?_
  · have h := valid_property (valid_part h (.tail _ (.tail _ (.head _)))) (.tail _ (.head _)) hx
    have hs := hs.member hx
    refine items_reads (valid_part h (.head _)) (valid_part h (.tail _ (.tail _ (.head _)))) hs fun l el y hy h hs => ?_
    exact string_reads (type_string h)
  refine bind_reads (opt_reads fun x hx => ?_) fun _ => ?_
  · have h := valid_property (valid_part h (.tail _ (.tail _ (.head _)))) (.tail _ (.tail _ (.head _))) hx
    have hs := hs.member hx
    refine items_reads (valid_part h (.head _)) (valid_part h (.tail _ (.tail _ (.head _)))) hs fun l el y hy h hs => ?_
    exact string_reads (type_string h)
  refine bind_reads ⟨_, rfl⟩ fun _ => ?_
  refine bind_reads ⟨_, rfl⟩ fun _ => ?_
  exact ⟨_, rfl⟩

theorem v13_root_Bom {j : Json} (h : Valid (schemaContext F .v1_3) Schema13.root j) (hs : Sane ReadLimit.limit j)
    (hspec : ∀ o, j = .obj o → ∀ x, ("specVersion", x) ∈ o → CanRead SpecVersion.ofJson x) :
    CanRead (Bom.ofJson .v1_3) j := by
  obtain ⟨o, rfl⟩ := type_object (valid_part h (.head _))
  have hr := hs.readable
  have hreq := (valid_part h (.tail _ (.head _)))
  refine fields_reads ?_
  refine bind_reads (req_reads (valid_required hreq (by simp)) fun x hx => ?_) fun _ => ?_
  · have h := valid_property (valid_part h (.tail _ (.tail _ (.head _)))) (.head _) hx
    have hs := hs.member hx
    obtain ⟨s, hm, rfl⟩ := valid_kw.mp (valid_part h (.tail _ (.head _)))
    simp only [List.mem_cons, List.not_mem_nil, or_false] at hm
    subst hm
    exact ⟨(), rfl⟩
  refine bind_reads (req_reads (valid_required hreq (by simp)) fun x hx => hspec _ rfl _ hx) fun _ => ?_
  refine bind_reads (req_reads (valid_required hreq (by simp)) fun x hx => ?_) fun _ => ?_
  · have h := valid_property (valid_part h (.tail _ (.tail _ (.head _)))) (.tail _ (.tail _ (.tail _ (.head _)))) hx
    have hs := hs.member hx
    exact u32_reads (hr.small _ _ hx (by simp) (integer_number h))
  refine bind_reads (opt_reads fun x hx => ?_) fun _ => ?_
  · have h := valid_property (valid_part h (.tail _ (.tail _ (.head _)))) (.tail _ (.tail _ (.head _))) hx
    have hs := hs.member hx
    exact string_reads (type_string (valid_part h (.head _)))
  refine bind_reads (opt_reads fun x hx => ?_) fun _ => ?_
  · have h := valid_property (valid_part h (.tail _ (.tail _ (.head _)))) (.tail _ (.tail _ (.tail _ (.tail _ (.head _))))) hx
    have hs := hs.member hx
    exact v13_metadata_Metadata (v13_ref_metadata h) hs
  refine bind_reads (opt_reads fun x hx => ?_) fun _ => ?_
  · have h := valid_property (valid_part h (.tail _ (.tail _ (.head _)))) (.tail _ (.tail _ (.tail _ (.tail _ (.tail _ (.head _)))))) hx
    have hs := hs.member hx
    refine items_reads (valid_part h (.head _)) (valid_part h (.tail _ (.tail _ (.head _)))) hs fun l el y hy h hs => ?_
    exact v13_component_Component (v13_ref_component h) hs
  refine bind_reads (opt_reads fun x hx => ?_) fun _ => ?_
  · have h := valid_property (valid_part h (.tail _ (.tail _ (.head _)))) (.tail _ (.tail _ (.tail _ (.tail _ (.tail _ (.tail _ (.head _))))))) hx
    have hs := hs.member hx
    refine items_reads (valid_part h (.head _)) (valid_part h (.tail _ (.tail _ (.head _)))) hs fun l el y hy h hs => ?_
    exact v13_service_Service (v13_ref_service h) hs
  refine bind_reads (opt_reads fun x hx => ?_) fun _ => ?_
  · have h := valid_property (valid_part h (.tail _ (.tail _ (.head _)))) (.tail _ (.tail _ (.tail _ (.tail _ (.tail _ (.tail _ (.tail _ (.head _)))))))) hx
    have hs := hs.member hx
    refine items_reads (valid_part h (.head _)) (valid_part h (.tail _ (.head _))) hs fun l el y hy h hs => ?_
    exact v13_externalReference_ExternalReference (v13_ref_externalReference h) hs
  refine bind_reads (opt_reads fun x hx => ?_) fun _ => ?_
  · have h := valid_property (valid_part h (.tail _ (.tail _ (.head _)))) (.tail _ (.tail _ (.tail _ (.tail _ (.tail _ (.tail _ (.tail _ (.tail _ (.head _))))))))) hx
    have hs := hs.member hx
    refine items_reads (valid_part h (.head _)) (valid_part h (.tail _ (.tail _ (.head _)))) hs fun l el y hy h hs => ?_
    exact v13_dependency_Dependency (v13_ref_dependency h) hs
  refine bind_reads (opt_reads fun x hx => ?_) fun _ => ?_
  · have h := valid_property (valid_part h (.tail _ (.tail _ (.head _)))) (.tail _ (.tail _ (.tail _ (.tail _ (.tail _ (.tail _ (.tail _ (.tail _ (.tail _ (.head _)))))))))) hx
    have hs := hs.member hx
    refine items_reads (valid_part h (.head _)) (valid_part h (.tail _ (.tail _ (.head _)))) hs fun l el y hy h hs => ?_
    exact v13_compositions_Composition (v13_ref_compositions h) hs
  refine bind_reads ⟨_, rfl⟩ fun _ => ?_
  refine bind_reads ⟨_, rfl⟩ fun _ => ?_
  refine bind_reads ⟨_, rfl⟩ fun _ => ?_
  refine bind_reads ⟨_, rfl⟩ fun _ => ?_
  refine bind_reads ⟨_, rfl⟩ fun _ => ?_
  exact ⟨_, rfl⟩

end Cdx
