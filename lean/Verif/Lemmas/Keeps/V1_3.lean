import Verif.Lemmas.Lossless
import Verif.Lemmas.Reads.V1_3
import Verif.Spec.Strict

/-!
# Lemmas: what the schema of CycloneDX 1.3 without other members accepts is kept

One theorem for each definition of the schema and each reader that meets it.
-/

namespace Cdx

open Spec

set_option linter.unusedVariables false
set_option linter.unusedSectionVars false
set_option linter.unusedSimpArgs false

variable [F32Format] [ReadLimit] {F : Formats}

/-- A member that must be there and is kept as an optional value. -/
theorem some_keeps {α : Type} {o : List (String × Json)} {k : String} {f : Json → Except String α}
    {g : α → Json} (hm : ∃ x, (k, x) ∈ o) (h : ∀ x, (k, x) ∈ o → Keeps f g x)
    (hn : (o.map Prod.fst).Nodup := by distinct_members) :
    ∃ y, (Json.req o k f).map some = .ok y ∧ FieldKept o k (y.map g) := by
  obtain ⟨y, hy, hk⟩ := req_keeps hm h
  exact ⟨some y, by rw [hy]; rfl, hk⟩

theorem v13s_ref_metadata {j : Json} (h : Valid (strictContext F .v1_3) (.ref "metadata") j) :
    Valid (strictContext F .v1_3) Schema13.metadata.strict j := valid_unref h rfl

theorem v13s_ref_hash {j : Json} (h : Valid (strictContext F .v1_3) (.ref "hash") j) :
    Valid (strictContext F .v1_3) Schema13.hash.strict j := valid_unref h rfl

theorem v13s_ref_hash_alg {j : Json} (h : Valid (strictContext F .v1_3) (.ref "hash-alg") j) :
    Valid (strictContext F .v1_3) Schema13.hashAlg.strict j := valid_unref h rfl

theorem v13s_ref_hash_content {j : Json} (h : Valid (strictContext F .v1_3) (.ref "hash-content") j) :
    Valid (strictContext F .v1_3) Schema13.hashContent.strict j := valid_unref h rfl

theorem v13s_ref_tool {j : Json} (h : Valid (strictContext F .v1_3) (.ref "tool") j) :
    Valid (strictContext F .v1_3) Schema13.tool.strict j := valid_unref h rfl

theorem v13s_ref_organizationalContact {j : Json} (h : Valid (strictContext F .v1_3) (.ref "organizationalContact") j) :
    Valid (strictContext F .v1_3) Schema13.organizationalContact.strict j := valid_unref h rfl

theorem v13s_ref_component {j : Json} (h : Valid (strictContext F .v1_3) (.ref "component") j) :
    Valid (strictContext F .v1_3) Schema13.component.strict j := valid_unref h rfl

theorem v13s_ref_refType {j : Json} (h : Valid (strictContext F .v1_3) (.ref "refType") j) :
    Valid (strictContext F .v1_3) Schema13.refType.strict j := valid_unref h rfl

theorem v13s_ref_organizationalEntity {j : Json} (h : Valid (strictContext F .v1_3) (.ref "organizationalEntity") j) :
    Valid (strictContext F .v1_3) Schema13.organizationalEntity.strict j := valid_unref h rfl

theorem v13s_ref_licenseChoice {j : Json} (h : Valid (strictContext F .v1_3) (.ref "licenseChoice") j) :
    Valid (strictContext F .v1_3) Schema13.licenseChoice.strict j := valid_unref h rfl

theorem v13s_ref_spdx {j : Json} (h : Valid (strictContext F .v1_3) (.ref "spdx") j) :
    Valid (strictContext F .v1_3) SchemaSpdx.spdx j := valid_unref h rfl

theorem v13s_ref_attachment {j : Json} (h : Valid (strictContext F .v1_3) (.ref "attachment") j) :
    Valid (strictContext F .v1_3) Schema13.attachment.strict j := valid_unref h rfl

theorem v13s_ref_license {j : Json} (h : Valid (strictContext F .v1_3) (.ref "license") j) :
    Valid (strictContext F .v1_3) Schema13.license.strict j := valid_unref h rfl

theorem v13s_ref_swid {j : Json} (h : Valid (strictContext F .v1_3) (.ref "swid") j) :
    Valid (strictContext F .v1_3) Schema13.swid.strict j := valid_unref h rfl

theorem v13s_ref_commit {j : Json} (h : Valid (strictContext F .v1_3) (.ref "commit") j) :
    Valid (strictContext F .v1_3) Schema13.commit.strict j := valid_unref h rfl

theorem v13s_ref_identifiableAction {j : Json} (h : Valid (strictContext F .v1_3) (.ref "identifiableAction") j) :
    Valid (strictContext F .v1_3) Schema13.identifiableAction.strict j := valid_unref h rfl

theorem v13s_ref_patch {j : Json} (h : Valid (strictContext F .v1_3) (.ref "patch") j) :
    Valid (strictContext F .v1_3) Schema13.patch.strict j := valid_unref h rfl

theorem v13s_ref_diff {j : Json} (h : Valid (strictContext F .v1_3) (.ref "diff") j) :
    Valid (strictContext F .v1_3) Schema13.diff.strict j := valid_unref h rfl

theorem v13s_ref_issue {j : Json} (h : Valid (strictContext F .v1_3) (.ref "issue") j) :
    Valid (strictContext F .v1_3) Schema13.issue.strict j := valid_unref h rfl

theorem v13s_ref_externalReference {j : Json} (h : Valid (strictContext F .v1_3) (.ref "externalReference") j) :
    Valid (strictContext F .v1_3) Schema13.externalReference.strict j := valid_unref h rfl

theorem v13s_ref_property {j : Json} (h : Valid (strictContext F .v1_3) (.ref "property") j) :
    Valid (strictContext F .v1_3) Schema13.property.strict j := valid_unref h rfl

theorem v13s_ref_componentEvidence {j : Json} (h : Valid (strictContext F .v1_3) (.ref "componentEvidence") j) :
    Valid (strictContext F .v1_3) Schema13.componentEvidence.strict j := valid_unref h rfl

theorem v13s_ref_copyright {j : Json} (h : Valid (strictContext F .v1_3) (.ref "copyright") j) :
    Valid (strictContext F .v1_3) Schema13.copyright.strict j := valid_unref h rfl

theorem v13s_ref_service {j : Json} (h : Valid (strictContext F .v1_3) (.ref "service") j) :
    Valid (strictContext F .v1_3) Schema13.service.strict j := valid_unref h rfl

theorem v13s_ref_dataFlow {j : Json} (h : Valid (strictContext F .v1_3) (.ref "dataFlow") j) :
    Valid (strictContext F .v1_3) Schema13.dataFlow.strict j := valid_unref h rfl

theorem v13s_ref_dataClassification {j : Json} (h : Valid (strictContext F .v1_3) (.ref "dataClassification") j) :
    Valid (strictContext F .v1_3) Schema13.dataClassification.strict j := valid_unref h rfl

theorem v13s_ref_dependency {j : Json} (h : Valid (strictContext F .v1_3) (.ref "dependency") j) :
    Valid (strictContext F .v1_3) Schema13.dependency.strict j := valid_unref h rfl

theorem v13s_ref_compositions {j : Json} (h : Valid (strictContext F .v1_3) (.ref "compositions") j) :
    Valid (strictContext F .v1_3) Schema13.compositions.strict j := valid_unref h rfl

theorem v13s_ref_aggregateType {j : Json} (h : Valid (strictContext F .v1_3) (.ref "aggregateType") j) :
    Valid (strictContext F .v1_3) Schema13.aggregateType.strict j := valid_unref h rfl

theorem v13k_hash_Hash {n : Nat} {j : Json} (h : Valid (strictContext F .v1_3) Schema13.hash.strict j) (hs : Clean n j) :
    Keeps (Hash.ofJson) Hash.toJson j := by
  obtain ⟨o, rfl⟩ := type_object (valid_part h (.head _))
  have hr := hs.readable
  have hk := hs.kept
  have hreq := (valid_part h (.tail _ (.head _)))
  refine object_keeps ?_
  refine bind_keeps (req_keeps (g := (Json.ofEnum HashAlgorithm.display)) (valid_required hreq (by simp)) fun x hx => ?_) fun _ f0 => ?_
  · have h := valid_property (valid_part (valid_part h (.tail _ (.tail _ (.head _)))) (.tail _ (.head _))) (.head _) hx
    have hkn := hs.known hx
    have hs := hs.member hx
    exact enum_keeps (type_string (valid_part (v13s_ref_hash_alg h) (.head _))) fun s e => HashAlgorithm.display_new s
  refine bind_keeps (req_keeps (g := Json.str) (valid_required hreq (by simp)) fun x hx => ?_) fun _ f1 => ?_
  · have h := valid_property (valid_part (valid_part h (.tail _ (.tail _ (.head _)))) (.tail _ (.head _))) (.tail _ (.head _)) hx
    have hkn := hs.known hx
    have hs := hs.member hx
    exact string_keeps (type_string (valid_part (v13s_ref_hash_content h) (.head _)))
  exact ⟨_, rfl, same_mk hs.nodup (forall_head f0 (forall_head f1 nofun)) (all_written (ks := ["alg", "content"]) (lost := []) (closed_only (valid_part (valid_part h (.tail _ (.tail _ (.head _)))) (.head _))) no_members rfl (by decide +kernel))⟩

theorem v13k_tool_Tool {n : Nat} {j : Json} (h : Valid (strictContext F .v1_3) Schema13.tool.strict j) (hs : Clean n j) :
    Keeps (Tool.ofJson .v1_3) (Tool.toJson .v1_3) j := by
  obtain ⟨o, rfl⟩ := type_object (valid_part h (.head _))
  have hr := hs.readable
  have hk := hs.kept
  refine object_keeps ?_
  refine bind_keeps (opt_keeps (g := Json.str) fun x hx => ?_) fun _ f0 => ?_
  · have h := valid_property (valid_part (valid_part h (.tail _ (.head _))) (.tail _ (.head _))) (.head _) hx
    have hkn := hs.known hx
    have hs := hs.member hx
    exact string_keeps (type_string h)
  refine bind_keeps (opt_keeps (g := Json.str) fun x hx => ?_) fun _ f1 => ?_
  · have h := valid_property (valid_part (valid_part h (.tail _ (.head _))) (.tail _ (.head _))) (.tail _ (.head _)) hx
    have hkn := hs.known hx
    have hs := hs.member hx
    exact string_keeps (type_string h)
  refine bind_keeps (opt_keeps (g := Json.str) fun x hx => ?_) fun _ f2 => ?_
  · have h := valid_property (valid_part (valid_part h (.tail _ (.head _))) (.tail _ (.head _))) (.tail _ (.tail _ (.head _))) hx
    have hkn := hs.known hx
    have hs := hs.member hx
    exact string_keeps (type_string h)
  refine bind_keeps (opt_keeps (g := (Json.ofList Hash.toJson)) fun x hx => ?_) fun _ f3 => ?_
  · have h := valid_property (valid_part (valid_part h (.tail _ (.head _))) (.tail _ (.head _))) (.tail _ (.tail _ (.tail _ (.head _)))) hx
    have hkn := hs.known hx
    have hs := hs.member hx
    refine items_keeps (valid_part h (.head _)) (valid_part h (.tail _ (.head _))) hs fun l el y hy h hs => ?_
    exact v13k_hash_Hash (v13s_ref_hash h) hs
  refine skip_keeps ?_
  exact ⟨_, rfl, same_mk hs.nodup (forall_head f0 (forall_head f1 (forall_head f2 (forall_head f3 nofun)))) (all_written (ks := ["vendor", "name", "version", "hashes"]) (lost := []) (closed_only (valid_part (valid_part h (.tail _ (.head _))) (.head _))) no_members rfl (by decide +kernel))⟩

theorem v13k_organizationalContact_OrganizationalContact {n : Nat} {j : Json} (h : Valid (strictContext F .v1_3) Schema13.organizationalContact.strict j) (hs : Clean n j) :
    Keeps (OrganizationalContact.ofJson) OrganizationalContact.toJson j := by
  obtain ⟨o, rfl⟩ := type_object (valid_part h (.head _))
  have hr := hs.readable
  have hk := hs.kept
  refine object_keeps ?_
  refine bind_keeps (opt_keeps (g := Json.str) fun x hx => ?_) fun _ f0 => ?_
  · have := valid_closed (valid_part (valid_part h (.tail _ (.head _))) (.head _)) hx
    simp at this
  refine bind_keeps (opt_keeps (g := Json.str) fun x hx => ?_) fun _ f1 => ?_
  · have h := valid_property (valid_part (valid_part h (.tail _ (.head _))) (.tail _ (.head _))) (.head _) hx
    have hkn := hs.known hx
    have hs := hs.member hx
    exact string_keeps (type_string h)
  refine bind_keeps (opt_keeps (g := Json.str) fun x hx => ?_) fun _ f2 => ?_
  · have h := valid_property (valid_part (valid_part h (.tail _ (.head _))) (.tail _ (.head _))) (.tail _ (.head _)) hx
    have hkn := hs.known hx
    have hs := hs.member hx
    exact string_keeps (type_string h)
  refine bind_keeps (opt_keeps (g := Json.str) fun x hx => ?_) fun _ f3 => ?_
  · have h := valid_property (valid_part (valid_part h (.tail _ (.head _))) (.tail _ (.head _))) (.tail _ (.tail _ (.head _))) hx
    have hkn := hs.known hx
    have hs := hs.member hx
    exact string_keeps (type_string h)
  exact ⟨_, rfl, same_mk hs.nodup (forall_head f0 (forall_head f1 (forall_head f2 (forall_head f3 nofun)))) (all_written (ks := ["bomRef", "name", "email", "phone"]) (lost := []) (closed_only (valid_part (valid_part h (.tail _ (.head _))) (.head _))) no_members rfl (by decide +kernel))⟩

theorem v13k_organizationalEntity_OrganizationalEntity {n : Nat} {j : Json} (h : Valid (strictContext F .v1_3) Schema13.organizationalEntity.strict j) (hs : Clean n j) :
    Keeps (OrganizationalEntity.ofJson) OrganizationalEntity.toJson j := by
  obtain ⟨o, rfl⟩ := type_object (valid_part h (.head _))
  have hr := hs.readable
  have hk := hs.kept
  refine object_keeps ?_
  refine bind_keeps (opt_keeps (g := Json.str) fun x hx => ?_) fun _ f0 => ?_
  · have := valid_closed (valid_part (valid_part h (.tail _ (.head _))) (.head _)) hx
    simp at this
  refine bind_keeps (opt_keeps (g := Json.str) fun x hx => ?_) fun _ f1 => ?_
  · have h := valid_property (valid_part (valid_part h (.tail _ (.head _))) (.tail _ (.head _))) (.head _) hx
    have hkn := hs.known hx
    have hs := hs.member hx
    exact string_keeps (type_string h)
  refine bind_keeps (opt_keeps (g := (Json.ofList Json.str)) fun x hx => ?_) fun _ f2 => ?_
  · have h := valid_property (valid_part (valid_part h (.tail _ (.head _))) (.tail _ (.head _))) (.tail _ (.head _)) hx
    have hkn := hs.known hx
    have hs := hs.member hx
    refine items_keeps (valid_part h (.head _)) (valid_part h (.tail _ (.head _))) hs fun l el y hy h hs => ?_
    exact string_keeps (type_string (valid_part h (.head _)))
  refine bind_keeps (opt_keeps (g := (Json.ofList OrganizationalContact.toJson)) fun x hx => ?_) fun _ f3 => ?_
  · have h := valid_property (valid_part (valid_part h (.tail _ (.head _))) (.tail _ (.head _))) (.tail _ (.tail _ (.head _))) hx
    have hkn := hs.known hx
    have hs := hs.member hx
    refine items_keeps (valid_part h (.head _)) (valid_part h (.tail _ (.head _))) hs fun l el y hy h hs => ?_
    exact v13k_organizationalContact_OrganizationalContact (v13s_ref_organizationalContact h) hs
  exact ⟨_, rfl, same_mk hs.nodup (forall_head f0 (forall_head f1 (forall_head f2 (forall_head f3 nofun)))) (all_written (ks := ["bomRef", "name", "url", "contact"]) (lost := []) (closed_only (valid_part (valid_part h (.tail _ (.head _))) (.head _))) no_members rfl (by decide +kernel))⟩

theorem v13k_attachment_AttachedText {n : Nat} {j : Json} (h : Valid (strictContext F .v1_3) Schema13.attachment.strict j) (hs : Clean n j) :
    Keeps (AttachedText.ofJson) AttachedText.toJson j := by
  obtain ⟨o, rfl⟩ := type_object (valid_part h (.head _))
  have hr := hs.readable
  have hk := hs.kept
  have hreq := (valid_part h (.tail _ (.head _)))
  refine object_keeps ?_
  refine bind_keeps (opt_keeps (g := Json.str) fun x hx => ?_) fun _ f0 => ?_
  · have h := valid_property (valid_part (valid_part h (.tail _ (.tail _ (.head _)))) (.tail _ (.head _))) (.head _) hx
    have hkn := hs.known hx
    have hs := hs.member hx
    exact string_keeps (type_string h)
  refine bind_keeps (opt_keeps (g := (Json.ofEnum Encoding.display)) fun x hx => ?_) fun _ f1 => ?_
  · have h := valid_property (valid_part (valid_part h (.tail _ (.tail _ (.head _)))) (.tail _ (.head _))) (.tail _ (.head _)) hx
    have hkn := hs.known hx
    have hs := hs.member hx
    exact enum_keeps (type_string (valid_part h (.head _))) fun s e => Encoding.display_new s
  refine bind_keeps (req_keeps (g := Json.str) (valid_required hreq (by simp)) fun x hx => ?_) fun _ f2 => ?_
  · have h := valid_property (valid_part (valid_part h (.tail _ (.tail _ (.head _)))) (.tail _ (.head _))) (.tail _ (.tail _ (.head _))) hx
    have hkn := hs.known hx
    have hs := hs.member hx
    exact string_keeps (type_string h)
  exact ⟨_, rfl, same_mk hs.nodup (forall_head f0 (forall_head f1 (forall_head f2 nofun))) (all_written (ks := ["contentType", "encoding", "content"]) (lost := []) (closed_only (valid_part (valid_part h (.tail _ (.tail _ (.head _)))) (.head _))) no_members rfl (by decide +kernel))⟩

theorem v13k_license_License {n : Nat} {j : Json} (h : Valid (strictContext F .v1_3) Schema13.license.strict j) (hs : Clean n j) :
    Keeps (License.ofJson .v1_3) (License.toJson .v1_3) j := by
  obtain ⟨o, rfl⟩ := type_object (valid_part h (.head _))
  have hr := hs.readable
  have hk := hs.kept
  refine object_keeps ?_
  refine skip_keeps ?_
  have key : ∃ y, LicenseIdentifier.ofFields o = .ok y ∧ (∀ p ∈ LicenseIdentifier.toFields y, FieldKept o p.1 p.2) ∧ ∀ k ∈ ["id", "name"], ∀ x, (k, x) ∈ o → ∃ w, (k, w) ∈ LicenseIdentifier.toFields y := by
    refine flatVariant_keeps (toFields := LicenseIdentifier.toFields) (ks := ["id", "name"]) (valid_part h (.tail _ (.tail _ (.head _)))) (by simp) ?_ ?_
    · intro p hp hn x hx
      simp only [List.mem_cons, List.not_mem_nil, or_false] at hp
      rcases hp with rfl | rfl
      · exact absurd (by simp) hn
      · exact absurd (by simp) hn
    · intro p hp x hx
      simp only [List.mem_cons, List.not_mem_nil, or_false] at hp
      rcases hp with rfl | rfl
      · have h := valid_property (valid_part (valid_part h (.tail _ (.head _))) (.tail _ (.head _))) (.head _) hx
        have hs := hs.member hx
        refine variant_keeps (?_ : Keeps (Json.string) Json.str x) fun _ => rfl
        exact string_keeps (type_string (valid_part (v13s_ref_spdx h) (.head _)))
      · have h := valid_property (valid_part (valid_part h (.tail _ (.head _))) (.tail _ (.head _))) (.tail _ (.head _)) hx
        have hs := hs.member hx
        refine variant_keeps (?_ : Keeps (Json.string) Json.str x) fun _ => rfl
        exact string_keeps (type_string h)
  refine bind_keeps key fun yf ff => ?_
  refine bind_keeps (opt_keeps (g := AttachedText.toJson) fun x hx => ?_) fun _ f0 => ?_
  · have h := valid_property (valid_part (valid_part h (.tail _ (.head _))) (.tail _ (.head _))) (.tail _ (.tail _ (.head _))) hx
    have hkn := hs.known hx
    have hs := hs.member hx
    exact v13k_attachment_AttachedText (v13s_ref_attachment h) hs
  refine bind_keeps (opt_keeps (g := Json.str) fun x hx => ?_) fun _ f1 => ?_
  · have h := valid_property (valid_part (valid_part h (.tail _ (.head _))) (.tail _ (.head _))) (.tail _ (.tail _ (.tail _ (.head _)))) hx
    have hkn := hs.known hx
    have hs := hs.member hx
    exact string_keeps (type_string (valid_part h (.head _)))
  refine skip_keeps ?_
  refine skip_keeps ?_
  exact ⟨_, rfl, same_mk_assoc (same_mk hs.nodup (forall_append ff.1 (forall_head f0 (forall_head f1 nofun))) (all_written_flat (ks := ["text", "url"]) (lost := []) (closed_only (valid_part (valid_part h (.tail _ (.head _))) (.head _))) no_members ff.2 rfl (by decide +kernel)))⟩

theorem v13k_licenseChoice_LicenseChoice {n : Nat} {j : Json} (h : Valid (strictContext F .v1_3) Schema13.licenseChoice.strict j) (hs : Clean n j) :
    Keeps (LicenseChoice.ofJson .v1_3) (LicenseChoice.toJson .v1_3) j := by
  obtain ⟨o, rfl⟩ := type_object (valid_part h (.head _))
  have hr := hs.readable
  obtain ⟨k, hk, ⟨x, hx⟩, hne⟩ := oneOf_member (ks := ["license", "expression"]) (valid_part h (.tail _ (.tail _ (.head _))))
  simp only [List.mem_cons, List.not_mem_nil, or_false] at hk
  rcases hk with rfl | rfl
  · have e := one_member hs.nodup hx (hr.license ⟨_, _, rfl, hx⟩)
    have h := valid_property (valid_part (valid_part h (.tail _ (.head _))) (.tail _ (.head _))) (.head _) hx
    obtain ⟨-, z, hz, hsm⟩ := v13k_license_License (v13s_ref_license h) (hs.member hx)
    subst e
    exact ⟨nofun, .license z, by simp [LicenseChoice.ofJson, Json.tagged, List.lookup, hz, Except.map], same_single hsm⟩
  · have he : Keeps SpdxExpression.ofJson SpdxExpression.toJson (.obj o) := by
      refine object_keeps ?_
      refine bind_keeps (opt_keeps (g := Json.str) fun x hx => ?_) fun _ f0 => ?_
      · have := valid_closed (valid_part (valid_part h (.tail _ (.head _))) (.head _)) hx
        simp at this
      refine bind_keeps (req_keeps (g := Json.str) ⟨x, hx⟩ fun x hx => string_keeps (type_string (valid_property (valid_part (valid_part h (.tail _ (.head _))) (.tail _ (.head _))) (.tail _ (.head _)) hx))) fun _ f1 => ?_
      exact ⟨_, rfl, same_mk hs.nodup (forall_head f0 (forall_head f1 nofun)) (all_written (ks := ["bomRef", "expression"]) (lost := ["license"]) (closed_only (valid_part (valid_part h (.tail _ (.head _))) (.head _))) (no_member (hne _ (by simp) (by simp)) no_members) rfl (by decide +kernel))⟩
    obtain ⟨e, hf⟩ := tagged_fails (k := "license") (o := o) (f := fun j => (License.ofJson .v1_3 j).map LicenseChoice.license) (hne _ (by simp) (by simp))
    refine ⟨nofun, ?_⟩
    simp only [LicenseChoice.ofJson, hf]
    exact map_keeps he fun _ => rfl

theorem v13k_swid_Swid {n : Nat} {j : Json} (h : Valid (strictContext F .v1_3) Schema13.swid.strict j) (hs : Clean n j) :
    Keeps (Swid.ofJson) Swid.toJson j := by
  obtain ⟨o, rfl⟩ := type_object (valid_part h (.head _))
  have hr := hs.readable
  have hk := hs.kept
  have hreq := (valid_part h (.tail _ (.head _)))
  refine object_keeps ?_
  refine bind_keeps (req_keeps (g := Json.str) (valid_required hreq (by simp)) fun x hx => ?_) fun _ f0 => ?_
  · have h := valid_property (valid_part (valid_part h (.tail _ (.tail _ (.head _)))) (.tail _ (.head _))) (.head _) hx
    have hkn := hs.known hx
    have hs := hs.member hx
    exact string_keeps (type_string h)
  refine bind_keeps (req_keeps (g := Json.str) (valid_required hreq (by simp)) fun x hx => ?_) fun _ f1 => ?_
  · have h := valid_property (valid_part (valid_part h (.tail _ (.tail _ (.head _)))) (.tail _ (.head _))) (.tail _ (.head _)) hx
    have hkn := hs.known hx
    have hs := hs.member hx
    exact string_keeps (type_string h)
  refine bind_keeps (opt_keeps (g := Json.str) fun x hx => ?_) fun _ f2 => ?_
  · have h := valid_property (valid_part (valid_part h (.tail _ (.tail _ (.head _)))) (.tail _ (.head _))) (.tail _ (.tail _ (.head _))) hx
    have hkn := hs.known hx
    have hs := hs.member hx
    exact string_keeps (type_string h)
  refine bind_keeps (opt_keeps (g := Json.nat) fun x hx => ?_) fun _ f3 => ?_
  · have h := valid_property (valid_part (valid_part h (.tail _ (.tail _ (.head _)))) (.tail _ (.head _))) (.tail _ (.tail _ (.tail _ (.head _)))) hx
    have hkn := hs.known hx
    have hs := hs.member hx
    exact u32_keeps (hr.small _ _ hx (by simp) (integer_number h))
  refine bind_keeps (opt_keeps (g := Json.bool) fun x hx => ?_) fun _ f4 => ?_
  · have h := valid_property (valid_part (valid_part h (.tail _ (.tail _ (.head _)))) (.tail _ (.head _))) (.tail _ (.tail _ (.tail _ (.tail _ (.head _))))) hx
    have hkn := hs.known hx
    have hs := hs.member hx
    exact boolean_keeps h
  refine bind_keeps (opt_keeps (g := AttachedText.toJson) fun x hx => ?_) fun _ f5 => ?_
  · have h := valid_property (valid_part (valid_part h (.tail _ (.tail _ (.head _)))) (.tail _ (.head _))) (.tail _ (.tail _ (.tail _ (.tail _ (.tail _ (.head _)))))) hx
    have hkn := hs.known hx
    have hs := hs.member hx
    exact v13k_attachment_AttachedText (v13s_ref_attachment h) hs
  refine bind_keeps (opt_keeps (g := Json.str) fun x hx => ?_) fun _ f6 => ?_
  · have h := valid_property (valid_part (valid_part h (.tail _ (.tail _ (.head _)))) (.tail _ (.head _))) (.tail _ (.tail _ (.tail _ (.tail _ (.tail _ (.tail _ (.head _))))))) hx
    have hkn := hs.known hx
    have hs := hs.member hx
    exact string_keeps (type_string (valid_part h (.head _)))
  exact ⟨_, rfl, same_mk hs.nodup (forall_head f0 (forall_head f1 (forall_head f2 (forall_head f3 (forall_head f4 (forall_head f5 (forall_head f6 nofun))))))) (all_written (ks := ["tagId", "name", "version", "tagVersion", "patch", "text", "url"]) (lost := []) (closed_only (valid_part (valid_part h (.tail _ (.tail _ (.head _)))) (.head _))) no_members rfl (by decide +kernel))⟩

theorem v13k_identifiableAction_IdentifiableAction {n : Nat} {j : Json} (h : Valid (strictContext F .v1_3) Schema13.identifiableAction.strict j) (hs : Clean n j) :
    Keeps (IdentifiableAction.ofJson) IdentifiableAction.toJson j := by
  obtain ⟨o, rfl⟩ := type_object (valid_part h (.head _))
  have hr := hs.readable
  have hk := hs.kept
  refine object_keeps ?_
  refine bind_keeps (opt_keeps (g := Json.str) fun x hx => ?_) fun _ f0 => ?_
  · have h := valid_property (valid_part (valid_part h (.tail _ (.head _))) (.tail _ (.head _))) (.head _) hx
    have hkn := hs.known hx
    have hs := hs.member hx
    exact string_keeps (type_string (valid_part h (.head _)))
  refine bind_keeps (opt_keeps (g := Json.str) fun x hx => ?_) fun _ f1 => ?_
  · have h := valid_property (valid_part (valid_part h (.tail _ (.head _))) (.tail _ (.head _))) (.tail _ (.head _)) hx
    have hkn := hs.known hx
    have hs := hs.member hx
    exact string_keeps (type_string h)
  refine bind_keeps (opt_keeps (g := Json.str) fun x hx => ?_) fun _ f2 => ?_
  · have h := valid_property (valid_part (valid_part h (.tail _ (.head _))) (.tail _ (.head _))) (.tail _ (.tail _ (.head _))) hx
    have hkn := hs.known hx
    have hs := hs.member hx
    exact string_keeps (type_string (valid_part h (.head _)))
  exact ⟨_, rfl, same_mk hs.nodup (forall_head f0 (forall_head f1 (forall_head f2 nofun))) (all_written (ks := ["timestamp", "name", "email"]) (lost := []) (closed_only (valid_part (valid_part h (.tail _ (.head _))) (.head _))) no_members rfl (by decide +kernel))⟩

theorem v13k_commit_Commit {n : Nat} {j : Json} (h : Valid (strictContext F .v1_3) Schema13.commit.strict j) (hs : Clean n j) :
    Keeps (Commit.ofJson) Commit.toJson j := by
  obtain ⟨o, rfl⟩ := type_object (valid_part h (.head _))
  have hr := hs.readable
  have hk := hs.kept
  refine object_keeps ?_
  refine bind_keeps (opt_keeps (g := Json.str) fun x hx => ?_) fun _ f0 => ?_
  · have h := valid_property (valid_part (valid_part h (.tail _ (.head _))) (.tail _ (.head _))) (.head _) hx
    have hkn := hs.known hx
    have hs := hs.member hx
    exact string_keeps (type_string h)
  refine bind_keeps (opt_keeps (g := Json.str) fun x hx => ?_) fun _ f1 => ?_
  · have h := valid_property (valid_part (valid_part h (.tail _ (.head _))) (.tail _ (.head _))) (.tail _ (.head _)) hx
    have hkn := hs.known hx
    have hs := hs.member hx
    exact string_keeps (type_string (valid_part h (.head _)))
  refine bind_keeps (opt_keeps (g := IdentifiableAction.toJson) fun x hx => ?_) fun _ f2 => ?_
  · have h := valid_property (valid_part (valid_part h (.tail _ (.head _))) (.tail _ (.head _))) (.tail _ (.tail _ (.head _))) hx
    have hkn := hs.known hx
    have hs := hs.member hx
    exact v13k_identifiableAction_IdentifiableAction (v13s_ref_identifiableAction h) hs
  refine bind_keeps (opt_keeps (g := IdentifiableAction.toJson) fun x hx => ?_) fun _ f3 => ?_
  · have h := valid_property (valid_part (valid_part h (.tail _ (.head _))) (.tail _ (.head _))) (.tail _ (.tail _ (.tail _ (.head _)))) hx
    have hkn := hs.known hx
    have hs := hs.member hx
    exact v13k_identifiableAction_IdentifiableAction (v13s_ref_identifiableAction h) hs
  refine bind_keeps (opt_keeps (g := Json.str) fun x hx => ?_) fun _ f4 => ?_
  · have h := valid_property (valid_part (valid_part h (.tail _ (.head _))) (.tail _ (.head _))) (.tail _ (.tail _ (.tail _ (.tail _ (.head _))))) hx
    have hkn := hs.known hx
    have hs := hs.member hx
    exact string_keeps (type_string h)
  exact ⟨_, rfl, same_mk hs.nodup (forall_head f0 (forall_head f1 (forall_head f2 (forall_head f3 (forall_head f4 nofun))))) (all_written (ks := ["uid", "url", "author", "committer", "message"]) (lost := []) (closed_only (valid_part (valid_part h (.tail _ (.head _))) (.head _))) no_members rfl (by decide +kernel))⟩

theorem v13k_diff_Diff {n : Nat} {j : Json} (h : Valid (strictContext F .v1_3) Schema13.diff.strict j) (hs : Clean n j) :
    Keeps (Diff.ofJson) Diff.toJson j := by
  obtain ⟨o, rfl⟩ := type_object (valid_part h (.head _))
  have hr := hs.readable
  have hk := hs.kept
  refine object_keeps ?_
  refine bind_keeps (opt_keeps (g := AttachedText.toJson) fun x hx => ?_) fun _ f0 => ?_
  · have h := valid_property (valid_part (valid_part h (.tail _ (.head _))) (.tail _ (.head _))) (.head _) hx
    have hkn := hs.known hx
    have hs := hs.member hx
    exact v13k_attachment_AttachedText (v13s_ref_attachment h) hs
  refine bind_keeps (opt_keeps (g := Json.str) fun x hx => ?_) fun _ f1 => ?_
  · have h := valid_property (valid_part (valid_part h (.tail _ (.head _))) (.tail _ (.head _))) (.tail _ (.head _)) hx
    have hkn := hs.known hx
    have hs := hs.member hx
    exact string_keeps (type_string (valid_part h (.head _)))
  exact ⟨_, rfl, same_mk hs.nodup (forall_head f0 (forall_head f1 nofun)) (all_written (ks := ["text", "url"]) (lost := []) (closed_only (valid_part (valid_part h (.tail _ (.head _))) (.head _))) no_members rfl (by decide +kernel))⟩

theorem v13k_issue_Issue {n : Nat} {j : Json} (h : Valid (strictContext F .v1_3) Schema13.issue.strict j) (hs : Clean n j) :
    Keeps (Issue.ofJson) Issue.toJson j := by
  obtain ⟨o, rfl⟩ := type_object (valid_part h (.head _))
  have hr := hs.readable
  have hk := hs.kept
  have hreq := (valid_part h (.tail _ (.head _)))
  refine object_keeps ?_
  refine bind_keeps (req_keeps (g := (Json.ofEnum IssueClassification.display)) (valid_required hreq (by simp)) fun x hx => ?_) fun _ f0 => ?_
  · have h := valid_property (valid_part (valid_part h (.tail _ (.tail _ (.head _)))) (.tail _ (.head _))) (.head _) hx
    have hkn := hs.known hx
    have hs := hs.member hx
    exact enum_keeps (type_string (valid_part h (.head _))) fun s e => IssueClassification.display_new s
  refine bind_keeps (opt_keeps (g := Json.str) fun x hx => ?_) fun _ f1 => ?_
  · have h := valid_property (valid_part (valid_part h (.tail _ (.tail _ (.head _)))) (.tail _ (.head _))) (.tail _ (.head _)) hx
    have hkn := hs.known hx
    have hs := hs.member hx
    exact string_keeps (type_string h)
  refine bind_keeps (opt_keeps (g := Json.str) fun x hx => ?_) fun _ f2 => ?_
  · have h := valid_property (valid_part (valid_part h (.tail _ (.tail _ (.head _)))) (.tail _ (.head _))) (.tail _ (.tail _ (.head _))) hx
    have hkn := hs.known hx
    have hs := hs.member hx
    exact string_keeps (type_string h)
  refine bind_keeps (opt_keeps (g := Json.str) fun x hx => ?_) fun _ f3 => ?_
  · have h := valid_property (valid_part (valid_part h (.tail _ (.tail _ (.head _)))) (.tail _ (.head _))) (.tail _ (.tail _ (.tail _ (.head _)))) hx
    have hkn := hs.known hx
    have hs := hs.member hx
    exact string_keeps (type_string h)
  refine bind_keeps (opt_keeps (g := Source.toJson) fun x hx => ?_) fun _ f4 => ?_
  · have h := valid_property (valid_part (valid_part h (.tail _ (.tail _ (.head _)))) (.tail _ (.head _))) (.tail _ (.tail _ (.tail _ (.tail _ (.head _))))) hx
    have hkn := hs.known hx
    have hs := hs.member hx
    obtain ⟨o, rfl⟩ := type_object (valid_part h (.head _))
    have hr := hs.readable
    have hk := hs.kept
    refine object_keeps ?_
    refine bind_keeps (opt_keeps (g := Json.str) fun x hx => ?_) fun _ f0 => ?_
    · have h := valid_property (valid_part (valid_part h (.tail _ (.head _))) (.tail _ (.head _))) (.head _) hx
      have hkn := hs.known hx
      have hs := hs.member hx
      exact string_keeps (type_string h)
    refine bind_keeps (opt_keeps (g := Json.str) fun x hx => ?_) fun _ f1 => ?_
    · have h := valid_property (valid_part (valid_part h (.tail _ (.head _))) (.tail _ (.head _))) (.tail _ (.head _)) hx
      have hkn := hs.known hx
      have hs := hs.member hx
      exact string_keeps (type_string (valid_part h (.head _)))
    exact ⟨_, rfl, same_mk hs.nodup (forall_head f0 (forall_head f1 nofun)) (all_written (ks := ["name", "url"]) (lost := []) (closed_only (valid_part (valid_part h (.tail _ (.head _))) (.head _))) no_members rfl (by decide +kernel))⟩
  refine bind_keeps (opt_keeps (g := (Json.ofList Json.str)) fun x hx => ?_) fun _ f5 => ?_
  · have h := valid_property (valid_part (valid_part h (.tail _ (.tail _ (.head _)))) (.tail _ (.head _))) (.tail _ (.tail _ (.tail _ (.tail _ (.tail _ (.head _)))))) hx
    have hkn := hs.known hx
    have hs := hs.member hx
    refine items_keeps (valid_part h (.head _)) (valid_part h (.tail _ (.head _))) hs fun l el y hy h hs => ?_
    exact string_keeps (type_string (valid_part h (.head _)))
  exact ⟨_, rfl, same_mk hs.nodup (forall_head f0 (forall_head f1 (forall_head f2 (forall_head f3 (forall_head f4 (forall_head f5 nofun)))))) (all_written (ks := ["type", "id", "name", "description", "source", "references"]) (lost := []) (closed_only (valid_part (valid_part h (.tail _ (.tail _ (.head _)))) (.head _))) no_members rfl (by decide +kernel))⟩

theorem v13k_patch_Patch {n : Nat} {j : Json} (h : Valid (strictContext F .v1_3) Schema13.patch.strict j) (hs : Clean n j) :
    Keeps (Patch.ofJson) Patch.toJson j := by
  obtain ⟨o, rfl⟩ := type_object (valid_part h (.head _))
  have hr := hs.readable
  have hk := hs.kept
  have hreq := (valid_part h (.tail _ (.head _)))
  refine object_keeps ?_
  refine bind_keeps (req_keeps (g := (Json.ofEnum PatchClassification.display)) (valid_required hreq (by simp)) fun x hx => ?_) fun _ f0 => ?_
  · have h := valid_property (valid_part (valid_part h (.tail _ (.tail _ (.head _)))) (.tail _ (.head _))) (.head _) hx
    have hkn := hs.known hx
    have hs := hs.member hx
    exact enum_keeps (type_string (valid_part h (.head _))) fun s e => PatchClassification.display_new s
  refine bind_keeps (opt_keeps (g := Diff.toJson) fun x hx => ?_) fun _ f1 => ?_
  · have h := valid_property (valid_part (valid_part h (.tail _ (.tail _ (.head _)))) (.tail _ (.head _))) (.tail _ (.head _)) hx
    have hkn := hs.known hx
    have hs := hs.member hx
    exact v13k_diff_Diff (v13s_ref_diff h) hs
  refine bind_keeps (opt_keeps (g := (Json.ofList Issue.toJson)) fun x hx => ?_) fun _ f2 => ?_
  · have h := valid_property (valid_part (valid_part h (.tail _ (.tail _ (.head _)))) (.tail _ (.head _))) (.tail _ (.tail _ (.head _))) hx
    have hkn := hs.known hx
    have hs := hs.member hx
    refine items_keeps (valid_part h (.head _)) (valid_part h (.tail _ (.head _))) hs fun l el y hy h hs => ?_
    exact v13k_issue_Issue (v13s_ref_issue h) hs
  exact ⟨_, rfl, same_mk hs.nodup (forall_head f0 (forall_head f1 (forall_head f2 nofun))) (all_written (ks := ["type", "diff", "resolves"]) (lost := []) (closed_only (valid_part (valid_part h (.tail _ (.tail _ (.head _)))) (.head _))) no_members rfl (by decide +kernel))⟩

theorem v13k_externalReference_ExternalReference {n : Nat} {j : Json} (h : Valid (strictContext F .v1_3) Schema13.externalReference.strict j) (hs : Clean n j) :
    Keeps (ExternalReference.ofJson) ExternalReference.toJson j := by
  obtain ⟨o, rfl⟩ := type_object (valid_part h (.head _))
  have hr := hs.readable
  have hk := hs.kept
  have hreq := (valid_part h (.tail _ (.head _)))
  refine object_keeps ?_
  refine bind_keeps (req_keeps (g := (Json.ofEnum ExternalReferenceType.display)) (valid_required hreq (by simp)) fun x hx => ?_) fun _ f0 => ?_
  · have h := valid_property (valid_part (valid_part h (.tail _ (.tail _ (.head _)))) (.tail _ (.head _))) (.tail _ (.tail _ (.head _))) hx
    have hkn := hs.known hx
    have hs := hs.member hx
    exact enum_keeps (type_string (valid_part h (.head _))) fun s e => ExternalReferenceType.display_new fun e' => hkn.type rfl (e' ▸ e)
  refine bind_keeps (req_keeps (g := (Json.ofEnum RefUri.display)) (valid_required hreq (by simp)) fun x hx => ?_) fun _ f1 => ?_
  · have h := valid_property (valid_part (valid_part h (.tail _ (.tail _ (.head _)))) (.tail _ (.head _))) (.head _) hx
    have hkn := hs.known hx
    have hs := hs.member hx
    exact enum_keeps (type_string (valid_part h (.head _))) fun s e => RefUri.display_ofUrl s
  refine bind_keeps (opt_keeps (g := Json.str) fun x hx => ?_) fun _ f2 => ?_
  · have h := valid_property (valid_part (valid_part h (.tail _ (.tail _ (.head _)))) (.tail _ (.head _))) (.tail _ (.head _)) hx
    have hkn := hs.known hx
    have hs := hs.member hx
    exact string_keeps (type_string h)
  refine bind_keeps (opt_keeps (g := (Json.ofList Hash.toJson)) fun x hx => ?_) fun _ f3 => ?_
  · have h := valid_property (valid_part (valid_part h (.tail _ (.tail _ (.head _)))) (.tail _ (.head _))) (.tail _ (.tail _ (.tail _ (.head _)))) hx
    have hkn := hs.known hx
    have hs := hs.member hx
    refine items_keeps (valid_part h (.head _)) (valid_part h (.tail _ (.head _))) hs fun l el y hy h hs => ?_
    exact v13k_hash_Hash (v13s_ref_hash h) hs
  exact ⟨_, rfl, same_mk hs.nodup (forall_head f0 (forall_head f1 (forall_head f2 (forall_head f3 nofun)))) (all_written (ks := ["type", "url", "comment", "hashes"]) (lost := []) (closed_only (valid_part (valid_part h (.tail _ (.tail _ (.head _)))) (.head _))) no_members rfl (by decide +kernel))⟩

theorem v13k_property_Property {n : Nat} {j : Json} (h : Valid (strictContext F .v1_3) Schema13.property.strict j) (hs : Clean n j)
    (hh : Has "name" j ∧ Has "value" j) (hc : ∀ p, j = .obj p → OnlyHas ["name", "value"] p) :
    Keeps (Property.ofJson) Property.toJson j := by
  obtain ⟨o, rfl⟩ := type_object (valid_part h (.head _))
  have hcl := hc _ rfl
  have hr := hs.readable
  have hk := hs.kept
  refine object_keeps ?_
  refine bind_keeps (req_keeps (g := Json.str) hh.1.lookup fun x hx => ?_) fun _ f0 => ?_
  · have h := valid_property (valid_part (valid_part h (.tail _ (.head _))) (.tail _ (.head _))) (.head _) hx
    have hkn := hs.known hx
    have hs := hs.member hx
    exact string_keeps (type_string h)
  refine bind_keeps (req_keeps (g := Json.str) hh.2.lookup fun x hx => ?_) fun _ f1 => ?_
  · have h := valid_property (valid_part (valid_part h (.tail _ (.head _))) (.tail _ (.head _))) (.tail _ (.head _)) hx
    have hkn := hs.known hx
    have hs := hs.member hx
    exact string_keeps (type_string h)
  exact ⟨_, rfl, same_mk hs.nodup (forall_head f0 (forall_head f1 nofun)) (all_written (ks := ["name", "value"]) (lost := []) hcl no_members rfl (by decide +kernel))⟩

theorem v13k_copyright_Copyright {n : Nat} {j : Json} (h : Valid (strictContext F .v1_3) Schema13.copyright.strict j) (hs : Clean n j) :
    Keeps (Copyright.ofJson) Copyright.toJson j := by
  obtain ⟨o, rfl⟩ := type_object (valid_part h (.head _))
  have hr := hs.readable
  have hk := hs.kept
  have hreq := (valid_part h (.tail _ (.head _)))
  refine object_keeps ?_
  obtain ⟨y, hy, f0⟩ := req_keeps (k := "text") (f := Json.string) (g := Json.str) (valid_required hreq (by simp)) fun x hx => string_keeps (type_string (valid_property (valid_part (valid_part h (.tail _ (.tail _ (.head _)))) (.tail _ (.head _))) (.head _) hx))
  exact ⟨y, hy, same_mk hs.nodup (forall_head f0 nofun) (all_written (ks := ["text"]) (closed_only (valid_part (valid_part h (.tail _ (.tail _ (.head _)))) (.head _))) no_members rfl (by decide +kernel))⟩

theorem v13k_componentEvidence_ComponentEvidence {n : Nat} {j : Json} (h : Valid (strictContext F .v1_3) Schema13.componentEvidence.strict j) (hs : Clean n j) :
    Keeps (ComponentEvidence.ofJson .v1_3) (ComponentEvidence.toJson .v1_3) j := by
  obtain ⟨o, rfl⟩ := type_object (valid_part h (.head _))
  have hr := hs.readable
  have hk := hs.kept
  refine object_keeps ?_
  refine bind_keeps (opt_keeps (g := (Licenses.toJson .v1_3)) fun x hx => ?_) fun _ f0 => ?_
  · have h := valid_property (valid_part (valid_part h (.tail _ (.head _))) (.tail _ (.head _))) (.head _) hx
    have hkn := hs.known hx
    have hs := hs.member hx
    exact items_keeps (valid_part h (.head _)) (valid_part h (.tail _ (.head _))) hs fun l el y hy h hs => v13k_licenseChoice_LicenseChoice (v13s_ref_licenseChoice h) hs
  refine bind_keeps (opt_keeps (g := (Json.ofList Copyright.toJson)) fun x hx => ?_) fun _ f1 => ?_
  · have h := valid_property (valid_part (valid_part h (.tail _ (.head _))) (.tail _ (.head _))) (.tail _ (.head _)) hx
    have hkn := hs.known hx
    have hs := hs.member hx
    refine items_keeps (valid_part h (.head _)) (valid_part h (.tail _ (.head _))) hs fun l el y hy h hs => ?_
    exact v13k_copyright_Copyright (v13s_ref_copyright h) hs
  refine skip_keeps ?_
  refine skip_keeps ?_
  refine skip_keeps ?_
  exact ⟨_, rfl, same_mk hs.nodup (forall_head f0 (forall_head f1 nofun)) (all_written (ks := ["licenses", "copyright"]) (lost := []) (closed_only (valid_part (valid_part h (.tail _ (.head _))) (.head _))) no_members rfl (by decide +kernel))⟩

theorem v13k_component_Component_n (n : Nat) : ∀ {j : Json}, Valid (strictContext F .v1_3) Schema13.component.strict j → Clean n j →
    Keeps (Component.ofJsonN .v1_3 n) (Component.toJson .v1_3) j := by
  induction n with
  | zero =>
    intro j h hs
    obtain ⟨o, rfl⟩ := type_object (valid_part h (.head _))
    cases hs.sane.within
  | succ n ih =>
    intro j h hs
    show Keeps (Component.ofJsonWith (Component.ofJsonN .v1_3 n) .v1_3) (Component.toJson .v1_3) j
    obtain ⟨o, rfl⟩ := type_object (valid_part h (.head _))
    have hr := hs.readable
    have hk := hs.kept
    have hreq := (valid_part h (.tail _ (.head _)))
    refine object_keeps ?_
    refine bind_keeps (req_keeps (g := (Json.ofEnum Classification.display)) (valid_required hreq (by simp)) fun x hx => ?_) fun _ f0 => ?_
    · have h := valid_property (valid_part (valid_part h (.tail _ (.tail _ (.head _)))) (.tail _ (.head _))) (.head _) hx
      have hkn := hs.known hx
      have hs := hs.down hx
      exact enum_keeps (type_string (valid_part h (.head _))) fun s e => Classification.display_new s
    refine bind_keeps (opt_keeps (g := Json.str) fun x hx => ?_) fun _ f1 => ?_
    · have h := valid_property (valid_part (valid_part h (.tail _ (.tail _ (.head _)))) (.tail _ (.head _))) (.tail _ (.head _)) hx
      have hkn := hs.known hx
      have hs := hs.down hx
      exact string_keeps (type_string (valid_part h (.head _)))
    refine bind_keeps (opt_keeps (g := Json.str) fun x hx => ?_) fun _ f2 => ?_
    · have h := valid_property (valid_part (valid_part h (.tail _ (.tail _ (.head _)))) (.tail _ (.head _))) (.tail _ (.tail _ (.head _))) hx
      have hkn := hs.known hx
      have hs := hs.down hx
      exact string_keeps (type_string (v13s_ref_refType h))
    refine bind_keeps (opt_keeps (g := OrganizationalEntity.toJson) fun x hx => ?_) fun _ f3 => ?_
    · have h := valid_property (valid_part (valid_part h (.tail _ (.tail _ (.head _)))) (.tail _ (.head _))) (.tail _ (.tail _ (.tail _ (.head _)))) hx
      have hkn := hs.known hx
      have hs := hs.down hx
      exact v13k_organizationalEntity_OrganizationalEntity (v13s_ref_organizationalEntity h) hs
    refine bind_keeps (opt_keeps (g := Json.str) fun x hx => ?_) fun _ f4 => ?_
    · have h := valid_property (valid_part (valid_part h (.tail _ (.tail _ (.head _)))) (.tail _ (.head _))) (.tail _ (.tail _ (.tail _ (.tail _ (.head _))))) hx
      have hkn := hs.known hx
      have hs := hs.down hx
      exact string_keeps (type_string h)
    refine bind_keeps (opt_keeps (g := Json.str) fun x hx => ?_) fun _ f5 => ?_
    · have h := valid_property (valid_part (valid_part h (.tail _ (.tail _ (.head _)))) (.tail _ (.head _))) (.tail _ (.tail _ (.tail _ (.tail _ (.tail _ (.head _)))))) hx
      have hkn := hs.known hx
      have hs := hs.down hx
      exact string_keeps (type_string h)
    refine bind_keeps (opt_keeps (g := Json.str) fun x hx => ?_) fun _ f6 => ?_
    · have h := valid_property (valid_part (valid_part h (.tail _ (.tail _ (.head _)))) (.tail _ (.head _))) (.tail _ (.tail _ (.tail _ (.tail _ (.tail _ (.tail _ (.head _))))))) hx
      have hkn := hs.known hx
      have hs := hs.down hx
      exact string_keeps (type_string h)
    refine bind_keeps (req_keeps (g := Json.str) (valid_required hreq (by simp)) fun x hx => ?_) fun _ f7 => ?_
    · have h := valid_property (valid_part (valid_part h (.tail _ (.tail _ (.head _)))) (.tail _ (.head _))) (.tail _ (.tail _ (.tail _ (.tail _ (.tail _ (.tail _ (.tail _ (.head _)))))))) hx
      have hkn := hs.known hx
      have hs := hs.down hx
      exact string_keeps (type_string h)
    refine bind_keeps (some_keeps (g := Json.str) (valid_required hreq (by simp)) fun x hx => ?_) fun _ f8 => ?_
    · have h := valid_property (valid_part (valid_part h (.tail _ (.tail _ (.head _)))) (.tail _ (.head _))) (.tail _ (.tail _ (.tail _ (.tail _ (.tail _ (.tail _ (.tail _ (.tail _ (.head _))))))))) hx
      have hkn := hs.known hx
      have hs := hs.down hx
      exact string_keeps (type_string h)
    refine bind_keeps (opt_keeps (g := Json.str) fun x hx => ?_) fun _ f9 => ?_
    · have h := valid_property (valid_part (valid_part h (.tail _ (.tail _ (.head _)))) (.tail _ (.head _))) (.tail _ (.tail _ (.tail _ (.tail _ (.tail _ (.tail _ (.tail _ (.tail _ (.tail _ (.head _)))))))))) hx
      have hkn := hs.known hx
      have hs := hs.down hx
      exact string_keeps (type_string h)
    refine bind_keeps (opt_keeps (g := (Json.ofEnum Scope.display)) fun x hx => ?_) fun _ f10 => ?_
    · have h := valid_property (valid_part (valid_part h (.tail _ (.tail _ (.head _)))) (.tail _ (.head _))) (.tail _ (.tail _ (.tail _ (.tail _ (.tail _ (.tail _ (.tail _ (.tail _ (.tail _ (.tail _ (.head _))))))))))) hx
      have hkn := hs.known hx
      have hs := hs.down hx
      exact enum_keeps (type_string (valid_part h (.head _))) fun s e => Scope.display_new s
    refine bind_keeps (opt_keeps (g := (Json.ofList Hash.toJson)) fun x hx => ?_) fun _ f11 => ?_
    · have h := valid_property (valid_part (valid_part h (.tail _ (.tail _ (.head _)))) (.tail _ (.head _))) (.tail _ (.tail _ (.tail _ (.tail _ (.tail _ (.tail _ (.tail _ (.tail _ (.tail _ (.tail _ (.tail _ (.head _)))))))))))) hx
      have hkn := hs.known hx
      have hs := hs.down hx
      refine items_keeps (valid_part h (.head _)) (valid_part h (.tail _ (.head _))) hs fun l el y hy h hs => ?_
      exact v13k_hash_Hash (v13s_ref_hash h) hs
    refine bind_keeps (opt_keeps (g := (Licenses.toJson .v1_3)) fun x hx => ?_) fun _ f12 => ?_
    · have h := valid_property (valid_part (valid_part h (.tail _ (.tail _ (.head _)))) (.tail _ (.head _))) (.tail _ (.tail _ (.tail _ (.tail _ (.tail _ (.tail _ (.tail _ (.tail _ (.tail _ (.tail _ (.tail _ (.tail _ (.head _))))))))))))) hx
      have hkn := hs.known hx
      have hs := hs.down hx
      exact items_keeps (valid_part h (.head _)) (valid_part h (.tail _ (.head _))) hs fun l el y hy h hs => v13k_licenseChoice_LicenseChoice (v13s_ref_licenseChoice h) hs
    refine bind_keeps (opt_keeps (g := Json.str) fun x hx => ?_) fun _ f13 => ?_
    · have h := valid_property (valid_part (valid_part h (.tail _ (.tail _ (.head _)))) (.tail _ (.head _))) (.tail _ (.tail _ (.tail _ (.tail _ (.tail _ (.tail _ (.tail _ (.tail _ (.tail _ (.tail _ (.tail _ (.tail _ (.tail _ (.head _)))))))))))))) hx
      have hkn := hs.known hx
      have hs := hs.down hx
      exact string_keeps (type_string h)
    refine bind_keeps (opt_keeps (g := Json.str) fun x hx => ?_) fun _ f14 => ?_
    · have h := valid_property (valid_part (valid_part h (.tail _ (.tail _ (.head _)))) (.tail _ (.head _))) (.tail _ (.tail _ (.tail _ (.tail _ (.tail _ (.tail _ (.tail _ (.tail _ (.tail _ (.tail _ (.tail _ (.tail _ (.tail _ (.tail _ (.head _))))))))))))))) hx
      have hkn := hs.known hx
      have hs := hs.down hx
      exact string_keeps (type_string h)
    refine bind_keeps (opt_keeps (g := Json.str) fun x hx => ?_) fun _ f15 => ?_
    · have h := valid_property (valid_part (valid_part h (.tail _ (.tail _ (.head _)))) (.tail _ (.head _))) (.tail _ (.tail _ (.tail _ (.tail _ (.tail _ (.tail _ (.tail _ (.tail _ (.tail _ (.tail _ (.tail _ (.tail _ (.tail _ (.tail _ (.tail _ (.head _)))))))))))))))) hx
      have hkn := hs.known hx
      have hs := hs.down hx
      exact string_keeps (type_string h)
    refine bind_keeps (opt_keeps (g := Swid.toJson) fun x hx => ?_) fun _ f16 => ?_
    · have h := valid_property (valid_part (valid_part h (.tail _ (.tail _ (.head _)))) (.tail _ (.head _))) (.tail _ (.tail _ (.tail _ (.tail _ (.tail _ (.tail _ (.tail _ (.tail _ (.tail _ (.tail _ (.tail _ (.tail _ (.tail _ (.tail _ (.tail _ (.tail _ (.head _))))))))))))))))) hx
      have hkn := hs.known hx
      have hs := hs.down hx
      exact v13k_swid_Swid (v13s_ref_swid h) hs
    refine bind_keeps (opt_keeps (g := Json.bool) fun x hx => ?_) fun _ f17 => ?_
    · have h := valid_property (valid_part (valid_part h (.tail _ (.tail _ (.head _)))) (.tail _ (.head _))) (.tail _ (.tail _ (.tail _ (.tail _ (.tail _ (.tail _ (.tail _ (.tail _ (.tail _ (.tail _ (.tail _ (.tail _ (.tail _ (.tail _ (.tail _ (.tail _ (.tail _ (.head _)))))))))))))))))) hx
      have hkn := hs.known hx
      have hs := hs.down hx
      exact boolean_keeps h
    refine bind_keeps (opt_keeps (g := (Pedigree.toJson .v1_3)) fun x hx => ?_) fun _ f18 => ?_
    · have h := valid_property (valid_part (valid_part h (.tail _ (.tail _ (.head _)))) (.tail _ (.head _))) (.tail _ (.tail _ (.tail _ (.tail _ (.tail _ (.tail _ (.tail _ (.tail _ (.tail _ (.tail _ (.tail _ (.tail _ (.tail _ (.tail _ (.tail _ (.tail _ (.tail _ (.tail _ (.head _))))))))))))))))))) hx
      have hkn := hs.known hx
      have hs := hs.down hx
      obtain ⟨o, rfl⟩ := type_object (valid_part h (.head _))
      have hr := hs.readable
      have hk := hs.kept
      refine object_keeps ?_
      refine bind_keeps (opt_keeps (g := (Json.ofList (Component.toJson .v1_3))) fun x hx => ?_) fun _ f0 => ?_
      · have h := valid_property (valid_part (valid_part h (.tail _ (.head _))) (.tail _ (.head _))) (.head _) hx
        have hkn := hs.known hx
        have hs := hs.member hx
        refine items_keeps (valid_part h (.head _)) (valid_part h (.tail _ (.head _))) hs fun l el y hy h hs => ?_
        exact ih (v13s_ref_component h) hs
      refine bind_keeps (opt_keeps (g := (Json.ofList (Component.toJson .v1_3))) fun x hx => ?_) fun _ f1 => ?_
      · have h := valid_property (valid_part (valid_part h (.tail _ (.head _))) (.tail _ (.head _))) (.tail _ (.head _)) hx
        have hkn := hs.known hx
        have hs := hs.member hx
        refine items_keeps (valid_part h (.head _)) (valid_part h (.tail _ (.head _))) hs fun l el y hy h hs => ?_
        exact ih (v13s_ref_component h) hs
      refine bind_keeps (opt_keeps (g := (Json.ofList (Component.toJson .v1_3))) fun x hx => ?_) fun _ f2 => ?_
      · have h := valid_property (valid_part (valid_part h (.tail _ (.head _))) (.tail _ (.head _))) (.tail _ (.tail _ (.head _))) hx
        have hkn := hs.known hx
        have hs := hs.member hx
        refine items_keeps (valid_part h (.head _)) (valid_part h (.tail _ (.head _))) hs fun l el y hy h hs => ?_
        exact ih (v13s_ref_component h) hs
      refine bind_keeps (opt_keeps (g := (Json.ofList Commit.toJson)) fun x hx => ?_) fun _ f3 => ?_
      · have h := valid_property (valid_part (valid_part h (.tail _ (.head _))) (.tail _ (.head _))) (.tail _ (.tail _ (.tail _ (.head _)))) hx
        have hkn := hs.known hx
        have hs := hs.member hx
        refine items_keeps (valid_part h (.head _)) (valid_part h (.tail _ (.head _))) hs fun l el y hy h hs => ?_
        exact v13k_commit_Commit (v13s_ref_commit h) hs
      refine bind_keeps (opt_keeps (g := (Json.ofList Patch.toJson)) fun x hx => ?_) fun _ f4 => ?_
      · have h := valid_property (valid_part (valid_part h (.tail _ (.head _))) (.tail _ (.head _))) (.tail _ (.tail _ (.tail _ (.tail _ (.head _))))) hx
        have hkn := hs.known hx
        have hs := hs.member hx
        refine items_keeps (valid_part h (.head _)) (valid_part h (.tail _ (.head _))) hs fun l el y hy h hs => ?_
        exact v13k_patch_Patch (v13s_ref_patch h) hs
      refine bind_keeps (opt_keeps (g := Json.str) fun x hx => ?_) fun _ f5 => ?_
      · have h := valid_property (valid_part (valid_part h (.tail _ (.head _))) (.tail _ (.head _))) (.tail _ (.tail _ (.tail _ (.tail _ (.tail _ (.head _)))))) hx
        have hkn := hs.known hx
        have hs := hs.member hx
        exact string_keeps (type_string h)
      refine ⟨_, rfl, ?_⟩
      rw [Pedigree.toJson_eq]
      exact same_mk hs.nodup (forall_head f0 (forall_head f1 (forall_head f2 (forall_head f3 (forall_head f4 (forall_head f5 nofun)))))) (all_written (ks := ["ancestors", "descendants", "variants", "commits", "patches", "notes"]) (lost := []) (closed_only (valid_part (valid_part h (.tail _ (.head _))) (.head _))) no_members rfl (by decide +kernel))
    refine bind_keeps (opt_keeps (g := (Json.ofList ExternalReference.toJson)) fun x hx => ?_) fun _ f19 => ?_
    · have h := valid_property (valid_part (valid_part h (.tail _ (.tail _ (.head _)))) (.tail _ (.head _))) (.tail _ (.tail _ (.tail _ (.tail _ (.tail _ (.tail _ (.tail _ (.tail _ (.tail _ (.tail _ (.tail _ (.tail _ (.tail _ (.tail _ (.tail _ (.tail _ (.tail _ (.tail _ (.tail _ (.head _)))))))))))))))))))) hx
      have hkn := hs.known hx
      have hs := hs.down hx
      refine items_keeps (valid_part h (.head _)) (valid_part h (.tail _ (.head _))) hs fun l el y hy h hs => ?_
      exact v13k_externalReference_ExternalReference (v13s_ref_externalReference h) hs
    refine bind_keeps (opt_keeps (g := (Json.ofList Property.toJson)) fun x hx => ?_) fun _ f20 => ?_
    · have h := valid_property (valid_part (valid_part h (.tail _ (.tail _ (.head _)))) (.tail _ (.head _))) (.tail _ (.tail _ (.tail _ (.tail _ (.tail _ (.tail _ (.tail _ (.tail _ (.tail _ (.tail _ (.tail _ (.tail _ (.tail _ (.tail _ (.tail _ (.tail _ (.tail _ (.tail _ (.tail _ (.tail _ (.tail _ (.tail _ (.head _))))))))))))))))))))))) hx
      have hkn := hs.known hx
      have hs := hs.down hx
      refine items_keeps (valid_part h (.head _)) (valid_part h (.tail _ (.head _))) hs fun l el y hy h hs => ?_
      exact v13k_property_Property (v13s_ref_property h) hs (hr.named _ (el ▸ hx) _ hy) (fun p e => hk.properties _ _ (el ▸ hx) (by simp) p (e ▸ hy))
    refine bind_keeps (opt_keeps (g := (Json.ofList (Component.toJson .v1_3))) fun x hx => ?_) fun _ f21 => ?_
    · have h := valid_property (valid_part (valid_part h (.tail _ (.tail _ (.head _)))) (.tail _ (.head _))) (.tail _ (.tail _ (.tail _ (.tail _ (.tail _ (.tail _ (.tail _ (.tail _ (.tail _ (.tail _ (.tail _ (.tail _ (.tail _ (.tail _ (.tail _ (.tail _ (.tail _ (.tail _ (.tail _ (.tail _ (.head _))))))))))))))))))))) hx
      have hkn := hs.known hx
      have hs := hs.down hx
      refine items_keeps (valid_part h (.head _)) (valid_part h (.tail _ (.tail _ (.head _)))) hs fun l el y hy h hs => ?_
      exact ih (v13s_ref_component h) hs
    refine bind_keeps (opt_keeps (g := (ComponentEvidence.toJson .v1_3)) fun x hx => ?_) fun _ f22 => ?_
    · have h := valid_property (valid_part (valid_part h (.tail _ (.tail _ (.head _)))) (.tail _ (.head _))) (.tail _ (.tail _ (.tail _ (.tail _ (.tail _ (.tail _ (.tail _ (.tail _ (.tail _ (.tail _ (.tail _ (.tail _ (.tail _ (.tail _ (.tail _ (.tail _ (.tail _ (.tail _ (.tail _ (.tail _ (.tail _ (.head _)))))))))))))))))))))) hx
      have hkn := hs.known hx
      have hs := hs.down hx
      exact v13k_componentEvidence_ComponentEvidence (v13s_ref_componentEvidence h) hs
    refine skip_keeps ?_
    refine skip_keeps ?_
    refine skip_keeps ?_
    refine ⟨_, rfl, ?_⟩
    rw [Component.toJson_eq]
    exact same_mk hs.nodup (forall_head f0 (forall_head f1 (forall_head f2 (forall_head f3 (forall_head f4 (forall_head f5 (forall_head f6 (forall_head f7 (forall_head f8 (forall_head f9 (forall_head f10 (forall_head f11 (forall_head f12 (forall_head f13 (forall_head f14 (forall_head f15 (forall_head f16 (forall_head f17 (forall_head f18 (forall_head f19 (forall_head f20 (forall_head f21 (forall_head f22 nofun))))))))))))))))))))))) (all_written (ks := ["type", "mime-type", "bom-ref", "supplier", "author", "publisher", "group", "name", "version", "description", "scope", "hashes", "licenses", "copyright", "cpe", "purl", "swid", "modified", "pedigree", "externalReferences", "properties", "components", "evidence"]) (lost := []) (closed_only (valid_part (valid_part h (.tail _ (.tail _ (.head _)))) (.head _))) no_members rfl (by decide +kernel))

theorem v13k_component_Component {j : Json} (h : Valid (strictContext F .v1_3) Schema13.component.strict j) (hs : Clean ReadLimit.limit j) :
    Keeps (Component.ofJson .v1_3) (Component.toJson .v1_3) j := v13k_component_Component_n _ h hs

theorem v13k_metadata_Metadata {j : Json} (h : Valid (strictContext F .v1_3) Schema13.metadata.strict j) (hs : Clean ReadLimit.limit j) :
    Keeps (Metadata.ofJson .v1_3) (Metadata.toJson .v1_3) j := by
  obtain ⟨o, rfl⟩ := type_object (valid_part h (.head _))
  have hr := hs.readable
  have hk := hs.kept
  refine object_keeps ?_
  refine bind_keeps (opt_keeps (g := Json.str) fun x hx => ?_) fun _ f0 => ?_
  · have h := valid_property (valid_part (valid_part h (.tail _ (.head _))) (.tail _ (.head _))) (.head _) hx
    have hkn := hs.known hx
    have hs := hs.member hx
    exact string_keeps (type_string (valid_part h (.head _)))
  refine bind_keeps (opt_keeps (g := (Tools.toJson .v1_3)) fun x hx => ?_) fun _ f1 => ?_
  · have h := valid_property (valid_part (valid_part h (.tail _ (.head _))) (.tail _ (.head _))) (.tail _ (.head _)) hx
    have hkn := hs.known hx
    have hs := hs.member hx
    have hl : Keeps (Json.array (Tool.ofJson .v1_3)) (Json.ofList (Tool.toJson .v1_3)) _ := items_keeps (valid_part h (.head _)) (valid_part h (.tail _ (.head _))) hs fun l el y hy h hs => v13k_tool_Tool (v13s_ref_tool h) hs
    obtain ⟨hn, z, hz, hsm⟩ := hl
    exact ⟨hn, .list z, by simp only [Tools.ofJson, hz], hsm⟩
  refine bind_keeps (opt_keeps (g := (Json.ofList OrganizationalContact.toJson)) fun x hx => ?_) fun _ f2 => ?_
  · have h := valid_property (valid_part (valid_part h (.tail _ (.head _))) (.tail _ (.head _))) (.tail _ (.tail _ (.head _))) hx
    have hkn := hs.known hx
    have hs := hs.member hx
    refine items_keeps (valid_part h (.head _)) (valid_part h (.tail _ (.head _))) hs fun l el y hy h hs => ?_
    exact v13k_organizationalContact_OrganizationalContact (v13s_ref_organizationalContact h) hs
  refine bind_keeps (opt_keeps (g := (Component.toJson .v1_3)) fun x hx => ?_) fun _ f3 => ?_
  · have h := valid_property (valid_part (valid_part h (.tail _ (.head _))) (.tail _ (.head _))) (.tail _ (.tail _ (.tail _ (.head _)))) hx
    have hkn := hs.known hx
    have hs := hs.member hx
    exact v13k_component_Component (v13s_ref_component h) hs
  refine bind_keeps (opt_keeps (g := OrganizationalEntity.toJson) fun x hx => ?_) fun _ f4 => ?_
  · have h := valid_property (valid_part (valid_part h (.tail _ (.head _))) (.tail _ (.head _))) (.tail _ (.tail _ (.tail _ (.tail _ (.head _))))) hx
    have hkn := hs.known hx
    have hs := hs.member hx
    exact v13k_organizationalEntity_OrganizationalEntity (v13s_ref_organizationalEntity h) hs
  refine bind_keeps (opt_keeps (g := OrganizationalEntity.toJson) fun x hx => ?_) fun _ f5 => ?_
  · have h := valid_property (valid_part (valid_part h (.tail _ (.head _))) (.tail _ (.head _))) (.tail _ (.tail _ (.tail _ (.tail _ (.tail _ (.head _)))))) hx
    have hkn := hs.known hx
    have hs := hs.member hx
    exact v13k_organizationalEntity_OrganizationalEntity (v13s_ref_organizationalEntity h) hs
  refine bind_keeps (opt_keeps (g := (Licenses.toJson .v1_3)) fun x hx => ?_) fun _ f6 => ?_
  · have h := valid_property (valid_part (valid_part h (.tail _ (.head _))) (.tail _ (.head _))) (.tail _ (.tail _ (.tail _ (.tail _ (.tail _ (.tail _ (.head _))))))) hx
    have hkn := hs.known hx
    have hs := hs.member hx
    exact items_keeps (valid_part h (.head _)) (valid_part h (.tail _ (.head _))) hs fun l el y hy h hs => v13k_licenseChoice_LicenseChoice (v13s_ref_licenseChoice h) hs
  refine bind_keeps (opt_keeps (g := (Json.ofList Property.toJson)) fun x hx => ?_) fun _ f7 => ?_
  · have h := valid_property (valid_part (valid_part h (.tail _ (.head _))) (.tail _ (.head _))) (.tail _ (.tail _ (.tail _ (.tail _ (.tail _ (.tail _ (.tail _ (.head _)))))))) hx
    have hkn := hs.known hx
    have hs := hs.member hx
    refine items_keeps (valid_part h (.head _)) (valid_part h (.tail _ (.head _))) hs fun l el y hy h hs => ?_
    exact v13k_property_Property (v13s_ref_property h) hs (hr.named _ (el ▸ hx) _ hy) (fun p e => hk.properties _ _ (el ▸ hx) (by simp) p (e ▸ hy))
  refine skip_keeps ?_
  exact ⟨_, rfl, same_mk hs.nodup (forall_head f0 (forall_head f1 (forall_head f2 (forall_head f3 (forall_head f4 (forall_head f5 (forall_head f6 (forall_head f7 nofun)))))))) (all_written (ks := ["timestamp", "tools", "authors", "component", "manufacture", "supplier", "licenses", "properties"]) (lost := []) (closed_only (valid_part (valid_part h (.tail _ (.head _))) (.head _))) no_members rfl (by decide +kernel))⟩

theorem v13k_dataClassification_DataClassification {n : Nat} {j : Json} (h : Valid (strictContext F .v1_3) Schema13.dataClassification.strict j) (hs : Clean n j)
    (hc : ∀ p, j = .obj p → OnlyHas ["flow", "classification"] p) :
    Keeps (DataClassification.ofJson) DataClassification.toJson j := by
  obtain ⟨o, rfl⟩ := type_object (valid_part h (.head _))
  have hcl := hc _ rfl
  have hr := hs.readable
  have hk := hs.kept
  have hreq := (valid_part h (.tail _ (.head _)))
  refine object_keeps ?_
  refine bind_keeps (req_keeps (g := (Json.ofEnum DataFlowType.display)) (valid_required hreq (by simp)) fun x hx => ?_) fun _ f0 => ?_
  · have h := valid_property (valid_part (valid_part h (.tail _ (.tail _ (.head _)))) (.tail _ (.head _))) (.head _) hx
    have hkn := hs.known hx
    have hs := hs.member hx
    exact enum_keeps (type_string (valid_part (v13s_ref_dataFlow h) (.head _))) fun s e => DataFlowType.display_new s
  refine bind_keeps (req_keeps (g := Json.str) (valid_required hreq (by simp)) fun x hx => ?_) fun _ f1 => ?_
  · have h := valid_property (valid_part (valid_part h (.tail _ (.tail _ (.head _)))) (.tail _ (.head _))) (.tail _ (.head _)) hx
    have hkn := hs.known hx
    have hs := hs.member hx
    exact string_keeps (type_string h)
  exact ⟨_, rfl, same_mk hs.nodup (forall_head f0 (forall_head f1 nofun)) (all_written (ks := ["flow", "classification"]) (lost := []) hcl no_members rfl (by decide +kernel))⟩

theorem v13k_service_Service_n (n : Nat) : ∀ {j : Json}, Valid (strictContext F .v1_3) Schema13.service.strict j → Clean n j →
    Keeps (Service.ofJsonN .v1_3 n) (Service.toJson .v1_3) j := by
  induction n with
  | zero =>
    intro j h hs
    obtain ⟨o, rfl⟩ := type_object (valid_part h (.head _))
    cases hs.sane.within
  | succ n ih =>
    intro j h hs
    show Keeps (Service.ofJsonWith (Service.ofJsonN .v1_3 n) .v1_3) (Service.toJson .v1_3) j
    obtain ⟨o, rfl⟩ := type_object (valid_part h (.head _))
    have hr := hs.readable
    have hk := hs.kept
    have hreq := (valid_part h (.tail _ (.head _)))
    refine object_keeps ?_
    refine bind_keeps (opt_keeps (g := Json.str) fun x hx => ?_) fun _ f0 => ?_
    · have h := valid_property (valid_part (valid_part h (.tail _ (.tail _ (.head _)))) (.tail _ (.head _))) (.head _) hx
      have hkn := hs.known hx
      have hs := hs.down hx
      exact string_keeps (type_string (v13s_ref_refType h))
    refine bind_keeps (opt_keeps (g := OrganizationalEntity.toJson) fun x hx => ?_) fun _ f1 => ?_
    · have h := valid_property (valid_part (valid_part h (.tail _ (.tail _ (.head _)))) (.tail _ (.head _))) (.tail _ (.head _)) hx
      have hkn := hs.known hx
      have hs := hs.down hx
      exact v13k_organizationalEntity_OrganizationalEntity (v13s_ref_organizationalEntity h) hs
    refine bind_keeps (opt_keeps (g := Json.str) fun x hx => ?_) fun _ f2 => ?_
    · have h := valid_property (valid_part (valid_part h (.tail _ (.tail _ (.head _)))) (.tail _ (.head _))) (.tail _ (.tail _ (.head _))) hx
      have hkn := hs.known hx
      have hs := hs.down hx
      exact string_keeps (type_string h)
    refine bind_keeps (req_keeps (g := Json.str) (valid_required hreq (by simp)) fun x hx => ?_) fun _ f3 => ?_
    · have h := valid_property (valid_part (valid_part h (.tail _ (.tail _ (.head _)))) (.tail _ (.head _))) (.tail _ (.tail _ (.tail _ (.head _)))) hx
      have hkn := hs.known hx
      have hs := hs.down hx
      exact string_keeps (type_string h)
    refine bind_keeps (opt_keeps (g := Json.str) fun x hx => ?_) fun _ f4 => ?_
    · have h := valid_property (valid_part (valid_part h (.tail _ (.tail _ (.head _)))) (.tail _ (.head _))) (.tail _ (.tail _ (.tail _ (.tail _ (.head _))))) hx
      have hkn := hs.known hx
      have hs := hs.down hx
      exact string_keeps (type_string h)
    refine bind_keeps (opt_keeps (g := Json.str) fun x hx => ?_) fun _ f5 => ?_
    · have h := valid_property (valid_part (valid_part h (.tail _ (.tail _ (.head _)))) (.tail _ (.head _))) (.tail _ (.tail _ (.tail _ (.tail _ (.tail _ (.head _)))))) hx
      have hkn := hs.known hx
      have hs := hs.down hx
      exact string_keeps (type_string h)
    refine bind_keeps (opt_keeps (g := (Json.ofList Json.str)) fun x hx => ?_) fun _ f6 => ?_
    · have h := valid_property (valid_part (valid_part h (.tail _ (.tail _ (.head _)))) (.tail _ (.head _))) (.tail _ (.tail _ (.tail _ (.tail _ (.tail _ (.tail _ (.head _))))))) hx
      have hkn := hs.known hx
      have hs := hs.down hx
      refine items_keeps (valid_part h (.head _)) (valid_part h (.tail _ (.head _))) hs fun l el y hy h hs => ?_
      exact string_keeps (type_string (valid_part h (.head _)))
    refine bind_keeps (opt_keeps (g := Json.bool) fun x hx => ?_) fun _ f7 => ?_
    · have h := valid_property (valid_part (valid_part h (.tail _ (.tail _ (.head _)))) (.tail _ (.head _))) (.tail _ (.tail _ (.tail _ (.tail _ (.tail _ (.tail _ (.tail _ (.head _)))))))) hx
      have hkn := hs.known hx
      have hs := hs.down hx
      exact boolean_keeps h
    refine bind_keeps (opt_keeps (g := Json.bool) fun x hx => ?_) fun _ f8 => ?_
    · have h := valid_property (valid_part (valid_part h (.tail _ (.tail _ (.head _)))) (.tail _ (.head _))) (.tail _ (.tail _ (.tail _ (.tail _ (.tail _ (.tail _ (.tail _ (.tail _ (.head _))))))))) hx
      have hkn := hs.known hx
      have hs := hs.down hx
      exact boolean_keeps h
    refine bind_keeps (opt_keeps (g := (ServiceDataChoice.toJson .v1_3)) fun x hx => ?_) fun _ f9 => ?_
    · have h := valid_property (valid_part (valid_part h (.tail _ (.tail _ (.head _)))) (.tail _ (.head _))) (.tail _ (.tail _ (.tail _ (.tail _ (.tail _ (.tail _ (.tail _ (.tail _ (.tail _ (.head _)))))))))) hx
      have hkn := hs.known hx
      have hs := hs.down hx
      have hl : Keeps (Json.array DataClassification.ofJson) (Json.ofList DataClassification.toJson) _ := items_keeps (valid_part h (.head _)) (valid_part h (.tail _ (.head _))) hs fun l el y hy h hs => v13k_dataClassification_DataClassification (v13s_ref_dataClassification h) hs fun p e => hk.data _ (el ▸ hx) p (e ▸ hy)
      obtain ⟨hn, z, hz, hsm⟩ := hl
      exact ⟨hn, .classification z, by simp only [ServiceDataChoice.ofJson, hz], hsm⟩
    refine bind_keeps (opt_keeps (g := (Licenses.toJson .v1_3)) fun x hx => ?_) fun _ f10 => ?_
    · have h := valid_property (valid_part (valid_part h (.tail _ (.tail _ (.head _)))) (.tail _ (.head _))) (.tail _ (.tail _ (.tail _ (.tail _ (.tail _ (.tail _ (.tail _ (.tail _ (.tail _ (.tail _ (.head _))))))))))) hx
      have hkn := hs.known hx
      have hs := hs.down hx
      exact items_keeps (valid_part h (.head _)) (valid_part h (.tail _ (.head _))) hs fun l el y hy h hs => v13k_licenseChoice_LicenseChoice (v13s_ref_licenseChoice h) hs
    refine bind_keeps (opt_keeps (g := (Json.ofList ExternalReference.toJson)) fun x hx => ?_) fun _ f11 => ?_
    · have h := valid_property (valid_part (valid_part h (.tail _ (.tail _ (.head _)))) (.tail _ (.head _))) (.tail _ (.tail _ (.tail _ (.tail _ (.tail _ (.tail _ (.tail _ (.tail _ (.tail _ (.tail _ (.tail _ (.head _)))))))))))) hx
      have hkn := hs.known hx
      have hs := hs.down hx
      refine items_keeps (valid_part h (.head _)) (valid_part h (.tail _ (.head _))) hs fun l el y hy h hs => ?_
      exact v13k_externalReference_ExternalReference (v13s_ref_externalReference h) hs
    refine bind_keeps (opt_keeps (g := (Json.ofList Property.toJson)) fun x hx => ?_) fun _ f12 => ?_
    · have h := valid_property (valid_part (valid_part h (.tail _ (.tail _ (.head _)))) (.tail _ (.head _))) (.tail _ (.tail _ (.tail _ (.tail _ (.tail _ (.tail _ (.tail _ (.tail _ (.tail _ (.tail _ (.tail _ (.tail _ (.tail _ (.head _)))))))))))))) hx
      have hkn := hs.known hx
      have hs := hs.down hx
      refine items_keeps (valid_part h (.head _)) (valid_part h (.tail _ (.head _))) hs fun l el y hy h hs => ?_
      exact v13k_property_Property (v13s_ref_property h) hs (hr.named _ (el ▸ hx) _ hy) (fun p e => hk.properties _ _ (el ▸ hx) (by simp) p (e ▸ hy))
    refine bind_keeps (opt_keeps (g := (Json.ofList (Service.toJson .v1_3))) fun x hx => ?_) fun _ f13 => ?_
    · have h := valid_property (valid_part (valid_part h (.tail _ (.tail _ (.head _)))) (.tail _ (.head _))) (.tail _ (.tail _ (.tail _ (.tail _ (.tail _ (.tail _ (.tail _ (.tail _ (.tail _ (.tail _ (.tail _ (.tail _ (.head _))))))))))))) hx
      have hkn := hs.known hx
      have hs := hs.down hx
      refine items_keeps (valid_part h (.head _)) (valid_part h (.tail _ (.tail _ (.head _)))) hs fun l el y hy h hs => ?_
      exact ih (v13s_ref_service h) hs
    refine skip_keeps ?_
    refine skip_keeps ?_
    refine ⟨_, rfl, ?_⟩
    rw [Service.toJson_eq]
    exact same_mk hs.nodup (forall_head f0 (forall_head f1 (forall_head f2 (forall_head f3 (forall_head f4 (forall_head f5 (forall_head f6 (forall_head f7 (forall_head f8 (forall_head f9 (forall_head f10 (forall_head f11 (forall_head f12 (forall_head f13 nofun)))))))))))))) (all_written (ks := ["bom-ref", "provider", "group", "name", "version", "description", "endpoints", "authenticated", "x-trust-boundary", "data", "licenses", "externalReferences", "properties", "services"]) (lost := []) (closed_only (valid_part (valid_part h (.tail _ (.tail _ (.head _)))) (.head _))) no_members rfl (by decide +kernel))

theorem v13k_service_Service {j : Json} (h : Valid (strictContext F .v1_3) Schema13.service.strict j) (hs : Clean ReadLimit.limit j) :
    Keeps (Service.ofJson .v1_3) (Service.toJson .v1_3) j := v13k_service_Service_n _ h hs

theorem v13k_dependency_Dependency {n : Nat} {j : Json} (h : Valid (strictContext F .v1_3) Schema13.dependency.strict j) (hs : Clean n j) :
    Keeps (Dependency.ofJson) Dependency.toJson j := by
  obtain ⟨o, rfl⟩ := type_object (valid_part h (.head _))
  have hr := hs.readable
  have hk := hs.kept
  have hreq := (valid_part h (.tail _ (.head _)))
  refine object_keeps ?_
  refine bind_keeps (req_keeps (g := Json.str) (valid_required hreq (by simp)) fun x hx => ?_) fun _ f0 => ?_
  · have h := valid_property (valid_part (valid_part h (.tail _ (.tail _ (.head _)))) (.tail _ (.head _))) (.head _) hx
    have hkn := hs.known hx
    have hs := hs.member hx
    exact string_keeps (type_string (v13s_ref_refType h))
  refine bind_keeps (orEmpty_keeps (g := Json.str) hk.dependsOn fun x hx => ?_) fun _ f1 => ?_
  · have h := valid_property (valid_part (valid_part h (.tail _ (.tail _ (.head _)))) (.tail _ (.head _))) (.tail _ (.head _)) hx
    have hkn := hs.known hx
    have hs := hs.member hx
    refine items_keeps (valid_part h (.head _)) (valid_part h (.tail _ (.tail _ (.head _)))) hs fun l el y hy h hs => ?_
    exact string_keeps (type_string (v13s_ref_refType h))
  exact ⟨_, rfl, same_mk hs.nodup (forall_head f0 (forall_head f1 nofun)) (all_written (ks := ["ref", "dependsOn"]) (lost := []) (closed_only (valid_part (valid_part h (.tail _ (.tail _ (.head _)))) (.head _))) no_members rfl (by decide +kernel))⟩

theorem v13k_compositions_Composition {n : Nat} {j : Json} (h : Valid (strictContext F .v1_3) Schema13.compositions.strict j) (hs : Clean n j) :
    Keeps (Composition.ofJson .v1_3) (Composition.toJson .v1_3) j := by
  obtain ⟨o, rfl⟩ := type_object (valid_part h (.head _))
  have hr := hs.readable
  have hk := hs.kept
  have hreq := (valid_part h (.tail _ (.head _)))
  refine object_keeps ?_
  refine skip_keeps ?_
  refine bind_keeps (req_keeps (g := (Json.ofEnum AggregateType.display)) (valid_required hreq (by simp)) fun x hx => ?_) fun _ f0 => ?_
  · have h := valid_property (valid_part (valid_part h (.tail _ (.tail _ (.head _)))) (.tail _ (.head _))) (.head _) hx
    have hkn := hs.known hx
    have hs := hs.member hx
    exact enum_keeps (type_string (valid_part (v13s_ref_aggregateType h) (.head _))) fun s e => AggregateType.display_new fun e' => hkn.aggregate rfl (e' ▸ e)
  refine bind_keeps (opt_keeps (g := (Json.ofList Json.str)) fun x hx => ?_) fun _ f1 => ?_
  · have h := valid_property (valid_part (valid_part h (.tail _ (.tail _ (.head _)))) (.tail _ (.head _))) (.tail _ (.head _)) hx
    have hkn := hs.known hx
    have hs := hs.member hx
    refine items_keeps (valid_part h (.head _)) (valid_part h (.tail _ (.tail _ (.head _)))) hs fun l el y hy h hs => ?_
    exact string_keeps (type_string h)
  refine bind_keeps (opt_keeps (g := (Json.ofList Json.str)) fun x hx => ?_) fun _ f2 => ?_
  · have h := valid_property (valid_part (valid_part h (.tail _ (.tail _ (.head _)))) (.tail _ (.head _))) (.tail _ (.tail _ (.head _))) hx
    have hkn := hs.known hx
    have hs := hs.member hx
    refine items_keeps (valid_part h (.head _)) (valid_part h (.tail _ (.tail _ (.head _)))) hs fun l el y hy h hs => ?_
    exact string_keeps (type_string h)
  refine skip_keeps ?_
  refine skip_keeps ?_
  exact ⟨_, rfl, same_mk hs.nodup (forall_head f0 (forall_head f1 (forall_head f2 nofun))) (all_written (ks := ["aggregate", "assemblies", "dependencies"]) (lost := []) (closed_only (valid_part (valid_part h (.tail _ (.tail _ (.head _)))) (.head _))) no_members rfl (by decide +kernel))⟩

theorem v13k_root_Bom {j : Json} (h : Valid (strictContext F .v1_3) Schema13.root.strict j) (hs : Clean ReadLimit.limit j)
    (hspec : ∀ o, j = .obj o → ∀ x, ("specVersion", x) ∈ o → x = .str (SpecVersion.display .v1_3)) :
    Keeps (Bom.ofJson .v1_3) (Bom.toJson .v1_3) j := by
  obtain ⟨o, rfl⟩ := type_object (valid_part h (.head _))
  have hr := hs.readable
  have hk := hs.kept
  have hreq := (valid_part h (.tail _ (.head _)))
  refine object_keeps ?_
  refine bind_keeps (req_keeps (g := (fun _ => Json.str "CycloneDX")) (valid_required hreq (by simp)) fun x hx => ?_) fun _ f0 => ?_
  · have h := valid_property (valid_part (valid_part h (.tail _ (.tail _ (.head _)))) (.tail _ (.head _))) (.head _) hx
    have hkn := hs.known hx
    have hs := hs.member hx
    obtain ⟨s, hm, rfl⟩ := valid_kw.mp (valid_part h (.tail _ (.head _)))
    simp only [List.mem_cons, List.not_mem_nil, or_false] at hm
    subst hm
    exact ⟨nofun, (), rfl, .str _⟩
  refine bind_keeps (req_keeps (g := (fun _ => Json.str (SpecVersion.display .v1_3))) (valid_required hreq (by simp)) fun x hx => ?_) fun _ f1 => ?_
  · rw [hspec _ rfl _ hx]
    exact ⟨nofun, .v1_3, rfl, .str _⟩
  refine bind_keeps (req_keeps (g := Json.nat) (valid_required hreq (by simp)) fun x hx => ?_) fun _ f2 => ?_
  · have h := valid_property (valid_part (valid_part h (.tail _ (.tail _ (.head _)))) (.tail _ (.head _))) (.tail _ (.tail _ (.tail _ (.head _)))) hx
    have hkn := hs.known hx
    have hs := hs.member hx
    exact u32_keeps (hr.small _ _ hx (by simp) (integer_number h))
  refine bind_keeps (opt_keeps (g := Json.str) fun x hx => ?_) fun _ f3 => ?_
  · have h := valid_property (valid_part (valid_part h (.tail _ (.tail _ (.head _)))) (.tail _ (.head _))) (.tail _ (.tail _ (.head _))) hx
    have hkn := hs.known hx
    have hs := hs.member hx
    exact string_keeps (type_string (valid_part h (.head _)))
  refine bind_keeps (opt_keeps (g := (Metadata.toJson .v1_3)) fun x hx => ?_) fun _ f4 => ?_
  · have h := valid_property (valid_part (valid_part h (.tail _ (.tail _ (.head _)))) (.tail _ (.head _))) (.tail _ (.tail _ (.tail _ (.tail _ (.head _))))) hx
    have hkn := hs.known hx
    have hs := hs.member hx
    exact v13k_metadata_Metadata (v13s_ref_metadata h) hs
  refine bind_keeps (opt_keeps (g := (Json.ofList (Component.toJson .v1_3))) fun x hx => ?_) fun _ f5 => ?_
  · have h := valid_property (valid_part (valid_part h (.tail _ (.tail _ (.head _)))) (.tail _ (.head _))) (.tail _ (.tail _ (.tail _ (.tail _ (.tail _ (.head _)))))) hx
    have hkn := hs.known hx
    have hs := hs.member hx
    refine items_keeps (valid_part h (.head _)) (valid_part h (.tail _ (.tail _ (.head _)))) hs fun l el y hy h hs => ?_
    exact v13k_component_Component (v13s_ref_component h) hs
  refine bind_keeps (opt_keeps (g := (Json.ofList (Service.toJson .v1_3))) fun x hx => ?_) fun _ f6 => ?_
  · have h := valid_property (valid_part (valid_part h (.tail _ (.tail _ (.head _)))) (.tail _ (.head _))) (.tail _ (.tail _ (.tail _ (.tail _ (.tail _ (.tail _ (.head _))))))) hx
    have hkn := hs.known hx
    have hs := hs.member hx
    refine items_keeps (valid_part h (.head _)) (valid_part h (.tail _ (.tail _ (.head _)))) hs fun l el y hy h hs => ?_
    exact v13k_service_Service (v13s_ref_service h) hs
  refine bind_keeps (opt_keeps (g := (Json.ofList ExternalReference.toJson)) fun x hx => ?_) fun _ f7 => ?_
  · have h := valid_property (valid_part (valid_part h (.tail _ (.tail _ (.head _)))) (.tail _ (.head _))) (.tail _ (.tail _ (.tail _ (.tail _ (.tail _ (.tail _ (.tail _ (.head _)))))))) hx
    have hkn := hs.known hx
    have hs := hs.member hx
    refine items_keeps (valid_part h (.head _)) (valid_part h (.tail _ (.head _))) hs fun l el y hy h hs => ?_
    exact v13k_externalReference_ExternalReference (v13s_ref_externalReference h) hs
  refine bind_keeps (opt_keeps (g := (Json.ofList Dependency.toJson)) fun x hx => ?_) fun _ f8 => ?_
  · have h := valid_property (valid_part (valid_part h (.tail _ (.tail _ (.head _)))) (.tail _ (.head _))) (.tail _ (.tail _ (.tail _ (.tail _ (.tail _ (.tail _ (.tail _ (.tail _ (.head _))))))))) hx
    have hkn := hs.known hx
    have hs := hs.member hx
    refine items_keeps (valid_part h (.head _)) (valid_part h (.tail _ (.tail _ (.head _)))) hs fun l el y hy h hs => ?_
    exact v13k_dependency_Dependency (v13s_ref_dependency h) hs
  refine bind_keeps (opt_keeps (g := (Json.ofList (Composition.toJson .v1_3))) fun x hx => ?_) fun _ f9 => ?_
  · have h := valid_property (valid_part (valid_part h (.tail _ (.tail _ (.head _)))) (.tail _ (.head _))) (.tail _ (.tail _ (.tail _ (.tail _ (.tail _ (.tail _ (.tail _ (.tail _ (.tail _ (.head _)))))))))) hx
    have hkn := hs.known hx
    have hs := hs.member hx
    refine items_keeps (valid_part h (.head _)) (valid_part h (.tail _ (.tail _ (.head _)))) hs fun l el y hy h hs => ?_
    exact v13k_compositions_Composition (v13s_ref_compositions h) hs
  refine skip_keeps ?_
  refine skip_keeps ?_
  refine skip_keeps ?_
  refine skip_keeps ?_
  refine skip_keeps ?_
  exact ⟨_, rfl, same_mk hs.nodup (forall_head f0 (forall_head f1 (forall_head f2 (forall_head f3 (forall_head f4 (forall_head f5 (forall_head f6 (forall_head f7 (forall_head f8 (forall_head f9 nofun)))))))))) (all_written (ks := ["bomFormat", "specVersion", "version", "serialNumber", "metadata", "components", "services", "externalReferences", "dependencies", "compositions"]) (lost := []) (closed_only (valid_part (valid_part h (.tail _ (.tail _ (.head _)))) (.head _))) no_members rfl (by decide +kernel))⟩

end Cdx
