import Verif.Lemmas.Lossless
import Verif.Lemmas.Reads.V1_5

/-!
# Lemmas: what the schema of CycloneDX 1.5 accepts is kept

One theorem for each definition of the schema and each reader that meets it.
-/

namespace Cdx

open Spec

set_option linter.unusedVariables false
set_option linter.unusedSectionVars false
set_option linter.unusedSimpArgs false

variable [F32Format] [ReadLimit] {F : Formats}

theorem governance_keeps_v15 {n : Nat} {o : List (String × Json)} (h : Valid (schemaContext F .v1_5) Schema15.dataGovernance (.obj o))
    (hs : Clean n (.obj o)) (hg : ∀ k ∈ ["custodians", "stewards", "owners"], ∀ l, (k, .arr l) ∈ o → l = []) :
    Keeps DataGovernance.ofJson DataGovernance.toJson (.obj o) := by
  refine object_keeps ?_
  refine bind_keeps (opt_keeps (g := (Json.ofList DataGovernanceResponsibleParty.toJson)) fun x hx => ?_) fun _ f0 => ?_
  · have h := valid_property (valid_part h (.tail _ (.tail _ (.head _)))) (.head _) hx
    obtain ⟨l, rfl⟩ := type_array (valid_part h (.head _))
    obtain rfl := hg _ (by simp) l hx
    exact array_keeps nofun
  refine bind_keeps (opt_keeps (g := (Json.ofList DataGovernanceResponsibleParty.toJson)) fun x hx => ?_) fun _ f1 => ?_
  · have h := valid_property (valid_part h (.tail _ (.tail _ (.head _)))) (.tail _ (.head _)) hx
    obtain ⟨l, rfl⟩ := type_array (valid_part h (.head _))
    obtain rfl := hg _ (by simp) l hx
    exact array_keeps nofun
  refine bind_keeps (opt_keeps (g := (Json.ofList DataGovernanceResponsibleParty.toJson)) fun x hx => ?_) fun _ f2 => ?_
  · have h := valid_property (valid_part h (.tail _ (.tail _ (.head _)))) (.tail _ (.tail _ (.head _))) hx
    obtain ⟨l, rfl⟩ := type_array (valid_part h (.head _))
    obtain rfl := hg _ (by simp) l hx
    exact array_keeps nofun
  exact ⟨_, rfl, same_mk hs.nodup (forall_head f0 (forall_head f1 (forall_head f2 nofun))) (all_written (ks := ["custodians", "stewards", "owners"]) (closed_only (valid_part h (.tail _ (.head _)))) no_members rfl (by decide +kernel))⟩

theorem v15k_hash_Hash {n : Nat} {j : Json} (h : Valid (schemaContext F .v1_5) Schema15.hash j) (hs : Clean n j) :
    Keeps (Hash.ofJson) Hash.toJson j := by
  obtain ⟨o, rfl⟩ := type_object (valid_part h (.head _))
  have hr := hs.readable
  have hk := hs.kept
  have hreq := (valid_part h (.tail _ (.head _)))
  refine object_keeps ?_
  refine bind_keeps (req_keeps (g := (Json.ofEnum HashAlgorithm.display)) (valid_required hreq (by simp)) fun x hx => ?_) fun _ f0 => ?_
  · have h := valid_property (valid_part h (.tail _ (.tail _ (.tail _ (.head _))))) (.head _) hx
    have hkn := hs.known hx
    have hs := hs.member hx
    exact enum_keeps (type_string (valid_part (v15_ref_hash_alg h) (.head _))) fun s e => HashAlgorithm.display_new s
  refine bind_keeps (req_keeps (g := Json.str) (valid_required hreq (by simp)) fun x hx => ?_) fun _ f1 => ?_
  · have h := valid_property (valid_part h (.tail _ (.tail _ (.tail _ (.head _))))) (.tail _ (.head _)) hx
    have hkn := hs.known hx
    have hs := hs.member hx
    exact string_keeps (type_string (valid_part (v15_ref_hash_content h) (.head _)))
  exact ⟨_, rfl, same_mk hs.nodup (forall_head f0 (forall_head f1 nofun)) (all_written (ks := ["alg", "content"]) (lost := []) (closed_only (valid_part h (.tail _ (.tail _ (.head _))))) no_members rfl (by decide +kernel))⟩

theorem v15k_externalReference_ExternalReference {n : Nat} {j : Json} (h : Valid (schemaContext F .v1_5) Schema15.externalReference j) (hs : Clean n j) :
    Keeps (ExternalReference.ofJson) ExternalReference.toJson j := by
  obtain ⟨o, rfl⟩ := type_object (valid_part h (.head _))
  have hr := hs.readable
  have hk := hs.kept
  have hreq := (valid_part h (.tail _ (.head _)))
  refine object_keeps ?_
  refine bind_keeps (req_keeps (g := (Json.ofEnum ExternalReferenceType.display)) (valid_required hreq (by simp)) fun x hx => ?_) fun _ f0 => ?_
  · have h := valid_property (valid_part h (.tail _ (.tail _ (.tail _ (.head _))))) (.tail _ (.tail _ (.head _))) hx
    have hkn := hs.known hx
    have hs := hs.member hx
    exact enum_keeps (type_string (valid_part h (.head _))) fun s e => ExternalReferenceType.display_new fun e' => hkn.type rfl (e' ▸ e)
  refine bind_keeps (req_keeps (g := (Json.ofEnum RefUri.display)) (valid_required hreq (by simp)) fun x hx => ?_) fun _ f1 => ?_
  · have h := valid_property (valid_part h (.tail _ (.tail _ (.tail _ (.head _))))) (.head _) hx
    have hkn := hs.known hx
    have hs := hs.member hx
    exact enum_keeps ((anyOf_two h).elim (fun h => (type_string (valid_part h (.head _)))) (fun h => ((anyOf_two (v15_ref_bomLink h)).elim (fun h => (type_string (valid_part (v15_ref_bomLinkDocumentType h) (.head _)))) (fun h => (type_string (valid_part (v15_ref_bomLinkElementType h) (.head _))))))) fun s e => RefUri.display_ofUrl s
  refine bind_keeps (opt_keeps (g := Json.str) fun x hx => ?_) fun _ f2 => ?_
  · have h := valid_property (valid_part h (.tail _ (.tail _ (.tail _ (.head _))))) (.tail _ (.head _)) hx
    have hkn := hs.known hx
    have hs := hs.member hx
    exact string_keeps (type_string h)
  refine bind_keeps (opt_keeps (g := (Json.ofList Hash.toJson)) fun x hx => ?_) fun _ f3 => ?_
  · have h := valid_property (valid_part h (.tail _ (.tail _ (.tail _ (.head _))))) (.tail _ (.tail _ (.tail _ (.head _)))) hx
    have hkn := hs.known hx
    have hs := hs.member hx
    refine items_keeps (valid_part h (.head _)) (valid_part h (.tail _ (.head _))) hs fun l el y hy h hs => ?_
    exact v15k_hash_Hash (v15_ref_hash h) hs
  exact ⟨_, rfl, same_mk hs.nodup (forall_head f0 (forall_head f1 (forall_head f2 (forall_head f3 nofun)))) (all_written (ks := ["type", "url", "comment", "hashes"]) (lost := []) (closed_only (valid_part h (.tail _ (.tail _ (.head _))))) no_members rfl (by decide +kernel))⟩

theorem v15k_tool_Tool {n : Nat} {j : Json} (h : Valid (schemaContext F .v1_5) Schema15.tool j) (hs : Clean n j) :
    Keeps (Tool.ofJson .v1_5) (Tool.toJson .v1_5) j := by
  obtain ⟨o, rfl⟩ := type_object (valid_part h (.head _))
  have hr := hs.readable
  have hk := hs.kept
  refine object_keeps ?_
  refine bind_keeps (opt_keeps (g := Json.str) fun x hx => ?_) fun _ f0 => ?_
  · have h := valid_property (valid_part h (.tail _ (.tail _ (.head _)))) (.head _) hx
    have hkn := hs.known hx
    have hs := hs.member hx
    exact string_keeps (type_string h)
  refine bind_keeps (opt_keeps (g := Json.str) fun x hx => ?_) fun _ f1 => ?_
  · have h := valid_property (valid_part h (.tail _ (.tail _ (.head _)))) (.tail _ (.head _)) hx
    have hkn := hs.known hx
    have hs := hs.member hx
    exact string_keeps (type_string h)
  refine bind_keeps (opt_keeps (g := Json.str) fun x hx => ?_) fun _ f2 => ?_
  · have h := valid_property (valid_part h (.tail _ (.tail _ (.head _)))) (.tail _ (.tail _ (.head _))) hx
    have hkn := hs.known hx
    have hs := hs.member hx
    exact string_keeps (type_string h)
  refine bind_keeps (opt_keeps (g := (Json.ofList Hash.toJson)) fun x hx => ?_) fun _ f3 => ?_
  · have h := valid_property (valid_part h (.tail _ (.tail _ (.head _)))) (.tail _ (.tail _ (.tail _ (.head _)))) hx
    have hkn := hs.known hx
    have hs := hs.member hx
    refine items_keeps (valid_part h (.head _)) (valid_part h (.tail _ (.head _))) hs fun l el y hy h hs => ?_
    exact v15k_hash_Hash (v15_ref_hash h) hs
  refine bind_keeps (opt_keeps (g := (Json.ofList ExternalReference.toJson)) fun x hx => ?_) fun _ f4 => ?_
  · have h := valid_property (valid_part h (.tail _ (.tail _ (.head _)))) (.tail _ (.tail _ (.tail _ (.tail _ (.head _))))) hx
    have hkn := hs.known hx
    have hs := hs.member hx
    refine items_keeps (valid_part h (.head _)) (valid_part h (.tail _ (.head _))) hs fun l el y hy h hs => ?_
    exact v15k_externalReference_ExternalReference (v15_ref_externalReference h) hs
  exact ⟨_, rfl, same_mk hs.nodup (forall_head f0 (forall_head f1 (forall_head f2 (forall_head f3 (forall_head f4 nofun))))) (all_written (ks := ["vendor", "name", "version", "hashes", "externalReferences"]) (lost := []) (closed_only (valid_part h (.tail _ (.head _)))) no_members rfl (by decide +kernel))⟩

theorem v15k_organizationalContact_OrganizationalContact {n : Nat} {j : Json} (h : Valid (schemaContext F .v1_5) Schema15.organizationalContact j) (hs : Clean n j)
    (hb : ¬ Has "bom-ref" j) :
    Keeps (OrganizationalContact.ofJson) OrganizationalContact.toJson j := by
  obtain ⟨o, rfl⟩ := type_object (valid_part h (.head _))
  have hr := hs.readable
  have hk := hs.kept
  refine object_keeps ?_
  refine bind_keeps (opt_keeps (g := Json.str) fun x hx => ?_) fun _ f0 => ?_
  · have := valid_closed (valid_part h (.tail _ (.head _))) hx
    simp at this
  refine bind_keeps (opt_keeps (g := Json.str) fun x hx => ?_) fun _ f1 => ?_
  · have h := valid_property (valid_part h (.tail _ (.tail _ (.head _)))) (.tail _ (.head _)) hx
    have hkn := hs.known hx
    have hs := hs.member hx
    exact string_keeps (type_string h)
  refine bind_keeps (opt_keeps (g := Json.str) fun x hx => ?_) fun _ f2 => ?_
  · have h := valid_property (valid_part h (.tail _ (.tail _ (.head _)))) (.tail _ (.tail _ (.head _))) hx
    have hkn := hs.known hx
    have hs := hs.member hx
    exact string_keeps (type_string (valid_part h (.head _)))
  refine bind_keeps (opt_keeps (g := Json.str) fun x hx => ?_) fun _ f3 => ?_
  · have h := valid_property (valid_part h (.tail _ (.tail _ (.head _)))) (.tail _ (.tail _ (.tail _ (.head _)))) hx
    have hkn := hs.known hx
    have hs := hs.member hx
    exact string_keeps (type_string h)
  exact ⟨_, rfl, same_mk hs.nodup (forall_head f0 (forall_head f1 (forall_head f2 (forall_head f3 nofun)))) (all_written (ks := ["bomRef", "name", "email", "phone"]) (lost := ["bom-ref"]) (closed_only (valid_part h (.tail _ (.head _)))) (no_member (not_has hb) no_members) rfl (by decide +kernel))⟩

theorem v15k_organizationalEntity_OrganizationalEntity {n : Nat} {j : Json} (h : Valid (schemaContext F .v1_5) Schema15.organizationalEntity j) (hs : Clean n j)
    (hb : ¬ Has "bom-ref" j) :
    Keeps (OrganizationalEntity.ofJson) OrganizationalEntity.toJson j := by
  obtain ⟨o, rfl⟩ := type_object (valid_part h (.head _))
  have hr := hs.readable
  have hk := hs.kept
  refine object_keeps ?_
  refine bind_keeps (opt_keeps (g := Json.str) fun x hx => ?_) fun _ f0 => ?_
  · have := valid_closed (valid_part h (.tail _ (.head _))) hx
    simp at this
  refine bind_keeps (opt_keeps (g := Json.str) fun x hx => ?_) fun _ f1 => ?_
  · have h := valid_property (valid_part h (.tail _ (.tail _ (.head _)))) (.tail _ (.head _)) hx
    have hkn := hs.known hx
    have hs := hs.member hx
    exact string_keeps (type_string h)
  refine bind_keeps (opt_keeps (g := (Json.ofList Json.str)) fun x hx => ?_) fun _ f2 => ?_
  · have h := valid_property (valid_part h (.tail _ (.tail _ (.head _)))) (.tail _ (.tail _ (.head _))) hx
    have hkn := hs.known hx
    have hs := hs.member hx
    refine items_keeps (valid_part h (.head _)) (valid_part h (.tail _ (.head _))) hs fun l el y hy h hs => ?_
    exact string_keeps (type_string (valid_part h (.head _)))
  refine bind_keeps (opt_keeps (g := (Json.ofList OrganizationalContact.toJson)) fun x hx => ?_) fun _ f3 => ?_
  · have h := valid_property (valid_part h (.tail _ (.tail _ (.head _)))) (.tail _ (.tail _ (.tail _ (.head _)))) hx
    have hkn := hs.known hx
    have hs := hs.member hx
    refine items_keeps (valid_part h (.head _)) (valid_part h (.tail _ (.head _))) hs fun l el y hy h hs => ?_
    exact v15k_organizationalContact_OrganizationalContact (v15_ref_organizationalContact h) hs (hk.noRefs _ _ (el ▸ hx) (by simp) _ hy)
  exact ⟨_, rfl, same_mk hs.nodup (forall_head f0 (forall_head f1 (forall_head f2 (forall_head f3 nofun)))) (all_written (ks := ["bomRef", "name", "url", "contact"]) (lost := ["bom-ref"]) (closed_only (valid_part h (.tail _ (.head _)))) (no_member (not_has hb) no_members) rfl (by decide +kernel))⟩

theorem v15k_serviceData_DataClassification {n : Nat} {j : Json} (h : Valid (schemaContext F .v1_5) Schema15.serviceData j) (hs : Clean n j)
    (hc : ∀ p, j = .obj p → OnlyHas ["flow", "classification"] p) :
    Keeps (DataClassification.ofJson) DataClassification.toJson j := by
  obtain ⟨o, rfl⟩ := type_object (valid_part h (.head _))
  have hcl := hc _ rfl
  have hr := hs.readable
  have hk := hs.kept
  have hreq := (valid_part h (.tail _ (.head _)))
  refine object_keeps ?_
  refine bind_keeps (req_keeps (g := (Json.ofEnum DataFlowType.display)) (valid_required hreq (by simp)) fun x hx => ?_) fun _ f0 => ?_
  · have h := valid_property (valid_part h (.tail _ (.tail _ (.tail _ (.head _))))) (.head _) hx
    have hkn := hs.known hx
    have hs := hs.member hx
    exact enum_keeps (type_string (valid_part (v15_ref_dataFlowDirection h) (.head _))) fun s e => DataFlowType.display_new s
  refine bind_keeps (req_keeps (g := Json.str) (valid_required hreq (by simp)) fun x hx => ?_) fun _ f1 => ?_
  · have h := valid_property (valid_part h (.tail _ (.tail _ (.tail _ (.head _))))) (.tail _ (.head _)) hx
    have hkn := hs.known hx
    have hs := hs.member hx
    exact string_keeps (type_string (v15_ref_dataClassification h))
  exact ⟨_, rfl, same_mk hs.nodup (forall_head f0 (forall_head f1 nofun)) (all_written (ks := ["flow", "classification"]) (lost := []) hcl no_members rfl (by decide +kernel))⟩

theorem v15k_attachment_AttachedText {n : Nat} {j : Json} (h : Valid (schemaContext F .v1_5) Schema15.attachment j) (hs : Clean n j) :
    Keeps (AttachedText.ofJson) AttachedText.toJson j := by
  obtain ⟨o, rfl⟩ := type_object (valid_part h (.head _))
  have hr := hs.readable
  have hk := hs.kept
  have hreq := (valid_part h (.tail _ (.head _)))
  refine object_keeps ?_
  refine bind_keeps (opt_keeps (g := Json.str) fun x hx => ?_) fun _ f0 => ?_
  · have h := valid_property (valid_part h (.tail _ (.tail _ (.tail _ (.head _))))) (.head _) hx
    have hkn := hs.known hx
    have hs := hs.member hx
    exact string_keeps (type_string h)
  refine bind_keeps (opt_keeps (g := (Json.ofEnum Encoding.display)) fun x hx => ?_) fun _ f1 => ?_
  · have h := valid_property (valid_part h (.tail _ (.tail _ (.tail _ (.head _))))) (.tail _ (.head _)) hx
    have hkn := hs.known hx
    have hs := hs.member hx
    exact enum_keeps (type_string (valid_part h (.head _))) fun s e => Encoding.display_new s
  refine bind_keeps (req_keeps (g := Json.str) (valid_required hreq (by simp)) fun x hx => ?_) fun _ f2 => ?_
  · have h := valid_property (valid_part h (.tail _ (.tail _ (.tail _ (.head _))))) (.tail _ (.tail _ (.head _))) hx
    have hkn := hs.known hx
    have hs := hs.member hx
    exact string_keeps (type_string h)
  exact ⟨_, rfl, same_mk hs.nodup (forall_head f0 (forall_head f1 (forall_head f2 nofun))) (all_written (ks := ["contentType", "encoding", "content"]) (lost := []) (closed_only (valid_part h (.tail _ (.tail _ (.head _))))) no_members rfl (by decide +kernel))⟩

theorem v15k_property_Property {n : Nat} {j : Json} (h : Valid (schemaContext F .v1_5) Schema15.property j) (hs : Clean n j)
    (hh : Has "name" j ∧ Has "value" j) (hc : ∀ p, j = .obj p → OnlyHas ["name", "value"] p) :
    Keeps (Property.ofJson) Property.toJson j := by
  obtain ⟨o, rfl⟩ := type_object (valid_part h (.head _))
  have hcl := hc _ rfl
  have hr := hs.readable
  have hk := hs.kept
  refine object_keeps ?_
  refine bind_keeps (req_keeps (g := Json.str) hh.1.lookup fun x hx => ?_) fun _ f0 => ?_
  · have h := valid_property (valid_part h (.tail _ (.head _))) (.head _) hx
    have hkn := hs.known hx
    have hs := hs.member hx
    exact string_keeps (type_string h)
  refine bind_keeps (req_keeps (g := Json.str) hh.2.lookup fun x hx => ?_) fun _ f1 => ?_
  · have h := valid_property (valid_part h (.tail _ (.head _))) (.tail _ (.head _)) hx
    have hkn := hs.known hx
    have hs := hs.member hx
    exact string_keeps (type_string h)
  exact ⟨_, rfl, same_mk hs.nodup (forall_head f0 (forall_head f1 nofun)) (all_written (ks := ["name", "value"]) (lost := []) hcl no_members rfl (by decide +kernel))⟩

theorem v15k_license_License {n : Nat} {j : Json} (h : Valid (schemaContext F .v1_5) Schema15.license j) (hs : Clean n j)
    (hb : ¬ Has "bom-ref" j) :
    Keeps (License.ofJson .v1_5) (License.toJson .v1_5) j := by
  obtain ⟨o, rfl⟩ := type_object (valid_part h (.head _))
  have hr := hs.readable
  have hk := hs.kept
  refine object_keeps ?_
  refine bind_keeps (opt_keeps (g := Json.str) fun x hx => ?_) fun _ f0 => ?_
  · have := valid_closed (valid_part h (.tail _ (.head _))) hx
    simp at this
  have key : ∃ y, LicenseIdentifier.ofFields o = .ok y ∧ (∀ p ∈ LicenseIdentifier.toFields y, FieldKept o p.1 p.2) ∧ ∀ k ∈ ["id", "name"], ∀ x, (k, x) ∈ o → ∃ w, (k, w) ∈ LicenseIdentifier.toFields y := by
    refine flatVariant_keeps (toFields := LicenseIdentifier.toFields) (ks := ["id", "name"]) (valid_part h (.tail _ (.tail _ (.tail _ (.head _))))) (by simp) ?_ ?_
    · intro p hp hn x hx
      simp only [List.mem_cons, List.not_mem_nil, or_false] at hp
      rcases hp with rfl | rfl
      · exact absurd (by simp) hn
      · exact absurd (by simp) hn
    · intro p hp x hx
      simp only [List.mem_cons, List.not_mem_nil, or_false] at hp
      rcases hp with rfl | rfl
      · have h := valid_property (valid_part h (.tail _ (.tail _ (.head _)))) (.tail _ (.head _)) hx
        have hs := hs.member hx
        refine variant_keeps (?_ : Keeps (Json.string) Json.str x) fun _ => rfl
        exact string_keeps (type_string (valid_part (v15_ref_spdx h) (.head _)))
      · have h := valid_property (valid_part h (.tail _ (.tail _ (.head _)))) (.tail _ (.tail _ (.head _))) hx
        have hs := hs.member hx
        refine variant_keeps (?_ : Keeps (Json.string) Json.str x) fun _ => rfl
        exact string_keeps (type_string h)
  refine bind_keeps key fun yf ff => ?_
  refine bind_keeps (opt_keeps (g := AttachedText.toJson) fun x hx => ?_) fun _ f1 => ?_
  · have h := valid_property (valid_part h (.tail _ (.tail _ (.head _)))) (.tail _ (.tail _ (.tail _ (.head _)))) hx
    have hkn := hs.known hx
    have hs := hs.member hx
    exact v15k_attachment_AttachedText (v15_ref_attachment h) hs
  refine bind_keeps (opt_keeps (g := Json.str) fun x hx => ?_) fun _ f2 => ?_
  · have h := valid_property (valid_part h (.tail _ (.tail _ (.head _)))) (.tail _ (.tail _ (.tail _ (.tail _ (.head _))))) hx
    have hkn := hs.known hx
    have hs := hs.member hx
    exact string_keeps (type_string (valid_part h (.head _)))
  refine bind_keeps (opt_keeps (g := Licensing.toJson) fun x hx => ?_) fun _ f3 => ?_
  · have h := valid_property (valid_part h (.tail _ (.tail _ (.head _)))) (.tail _ (.tail _ (.tail _ (.tail _ (.tail _ (.head _)))))) hx
    have hkn := hs.known hx
    have hs := hs.member hx
    have hall := hk.licensing _ hx
    obtain ⟨o, rfl⟩ := type_object (valid_part h (.head _))
    have hr := hs.readable
    have hk := hs.kept
    refine object_keeps ?_
    refine bind_keeps (orNull_keeps (g := (Json.ofList Json.str)) (hall _ (by simp)).lookup fun x hx => ?_) fun _ f0 => ?_
    · have h := valid_property (valid_part h (.tail _ (.tail _ (.head _)))) (.head _) hx
      have hkn := hs.known hx
      have hs := hs.member hx
      refine items_keeps (valid_part h (.head _)) (valid_part h (.tail _ (.head _))) hs fun l el y hy h hs => ?_
      exact string_keeps (type_string h)
    refine bind_keeps (orNull_keeps (g := LicenseContact.toJson) (hall _ (by simp)).lookup fun x hx => ?_) fun _ f1 => ?_
    · have h := valid_property (valid_part h (.tail _ (.tail _ (.head _)))) (.tail _ (.head _)) hx
      have hkn := hs.known hx
      have hs := hs.member hx
      obtain ⟨o, rfl⟩ := type_object (valid_part h (.head _))
      obtain ⟨k, hk, x, rfl⟩ := oneOf_single (ks := ["organization", "individual"]) (valid_part h (.tail _ (.tail _ (.tail _ (.head _))))) (valid_part h (.tail _ (.head _))) hs.sane
      simp only [List.mem_cons, List.not_mem_nil, or_false] at hk
      rcases hk with rfl | rfl
      · have h := valid_property (valid_part h (.tail _ (.tail _ (.head _)))) (.head _) (.head _)
        have hx : ("organization", x) ∈ [("organization", x)] := .head _
        have hk := hs.kept
        have hs := hs.member (.head _)
        refine tagged_keeps (c := .organization) rfl (?_ : Keeps (OrganizationalEntity.ofJson) OrganizationalEntity.toJson x) fun _ => rfl
        exact v15k_organizationalEntity_OrganizationalEntity (v15_ref_organizationalEntity h) hs (hk.noRef _ _ hx (by simp))
      · have h := valid_property (valid_part h (.tail _ (.tail _ (.head _)))) (.tail _ (.head _)) (.head _)
        have hx : ("individual", x) ∈ [("individual", x)] := .head _
        have hk := hs.kept
        have hs := hs.member (.head _)
        refine tagged_keeps (c := .contact) rfl (?_ : Keeps (OrganizationalContact.ofJson) OrganizationalContact.toJson x) fun _ => rfl
        exact v15k_organizationalContact_OrganizationalContact (v15_ref_organizationalContact h) hs (hk.noRef _ _ hx (by simp))
    refine bind_keeps (orNull_keeps (g := LicenseContact.toJson) (hall _ (by simp)).lookup fun x hx => ?_) fun _ f2 => ?_
    · have h := valid_property (valid_part h (.tail _ (.tail _ (.head _)))) (.tail _ (.tail _ (.head _))) hx
      have hkn := hs.known hx
      have hs := hs.member hx
      obtain ⟨o, rfl⟩ := type_object (valid_part h (.head _))
      obtain ⟨k, hk, x, rfl⟩ := oneOf_single (ks := ["organization", "individual"]) (valid_part h (.tail _ (.tail _ (.tail _ (.head _))))) (valid_part h (.tail _ (.head _))) hs.sane
      simp only [List.mem_cons, List.not_mem_nil, or_false] at hk
      rcases hk with rfl | rfl
      · have h := valid_property (valid_part h (.tail _ (.tail _ (.head _)))) (.head _) (.head _)
        have hx : ("organization", x) ∈ [("organization", x)] := .head _
        have hk := hs.kept
        have hs := hs.member (.head _)
        refine tagged_keeps (c := .organization) rfl (?_ : Keeps (OrganizationalEntity.ofJson) OrganizationalEntity.toJson x) fun _ => rfl
        exact v15k_organizationalEntity_OrganizationalEntity (v15_ref_organizationalEntity h) hs (hk.noRef _ _ hx (by simp))
      · have h := valid_property (valid_part h (.tail _ (.tail _ (.head _)))) (.tail _ (.head _)) (.head _)
        have hx : ("individual", x) ∈ [("individual", x)] := .head _
        have hk := hs.kept
        have hs := hs.member (.head _)
        refine tagged_keeps (c := .contact) rfl (?_ : Keeps (OrganizationalContact.ofJson) OrganizationalContact.toJson x) fun _ => rfl
        exact v15k_organizationalContact_OrganizationalContact (v15_ref_organizationalContact h) hs (hk.noRef _ _ hx (by simp))
    refine bind_keeps (orNull_keeps (g := LicenseContact.toJson) (hall _ (by simp)).lookup fun x hx => ?_) fun _ f3 => ?_
    · have h := valid_property (valid_part h (.tail _ (.tail _ (.head _)))) (.tail _ (.tail _ (.tail _ (.head _)))) hx
      have hkn := hs.known hx
      have hs := hs.member hx
      obtain ⟨o, rfl⟩ := type_object (valid_part h (.head _))
      obtain ⟨k, hk, x, rfl⟩ := oneOf_single (ks := ["organization", "individual"]) (valid_part h (.tail _ (.tail _ (.tail _ (.head _))))) (valid_part h (.tail _ (.head _))) hs.sane
      simp only [List.mem_cons, List.not_mem_nil, or_false] at hk
      rcases hk with rfl | rfl
      · have h := valid_property (valid_part h (.tail _ (.tail _ (.head _)))) (.head _) (.head _)
        have hx : ("organization", x) ∈ [("organization", x)] := .head _
        have hk := hs.kept
        have hs := hs.member (.head _)
        refine tagged_keeps (c := .organization) rfl (?_ : Keeps (OrganizationalEntity.ofJson) OrganizationalEntity.toJson x) fun _ => rfl
        exact v15k_organizationalEntity_OrganizationalEntity (v15_ref_organizationalEntity h) hs (hk.noRef _ _ hx (by simp))
      · have h := valid_property (valid_part h (.tail _ (.tail _ (.head _)))) (.tail _ (.head _)) (.head _)
        have hx : ("individual", x) ∈ [("individual", x)] := .head _
        have hk := hs.kept
        have hs := hs.member (.head _)
        refine tagged_keeps (c := .contact) rfl (?_ : Keeps (OrganizationalContact.ofJson) OrganizationalContact.toJson x) fun _ => rfl
        exact v15k_organizationalContact_OrganizationalContact (v15_ref_organizationalContact h) hs (hk.noRef _ _ hx (by simp))
    refine bind_keeps (orNull_keeps (g := Json.str) (hall _ (by simp)).lookup fun x hx => ?_) fun _ f4 => ?_
    · have h := valid_property (valid_part h (.tail _ (.tail _ (.head _)))) (.tail _ (.tail _ (.tail _ (.tail _ (.head _))))) hx
      have hkn := hs.known hx
      have hs := hs.member hx
      exact string_keeps (type_string h)
    refine bind_keeps (orNull_keeps (g := (Json.ofList (Json.ofEnum LicenseType.display))) (hall _ (by simp)).lookup fun x hx => ?_) fun _ f5 => ?_
    · have h := valid_property (valid_part h (.tail _ (.tail _ (.head _)))) (.tail _ (.tail _ (.tail _ (.tail _ (.tail _ (.head _)))))) hx
      have hkn := hs.known hx
      have hs := hs.member hx
      refine items_keeps (valid_part h (.head _)) (valid_part h (.tail _ (.head _))) hs fun l el y hy h hs => ?_
      exact enum_keeps (type_string (valid_part h (.head _))) fun s e => LicenseType.display_new s
    refine bind_keeps (orNull_keeps (g := Json.str) (hall _ (by simp)).lookup fun x hx => ?_) fun _ f6 => ?_
    · have h := valid_property (valid_part h (.tail _ (.tail _ (.head _)))) (.tail _ (.tail _ (.tail _ (.tail _ (.tail _ (.tail _ (.head _))))))) hx
      have hkn := hs.known hx
      have hs := hs.member hx
      exact string_keeps (type_string (valid_part h (.head _)))
    refine bind_keeps (orNull_keeps (g := Json.str) (hall _ (by simp)).lookup fun x hx => ?_) fun _ f7 => ?_
    · have h := valid_property (valid_part h (.tail _ (.tail _ (.head _)))) (.tail _ (.tail _ (.tail _ (.tail _ (.tail _ (.tail _ (.tail _ (.head _)))))))) hx
      have hkn := hs.known hx
      have hs := hs.member hx
      exact string_keeps (type_string (valid_part h (.head _)))
    exact ⟨_, rfl, same_mk hs.nodup (forall_head f0 (forall_head f1 (forall_head f2 (forall_head f3 (forall_head f4 (forall_head f5 (forall_head f6 (forall_head f7 nofun)))))))) (all_written (ks := ["altIds", "licensor", "licensee", "purchaser", "purchaseOrder", "licenseTypes", "lastRenewal", "expiration"]) (lost := []) (closed_only (valid_part h (.tail _ (.head _)))) no_members rfl (by decide +kernel))⟩
  refine bind_keeps (opt_keeps (g := (Json.ofList Property.toJson)) fun x hx => ?_) fun _ f4 => ?_
  · have h := valid_property (valid_part h (.tail _ (.tail _ (.head _)))) (.tail _ (.tail _ (.tail _ (.tail _ (.tail _ (.tail _ (.head _))))))) hx
    have hkn := hs.known hx
    have hs := hs.member hx
    refine items_keeps (valid_part h (.head _)) (valid_part h (.tail _ (.head _))) hs fun l el y hy h hs => ?_
    exact v15k_property_Property (v15_ref_property h) hs (hr.named _ (el ▸ hx) _ hy) (fun p e => hk.properties _ _ (el ▸ hx) (by simp) p (e ▸ hy))
  exact ⟨_, rfl, same_mk_assoc (same_mk hs.nodup (forall_append ff.1 (forall_head f1 (forall_head f2 (forall_head f0 (forall_head f3 (forall_head f4 nofun)))))) (all_written_flat (ks := ["text", "url", "bomRef", "licensing", "properties"]) (lost := ["bom-ref"]) (closed_only (valid_part h (.tail _ (.head _)))) (no_member (not_has hb) no_members) ff.2 rfl (by decide +kernel)))⟩

theorem v15k_licenseChoice_Licenses {n : Nat} {j : Json} (h : Valid (schemaContext F .v1_5) Schema15.licenseChoice j) (hs : Clean n j)
    (hb : ∀ l, j = .arr l → ∀ x ∈ l, ¬ Has "bom-ref" x) :
    Keeps (Licenses.ofJson .v1_5) (Licenses.toJson .v1_5) j := by
  rcases oneOf_two (valid_part h (.tail _ (.head _))) with h | h
  · refine items_keeps (valid_part h (.head _)) (valid_part h (.tail _ (.head _))) hs fun l el y hy h hs => ?_
    obtain ⟨o, rfl⟩ := type_object (valid_part h (.head _))
    obtain ⟨x, hx⟩ := valid_required (valid_part h (.tail _ (.head _))) (by simp : "license" ∈ _)
    have e := one_member hs.nodup hx (hs.readable.license ⟨_, _, rfl, hx⟩)
    have h := valid_property (valid_part h (.tail _ (.tail _ (.tail _ (.head _))))) (.head _) hx
    obtain ⟨-, z, hz, hsm⟩ := v15k_license_License (v15_ref_license h) (hs.member hx) (hs.kept.noRef _ _ hx (by simp))
    subst e
    exact ⟨nofun, .license z, by simp [LicenseChoice.ofJson, Json.tagged, List.lookup, hz, Except.map], same_single hsm⟩
  · obtain ⟨l, rfl⟩ := type_array (valid_part h (.head _))
    have h1 := valid_kw.mp (valid_part h (.tail _ (.head _)))
    have h2 := valid_kw.mp (valid_part h (.tail _ (.tail _ (.head _))))
    have h3 := (valid_part h (.tail _ (.tail _ (.tail _ (.head _)))))
    simp only [Keyword.Holds] at h1 h2
    obtain ⟨y, rfl⟩ := List.length_eq_one_iff.mp (Nat.le_antisymm h2 h1)
    cases h3 with | itemAt h3 =>
    have h := h3 _ y rfl rfl
    have hb := hb _ rfl y (.head _)
    have hs := hs.item (.head _)
    refine array_keeps fun x hx => ?_
    rw [List.mem_singleton.mp hx]
    have he : Keeps SpdxExpression.ofJson SpdxExpression.toJson y := by
      obtain ⟨o, rfl⟩ := type_object (valid_part h (.head _))
      have hr := hs.readable
      have hk := hs.kept
      have hreq := (valid_part h (.tail _ (.head _)))
      refine object_keeps ?_
      refine bind_keeps (opt_keeps (g := Json.str) fun x hx => ?_) fun _ f0 => ?_
      · have := valid_closed (valid_part h (.tail _ (.tail _ (.head _)))) hx
        simp at this
      refine bind_keeps (req_keeps (g := Json.str) (valid_required hreq (by simp)) fun x hx => ?_) fun _ f1 => ?_
      · have h := valid_property (valid_part h (.tail _ (.tail _ (.tail _ (.head _))))) (.head _) hx
        have hkn := hs.known hx
        have hs := hs.member hx
        exact string_keeps (type_string h)
      exact ⟨_, rfl, same_mk hs.nodup (forall_head f0 (forall_head f1 nofun)) (all_written (ks := ["bomRef", "expression"]) (lost := ["bom-ref"]) (closed_only (valid_part h (.tail _ (.tail _ (.head _))))) (no_member (not_has hb) no_members) rfl (by decide +kernel))⟩
    obtain ⟨o, rfl⟩ := type_object (valid_part h (.head _))
    obtain ⟨e, hf⟩ := tagged_fails (k := "license") (o := o) (f := fun j => (License.ofJson .v1_5 j).map LicenseChoice.license) fun x hx => by
      have := valid_closed (valid_part h (.tail _ (.tail _ (.head _)))) hx
      simp at this
    refine ⟨nofun, ?_⟩
    simp only [LicenseChoice.ofJson, hf]
    exact map_keeps he fun _ => rfl

theorem v15k_service_Service_n (n : Nat) : ∀ {j : Json}, Valid (schemaContext F .v1_5) Schema15.service j → Clean n j →
    Keeps (Service.ofJsonN .v1_5 n) (Service.toJson .v1_5) j := by
  induction n with
  | zero =>
    intro j h hs
    obtain ⟨o, rfl⟩ := type_object (valid_part h (.head _))
    cases hs.sane.within
  | succ n ih =>
    intro j h hs
    show Keeps (Service.ofJsonWith (Service.ofJsonN .v1_5 n) .v1_5) (Service.toJson .v1_5) j
    obtain ⟨o, rfl⟩ := type_object (valid_part h (.head _))
    have hr := hs.readable
    have hk := hs.kept
    have hreq := (valid_part h (.tail _ (.head _)))
    refine object_keeps ?_
    refine bind_keeps (opt_keeps (g := Json.str) fun x hx => ?_) fun _ f0 => ?_
    · have h := valid_property (valid_part h (.tail _ (.tail _ (.tail _ (.head _))))) (.head _) hx
      have hkn := hs.known hx
      have hs := hs.down hx
      exact string_keeps (type_string (valid_part (v15_ref_refType h) (.head _)))
    refine bind_keeps (opt_keeps (g := OrganizationalEntity.toJson) fun x hx => ?_) fun _ f1 => ?_
    · have h := valid_property (valid_part h (.tail _ (.tail _ (.tail _ (.head _))))) (.tail _ (.head _)) hx
      have hkn := hs.known hx
      have hs := hs.down hx
      exact v15k_organizationalEntity_OrganizationalEntity (v15_ref_organizationalEntity h) hs (hk.noRef _ _ hx (by simp))
    refine bind_keeps (opt_keeps (g := Json.str) fun x hx => ?_) fun _ f2 => ?_
    · have h := valid_property (valid_part h (.tail _ (.tail _ (.tail _ (.head _))))) (.tail _ (.tail _ (.head _))) hx
      have hkn := hs.known hx
      have hs := hs.down hx
      exact string_keeps (type_string h)
    refine bind_keeps (req_keeps (g := Json.str) (valid_required hreq (by simp)) fun x hx => ?_) fun _ f3 => ?_
    · have h := valid_property (valid_part h (.tail _ (.tail _ (.tail _ (.head _))))) (.tail _ (.tail _ (.tail _ (.head _)))) hx
      have hkn := hs.known hx
      have hs := hs.down hx
      exact string_keeps (type_string h)
    refine bind_keeps (opt_keeps (g := Json.str) fun x hx => ?_) fun _ f4 => ?_
    · have h := valid_property (valid_part h (.tail _ (.tail _ (.tail _ (.head _))))) (.tail _ (.tail _ (.tail _ (.tail _ (.head _))))) hx
      have hkn := hs.known hx
      have hs := hs.down hx
      exact string_keeps (type_string h)
    refine bind_keeps (opt_keeps (g := Json.str) fun x hx => ?_) fun _ f5 => ?_
    · have h := valid_property (valid_part h (.tail _ (.tail _ (.tail _ (.head _))))) (.tail _ (.tail _ (.tail _ (.tail _ (.tail _ (.head _)))))) hx
      have hkn := hs.known hx
      have hs := hs.down hx
      exact string_keeps (type_string h)
    refine bind_keeps (opt_keeps (g := (Json.ofList Json.str)) fun x hx => ?_) fun _ f6 => ?_
    · have h := valid_property (valid_part h (.tail _ (.tail _ (.tail _ (.head _))))) (.tail _ (.tail _ (.tail _ (.tail _ (.tail _ (.tail _ (.head _))))))) hx
      have hkn := hs.known hx
      have hs := hs.down hx
      refine items_keeps (valid_part h (.head _)) (valid_part h (.tail _ (.head _))) hs fun l el y hy h hs => ?_
      exact string_keeps (type_string (valid_part h (.head _)))
    refine bind_keeps (opt_keeps (g := Json.bool) fun x hx => ?_) fun _ f7 => ?_
    · have h := valid_property (valid_part h (.tail _ (.tail _ (.tail _ (.head _))))) (.tail _ (.tail _ (.tail _ (.tail _ (.tail _ (.tail _ (.tail _ (.head _)))))))) hx
      have hkn := hs.known hx
      have hs := hs.down hx
      exact boolean_keeps h
    refine bind_keeps (opt_keeps (g := Json.bool) fun x hx => ?_) fun _ f8 => ?_
    · have h := valid_property (valid_part h (.tail _ (.tail _ (.tail _ (.head _))))) (.tail _ (.tail _ (.tail _ (.tail _ (.tail _ (.tail _ (.tail _ (.tail _ (.head _))))))))) hx
      have hkn := hs.known hx
      have hs := hs.down hx
      exact boolean_keeps h
    refine bind_keeps (opt_keeps (g := (ServiceDataChoice.toJson .v1_5)) fun x hx => ?_) fun _ f9 => ?_
    · have h := valid_property (valid_part h (.tail _ (.tail _ (.tail _ (.head _))))) (.tail _ (.tail _ (.tail _ (.tail _ (.tail _ (.tail _ (.tail _ (.tail _ (.tail _ (.tail _ (.head _))))))))))) hx
      have hkn := hs.known hx
      have hs := hs.down hx
      have hl : Keeps (Json.array DataClassification.ofJson) (Json.ofList DataClassification.toJson) _ := items_keeps (valid_part h (.head _)) (valid_part h (.tail _ (.head _))) hs fun l el y hy h hs => v15k_serviceData_DataClassification (v15_ref_serviceData h) hs fun p e => hk.data _ (el ▸ hx) p (e ▸ hy)
      obtain ⟨hn, z, hz, hsm⟩ := hl
      exact ⟨hn, .classification z, by simp only [ServiceDataChoice.ofJson, hz], hsm⟩
    refine bind_keeps (opt_keeps (g := (Licenses.toJson .v1_5)) fun x hx => ?_) fun _ f10 => ?_
    · have h := valid_property (valid_part h (.tail _ (.tail _ (.tail _ (.head _))))) (.tail _ (.tail _ (.tail _ (.tail _ (.tail _ (.tail _ (.tail _ (.tail _ (.tail _ (.tail _ (.tail _ (.head _)))))))))))) hx
      have hkn := hs.known hx
      have hs := hs.down hx
      exact v15k_licenseChoice_Licenses (v15_ref_licenseChoice h) hs fun l e => hk.noRefs _ l (e ▸ hx) (by simp)
    refine bind_keeps (opt_keeps (g := (Json.ofList ExternalReference.toJson)) fun x hx => ?_) fun _ f11 => ?_
    · have h := valid_property (valid_part h (.tail _ (.tail _ (.tail _ (.head _))))) (.tail _ (.tail _ (.tail _ (.tail _ (.tail _ (.tail _ (.tail _ (.tail _ (.tail _ (.tail _ (.tail _ (.tail _ (.head _))))))))))))) hx
      have hkn := hs.known hx
      have hs := hs.down hx
      refine items_keeps (valid_part h (.head _)) (valid_part h (.tail _ (.head _))) hs fun l el y hy h hs => ?_
      exact v15k_externalReference_ExternalReference (v15_ref_externalReference h) hs
    refine bind_keeps (opt_keeps (g := (Json.ofList Property.toJson)) fun x hx => ?_) fun _ f12 => ?_
    · have h := valid_property (valid_part h (.tail _ (.tail _ (.tail _ (.head _))))) (.tail _ (.tail _ (.tail _ (.tail _ (.tail _ (.tail _ (.tail _ (.tail _ (.tail _ (.tail _ (.tail _ (.tail _ (.tail _ (.tail _ (.tail _ (.head _)))))))))))))))) hx
      have hkn := hs.known hx
      have hs := hs.down hx
      refine items_keeps (valid_part h (.head _)) (valid_part h (.tail _ (.head _))) hs fun l el y hy h hs => ?_
      exact v15k_property_Property (v15_ref_property h) hs (hr.named _ (el ▸ hx) _ hy) (fun p e => hk.properties _ _ (el ▸ hx) (by simp) p (e ▸ hy))
    refine bind_keeps (opt_keeps (g := (Json.ofList (Service.toJson .v1_5))) fun x hx => ?_) fun _ f13 => ?_
    · have h := valid_property (valid_part h (.tail _ (.tail _ (.tail _ (.head _))))) (.tail _ (.tail _ (.tail _ (.tail _ (.tail _ (.tail _ (.tail _ (.tail _ (.tail _ (.tail _ (.tail _ (.tail _ (.tail _ (.head _)))))))))))))) hx
      have hkn := hs.known hx
      have hs := hs.down hx
      refine items_keeps (valid_part h (.head _)) (valid_part h (.tail _ (.tail _ (.head _)))) hs fun l el y hy h hs => ?_
      exact ih (v15_ref_service h) hs
    refine bind_keeps (opt_keeps (g := Signature.toJson) fun x hx => ?_) fun _ f14 => ?_
    · have h := valid_property (valid_part h (.tail _ (.tail _ (.tail _ (.head _))))) (.tail _ (.tail _ (.tail _ (.tail _ (.tail _ (.tail _ (.tail _ (.tail _ (.tail _ (.tail _ (.tail _ (.tail _ (.tail _ (.tail _ (.tail _ (.tail _ (.head _))))))))))))))))) hx
      have hkn := hs.known hx
      have hs := hs.down hx
      replace h := (v15_ref_signature h)
      exact signature_keeps (v15_ref_jsf_signature h) hs (hr.signature _ hx) (fun p e => hk.signature p (e ▸ hx))
    refine bind_keeps (opt_keeps (g := Json.str) fun x hx => ?_) fun _ f15 => ?_
    · have h := valid_property (valid_part h (.tail _ (.tail _ (.tail _ (.head _))))) (.tail _ (.tail _ (.tail _ (.tail _ (.tail _ (.tail _ (.tail _ (.tail _ (.tail _ (.head _)))))))))) hx
      have hkn := hs.known hx
      have hs := hs.down hx
      exact string_keeps (type_string h)
    refine ⟨_, rfl, ?_⟩
    rw [Service.toJson_eq]
    exact same_mk hs.nodup (forall_head f0 (forall_head f1 (forall_head f2 (forall_head f3 (forall_head f4 (forall_head f5 (forall_head f6 (forall_head f7 (forall_head f8 (forall_head f9 (forall_head f10 (forall_head f11 (forall_head f12 (forall_head f13 (forall_head f14 (forall_head f15 nofun)))))))))))))))) (all_written (ks := ["bom-ref", "provider", "group", "name", "version", "description", "endpoints", "authenticated", "x-trust-boundary", "data", "licenses", "externalReferences", "properties", "services", "signature", "trustZone"]) (lost := ["releaseNotes"]) (closed_only (valid_part h (.tail _ (.tail _ (.head _))))) (no_member (hk.dropped _ (by simp)) no_members) rfl (by decide +kernel))

theorem v15k_service_Service {j : Json} (h : Valid (schemaContext F .v1_5) Schema15.service j) (hs : Clean ReadLimit.limit j) :
    Keeps (Service.ofJson .v1_5) (Service.toJson .v1_5) j := v15k_service_Service_n _ h hs

theorem v15k_swid_Swid {n : Nat} {j : Json} (h : Valid (schemaContext F .v1_5) Schema15.swid j) (hs : Clean n j) :
    Keeps (Swid.ofJson) Swid.toJson j := by
  obtain ⟨o, rfl⟩ := type_object (valid_part h (.head _))
  have hr := hs.readable
  have hk := hs.kept
  have hreq := (valid_part h (.tail _ (.head _)))
  refine object_keeps ?_
  refine bind_keeps (req_keeps (g := Json.str) (valid_required hreq (by simp)) fun x hx => ?_) fun _ f0 => ?_
  · have h := valid_property (valid_part h (.tail _ (.tail _ (.tail _ (.head _))))) (.head _) hx
    have hkn := hs.known hx
    have hs := hs.member hx
    exact string_keeps (type_string h)
  refine bind_keeps (req_keeps (g := Json.str) (valid_required hreq (by simp)) fun x hx => ?_) fun _ f1 => ?_
  · have h := valid_property (valid_part h (.tail _ (.tail _ (.tail _ (.head _))))) (.tail _ (.head _)) hx
    have hkn := hs.known hx
    have hs := hs.member hx
    exact string_keeps (type_string h)
  refine bind_keeps (opt_keeps (g := Json.str) fun x hx => ?_) fun _ f2 => ?_
  · have h := valid_property (valid_part h (.tail _ (.tail _ (.tail _ (.head _))))) (.tail _ (.tail _ (.head _))) hx
    have hkn := hs.known hx
    have hs := hs.member hx
    exact string_keeps (type_string h)
  refine bind_keeps (opt_keeps (g := Json.nat) fun x hx => ?_) fun _ f3 => ?_
  · have h := valid_property (valid_part h (.tail _ (.tail _ (.tail _ (.head _))))) (.tail _ (.tail _ (.tail _ (.head _)))) hx
    have hkn := hs.known hx
    have hs := hs.member hx
    exact u32_keeps (hr.small _ _ hx (by simp) (integer_number h))
  refine bind_keeps (opt_keeps (g := Json.bool) fun x hx => ?_) fun _ f4 => ?_
  · have h := valid_property (valid_part h (.tail _ (.tail _ (.tail _ (.head _))))) (.tail _ (.tail _ (.tail _ (.tail _ (.head _))))) hx
    have hkn := hs.known hx
    have hs := hs.member hx
    exact boolean_keeps h
  refine bind_keeps (opt_keeps (g := AttachedText.toJson) fun x hx => ?_) fun _ f5 => ?_
  · have h := valid_property (valid_part h (.tail _ (.tail _ (.tail _ (.head _))))) (.tail _ (.tail _ (.tail _ (.tail _ (.tail _ (.head _)))))) hx
    have hkn := hs.known hx
    have hs := hs.member hx
    exact v15k_attachment_AttachedText (v15_ref_attachment h) hs
  refine bind_keeps (opt_keeps (g := Json.str) fun x hx => ?_) fun _ f6 => ?_
  · have h := valid_property (valid_part h (.tail _ (.tail _ (.tail _ (.head _))))) (.tail _ (.tail _ (.tail _ (.tail _ (.tail _ (.tail _ (.head _))))))) hx
    have hkn := hs.known hx
    have hs := hs.member hx
    exact string_keeps (type_string (valid_part h (.head _)))
  exact ⟨_, rfl, same_mk hs.nodup (forall_head f0 (forall_head f1 (forall_head f2 (forall_head f3 (forall_head f4 (forall_head f5 (forall_head f6 nofun))))))) (all_written (ks := ["tagId", "name", "version", "tagVersion", "patch", "text", "url"]) (lost := []) (closed_only (valid_part h (.tail _ (.tail _ (.head _))))) no_members rfl (by decide +kernel))⟩

theorem v15k_identifiableAction_IdentifiableAction {n : Nat} {j : Json} (h : Valid (schemaContext F .v1_5) Schema15.identifiableAction j) (hs : Clean n j) :
    Keeps (IdentifiableAction.ofJson) IdentifiableAction.toJson j := by
  obtain ⟨o, rfl⟩ := type_object (valid_part h (.head _))
  have hr := hs.readable
  have hk := hs.kept
  refine object_keeps ?_
  refine bind_keeps (opt_keeps (g := Json.str) fun x hx => ?_) fun _ f0 => ?_
  · have h := valid_property (valid_part h (.tail _ (.tail _ (.head _)))) (.head _) hx
    have hkn := hs.known hx
    have hs := hs.member hx
    exact string_keeps (type_string (valid_part h (.head _)))
  refine bind_keeps (opt_keeps (g := Json.str) fun x hx => ?_) fun _ f1 => ?_
  · have h := valid_property (valid_part h (.tail _ (.tail _ (.head _)))) (.tail _ (.head _)) hx
    have hkn := hs.known hx
    have hs := hs.member hx
    exact string_keeps (type_string h)
  refine bind_keeps (opt_keeps (g := Json.str) fun x hx => ?_) fun _ f2 => ?_
  · have h := valid_property (valid_part h (.tail _ (.tail _ (.head _)))) (.tail _ (.tail _ (.head _))) hx
    have hkn := hs.known hx
    have hs := hs.member hx
    exact string_keeps (type_string (valid_part h (.head _)))
  exact ⟨_, rfl, same_mk hs.nodup (forall_head f0 (forall_head f1 (forall_head f2 nofun))) (all_written (ks := ["timestamp", "name", "email"]) (lost := []) (closed_only (valid_part h (.tail _ (.head _)))) no_members rfl (by decide +kernel))⟩

theorem v15k_commit_Commit {n : Nat} {j : Json} (h : Valid (schemaContext F .v1_5) Schema15.commit j) (hs : Clean n j) :
    Keeps (Commit.ofJson) Commit.toJson j := by
  obtain ⟨o, rfl⟩ := type_object (valid_part h (.head _))
  have hr := hs.readable
  have hk := hs.kept
  refine object_keeps ?_
  refine bind_keeps (opt_keeps (g := Json.str) fun x hx => ?_) fun _ f0 => ?_
  · have h := valid_property (valid_part h (.tail _ (.tail _ (.head _)))) (.head _) hx
    have hkn := hs.known hx
    have hs := hs.member hx
    exact string_keeps (type_string h)
  refine bind_keeps (opt_keeps (g := Json.str) fun x hx => ?_) fun _ f1 => ?_
  · have h := valid_property (valid_part h (.tail _ (.tail _ (.head _)))) (.tail _ (.head _)) hx
    have hkn := hs.known hx
    have hs := hs.member hx
    exact string_keeps (type_string (valid_part h (.head _)))
  refine bind_keeps (opt_keeps (g := IdentifiableAction.toJson) fun x hx => ?_) fun _ f2 => ?_
  · have h := valid_property (valid_part h (.tail _ (.tail _ (.head _)))) (.tail _ (.tail _ (.head _))) hx
    have hkn := hs.known hx
    have hs := hs.member hx
    exact v15k_identifiableAction_IdentifiableAction (v15_ref_identifiableAction h) hs
  refine bind_keeps (opt_keeps (g := IdentifiableAction.toJson) fun x hx => ?_) fun _ f3 => ?_
  · have h := valid_property (valid_part h (.tail _ (.tail _ (.head _)))) (.tail _ (.tail _ (.tail _ (.head _)))) hx
    have hkn := hs.known hx
    have hs := hs.member hx
    exact v15k_identifiableAction_IdentifiableAction (v15_ref_identifiableAction h) hs
  refine bind_keeps (opt_keeps (g := Json.str) fun x hx => ?_) fun _ f4 => ?_
  · have h := valid_property (valid_part h (.tail _ (.tail _ (.head _)))) (.tail _ (.tail _ (.tail _ (.tail _ (.head _))))) hx
    have hkn := hs.known hx
    have hs := hs.member hx
    exact string_keeps (type_string h)
  exact ⟨_, rfl, same_mk hs.nodup (forall_head f0 (forall_head f1 (forall_head f2 (forall_head f3 (forall_head f4 nofun))))) (all_written (ks := ["uid", "url", "author", "committer", "message"]) (lost := []) (closed_only (valid_part h (.tail _ (.head _)))) no_members rfl (by decide +kernel))⟩

theorem v15k_diff_Diff {n : Nat} {j : Json} (h : Valid (schemaContext F .v1_5) Schema15.diff j) (hs : Clean n j) :
    Keeps (Diff.ofJson) Diff.toJson j := by
  obtain ⟨o, rfl⟩ := type_object (valid_part h (.head _))
  have hr := hs.readable
  have hk := hs.kept
  refine object_keeps ?_
  refine bind_keeps (opt_keeps (g := AttachedText.toJson) fun x hx => ?_) fun _ f0 => ?_
  · have h := valid_property (valid_part h (.tail _ (.tail _ (.head _)))) (.head _) hx
    have hkn := hs.known hx
    have hs := hs.member hx
    exact v15k_attachment_AttachedText (v15_ref_attachment h) hs
  refine bind_keeps (opt_keeps (g := Json.str) fun x hx => ?_) fun _ f1 => ?_
  · have h := valid_property (valid_part h (.tail _ (.tail _ (.head _)))) (.tail _ (.head _)) hx
    have hkn := hs.known hx
    have hs := hs.member hx
    exact string_keeps (type_string (valid_part h (.head _)))
  exact ⟨_, rfl, same_mk hs.nodup (forall_head f0 (forall_head f1 nofun)) (all_written (ks := ["text", "url"]) (lost := []) (closed_only (valid_part h (.tail _ (.head _)))) no_members rfl (by decide +kernel))⟩

theorem v15k_issue_Issue {n : Nat} {j : Json} (h : Valid (schemaContext F .v1_5) Schema15.issue j) (hs : Clean n j) :
    Keeps (Issue.ofJson) Issue.toJson j := by
  obtain ⟨o, rfl⟩ := type_object (valid_part h (.head _))
  have hr := hs.readable
  have hk := hs.kept
  have hreq := (valid_part h (.tail _ (.head _)))
  refine object_keeps ?_
  refine bind_keeps (req_keeps (g := (Json.ofEnum IssueClassification.display)) (valid_required hreq (by simp)) fun x hx => ?_) fun _ f0 => ?_
  · have h := valid_property (valid_part h (.tail _ (.tail _ (.tail _ (.head _))))) (.head _) hx
    have hkn := hs.known hx
    have hs := hs.member hx
    exact enum_keeps (type_string (valid_part h (.head _))) fun s e => IssueClassification.display_new s
  refine bind_keeps (opt_keeps (g := Json.str) fun x hx => ?_) fun _ f1 => ?_
  · have h := valid_property (valid_part h (.tail _ (.tail _ (.tail _ (.head _))))) (.tail _ (.head _)) hx
    have hkn := hs.known hx
    have hs := hs.member hx
    exact string_keeps (type_string h)
  refine bind_keeps (opt_keeps (g := Json.str) fun x hx => ?_) fun _ f2 => ?_
  · have h := valid_property (valid_part h (.tail _ (.tail _ (.tail _ (.head _))))) (.tail _ (.tail _ (.head _))) hx
    have hkn := hs.known hx
    have hs := hs.member hx
    exact string_keeps (type_string h)
  refine bind_keeps (opt_keeps (g := Json.str) fun x hx => ?_) fun _ f3 => ?_
  · have h := valid_property (valid_part h (.tail _ (.tail _ (.tail _ (.head _))))) (.tail _ (.tail _ (.tail _ (.head _)))) hx
    have hkn := hs.known hx
    have hs := hs.member hx
    exact string_keeps (type_string h)
  refine bind_keeps (opt_keeps (g := Source.toJson) fun x hx => ?_) fun _ f4 => ?_
  · have h := valid_property (valid_part h (.tail _ (.tail _ (.tail _ (.head _))))) (.tail _ (.tail _ (.tail _ (.tail _ (.head _))))) hx
    have hkn := hs.known hx
    have hs := hs.member hx
    obtain ⟨o, rfl⟩ := type_object (valid_part h (.head _))
    have hr := hs.readable
    have hk := hs.kept
    refine object_keeps ?_
    refine bind_keeps (opt_keeps (g := Json.str) fun x hx => ?_) fun _ f0 => ?_
    · have h := valid_property (valid_part h (.tail _ (.tail _ (.head _)))) (.head _) hx
      have hkn := hs.known hx
      have hs := hs.member hx
      exact string_keeps (type_string h)
    refine bind_keeps (opt_keeps (g := Json.str) fun x hx => ?_) fun _ f1 => ?_
    · have h := valid_property (valid_part h (.tail _ (.tail _ (.head _)))) (.tail _ (.head _)) hx
      have hkn := hs.known hx
      have hs := hs.member hx
      exact string_keeps (type_string (valid_part h (.head _)))
    exact ⟨_, rfl, same_mk hs.nodup (forall_head f0 (forall_head f1 nofun)) (all_written (ks := ["name", "url"]) (lost := []) (closed_only (valid_part h (.tail _ (.head _)))) no_members rfl (by decide +kernel))⟩
  refine bind_keeps (opt_keeps (g := (Json.ofList Json.str)) fun x hx => ?_) fun _ f5 => ?_
  · have h := valid_property (valid_part h (.tail _ (.tail _ (.tail _ (.head _))))) (.tail _ (.tail _ (.tail _ (.tail _ (.tail _ (.head _)))))) hx
    have hkn := hs.known hx
    have hs := hs.member hx
    refine items_keeps (valid_part h (.head _)) (valid_part h (.tail _ (.head _))) hs fun l el y hy h hs => ?_
    exact string_keeps (type_string (valid_part h (.head _)))
  exact ⟨_, rfl, same_mk hs.nodup (forall_head f0 (forall_head f1 (forall_head f2 (forall_head f3 (forall_head f4 (forall_head f5 nofun)))))) (all_written (ks := ["type", "id", "name", "description", "source", "references"]) (lost := []) (closed_only (valid_part h (.tail _ (.tail _ (.head _))))) no_members rfl (by decide +kernel))⟩

theorem v15k_patch_Patch {n : Nat} {j : Json} (h : Valid (schemaContext F .v1_5) Schema15.patch j) (hs : Clean n j) :
    Keeps (Patch.ofJson) Patch.toJson j := by
  obtain ⟨o, rfl⟩ := type_object (valid_part h (.head _))
  have hr := hs.readable
  have hk := hs.kept
  have hreq := (valid_part h (.tail _ (.head _)))
  refine object_keeps ?_
  refine bind_keeps (req_keeps (g := (Json.ofEnum PatchClassification.display)) (valid_required hreq (by simp)) fun x hx => ?_) fun _ f0 => ?_
  · have h := valid_property (valid_part h (.tail _ (.tail _ (.tail _ (.head _))))) (.head _) hx
    have hkn := hs.known hx
    have hs := hs.member hx
    exact enum_keeps (type_string (valid_part h (.head _))) fun s e => PatchClassification.display_new s
  refine bind_keeps (opt_keeps (g := Diff.toJson) fun x hx => ?_) fun _ f1 => ?_
  · have h := valid_property (valid_part h (.tail _ (.tail _ (.tail _ (.head _))))) (.tail _ (.head _)) hx
    have hkn := hs.known hx
    have hs := hs.member hx
    exact v15k_diff_Diff (v15_ref_diff h) hs
  refine bind_keeps (opt_keeps (g := (Json.ofList Issue.toJson)) fun x hx => ?_) fun _ f2 => ?_
  · have h := valid_property (valid_part h (.tail _ (.tail _ (.tail _ (.head _))))) (.tail _ (.tail _ (.head _))) hx
    have hkn := hs.known hx
    have hs := hs.member hx
    refine items_keeps (valid_part h (.head _)) (valid_part h (.tail _ (.head _))) hs fun l el y hy h hs => ?_
    exact v15k_issue_Issue (v15_ref_issue h) hs
  exact ⟨_, rfl, same_mk hs.nodup (forall_head f0 (forall_head f1 (forall_head f2 nofun))) (all_written (ks := ["type", "diff", "resolves"]) (lost := []) (closed_only (valid_part h (.tail _ (.tail _ (.head _))))) no_members rfl (by decide +kernel))⟩

theorem v15k_copyright_Copyright {n : Nat} {j : Json} (h : Valid (schemaContext F .v1_5) Schema15.copyright j) (hs : Clean n j) :
    Keeps (Copyright.ofJson) Copyright.toJson j := by
  obtain ⟨o, rfl⟩ := type_object (valid_part h (.head _))
  have hr := hs.readable
  have hk := hs.kept
  have hreq := (valid_part h (.tail _ (.head _)))
  refine object_keeps ?_
  obtain ⟨y, hy, f0⟩ := req_keeps (k := "text") (f := Json.string) (g := Json.str) (valid_required hreq (by simp)) fun x hx => string_keeps (type_string (valid_property (valid_part h (.tail _ (.tail _ (.tail _ (.head _))))) (.head _) hx))
  exact ⟨y, hy, same_mk hs.nodup (forall_head f0 nofun) (all_written (ks := ["text"]) (closed_only (valid_part h (.tail _ (.tail _ (.head _))))) no_members rfl (by decide +kernel))⟩

theorem v15k_componentEvidence_ComponentEvidence {n : Nat} {j : Json} (h : Valid (schemaContext F .v1_5) Schema15.componentEvidence j) (hs : Clean n j) :
    Keeps (ComponentEvidence.ofJson .v1_5) (ComponentEvidence.toJson .v1_5) j := by
  obtain ⟨o, rfl⟩ := type_object (valid_part h (.head _))
  have hr := hs.readable
  have hk := hs.kept
  refine object_keeps ?_
  refine bind_keeps (opt_keeps (g := (Licenses.toJson .v1_5)) fun x hx => ?_) fun _ f0 => ?_
  · have h := valid_property (valid_part h (.tail _ (.tail _ (.head _)))) (.tail _ (.tail _ (.tail _ (.head _)))) hx
    have hkn := hs.known hx
    have hs := hs.member hx
    exact v15k_licenseChoice_Licenses (v15_ref_licenseChoice h) hs fun l e => hk.noRefs _ l (e ▸ hx) (by simp)
  refine bind_keeps (opt_keeps (g := (Json.ofList Copyright.toJson)) fun x hx => ?_) fun _ f1 => ?_
  · have h := valid_property (valid_part h (.tail _ (.tail _ (.head _)))) (.tail _ (.tail _ (.tail _ (.tail _ (.head _))))) hx
    have hkn := hs.known hx
    have hs := hs.member hx
    refine items_keeps (valid_part h (.head _)) (valid_part h (.tail _ (.head _))) hs fun l el y hy h hs => ?_
    exact v15k_copyright_Copyright (v15_ref_copyright h) hs
  refine bind_keeps (opt_keeps (g := (Json.ofList Occurrence.toJson)) fun x hx => ?_) fun _ f2 => ?_
  · have h := valid_property (valid_part h (.tail _ (.tail _ (.head _)))) (.tail _ (.head _)) hx
    have hkn := hs.known hx
    have hs := hs.member hx
    refine items_keeps (valid_part h (.head _)) (valid_part h (.tail _ (.head _))) hs fun l el y hy h hs => ?_
    have hb : ¬ Has "bom-ref" _ := (hk.noRefs _ _ (el ▸ hx) (by simp) _ hy)
    obtain ⟨o, rfl⟩ := type_object (valid_part h (.head _))
    have hr := hs.readable
    have hk := hs.kept
    have hreq := (valid_part h (.tail _ (.head _)))
    refine object_keeps ?_
    refine bind_keeps (opt_keeps (g := Json.str) fun x hx => ?_) fun _ f0 => ?_
    · have := valid_closed (valid_part h (.tail _ (.tail _ (.head _)))) hx
      simp at this
    refine bind_keeps (req_keeps (g := Json.str) (valid_required hreq (by simp)) fun x hx => ?_) fun _ f1 => ?_
    · have h := valid_property (valid_part h (.tail _ (.tail _ (.tail _ (.head _))))) (.tail _ (.head _)) hx
      have hkn := hs.known hx
      have hs := hs.member hx
      exact string_keeps (type_string h)
    exact ⟨_, rfl, same_mk hs.nodup (forall_head f0 (forall_head f1 nofun)) (all_written (ks := ["bomRef", "location"]) (lost := ["bom-ref"]) (closed_only (valid_part h (.tail _ (.tail _ (.head _))))) (no_member (not_has hb) no_members) rfl (by decide +kernel))⟩
  refine bind_keeps (opt_keeps (g := Callstack.toJson) fun x hx => ?_) fun _ f3 => ?_
  · have h := valid_property (valid_part h (.tail _ (.tail _ (.head _)))) (.tail _ (.tail _ (.head _))) hx
    have hkn := hs.known hx
    have hs := hs.member hx
    have hh := hr.frames _ hx
    obtain ⟨o, rfl⟩ := type_object (valid_part h (.head _))
    have hr := hs.readable
    have hk := hs.kept
    refine object_keeps ?_
    refine bind_keeps (req_keeps (g := (Json.ofList Frame.toJson)) hh.lookup fun x hx => ?_) fun _ f0 => ?_
    · have h := valid_property (valid_part h (.tail _ (.tail _ (.head _)))) (.head _) hx
      have hkn := hs.known hx
      have hs := hs.member hx
      refine items_keeps (valid_part h (.head _)) (valid_part h (.tail _ (.head _))) hs fun l el y hy h hs => ?_
      obtain ⟨o, rfl⟩ := type_object (valid_part h (.head _))
      have hr := hs.readable
      have hk := hs.kept
      have hreq := (valid_part h (.tail _ (.head _)))
      refine object_keeps ?_
      refine bind_keeps (opt_keeps (g := Json.str) fun x hx => ?_) fun _ f0 => ?_
      · have h := valid_property (valid_part h (.tail _ (.tail _ (.tail _ (.head _))))) (.head _) hx
        have hkn := hs.known hx
        have hs := hs.member hx
        exact string_keeps (type_string h)
      refine bind_keeps (req_keeps (g := Json.str) (valid_required hreq (by simp)) fun x hx => ?_) fun _ f1 => ?_
      · have h := valid_property (valid_part h (.tail _ (.tail _ (.tail _ (.head _))))) (.tail _ (.head _)) hx
        have hkn := hs.known hx
        have hs := hs.member hx
        exact string_keeps (type_string h)
      refine bind_keeps (opt_keeps (g := Json.str) fun x hx => ?_) fun _ f2 => ?_
      · have h := valid_property (valid_part h (.tail _ (.tail _ (.tail _ (.head _))))) (.tail _ (.tail _ (.head _))) hx
        have hkn := hs.known hx
        have hs := hs.member hx
        exact string_keeps (type_string h)
      refine bind_keeps (opt_keeps (g := (Json.ofList Json.str)) fun x hx => ?_) fun _ f3 => ?_
      · have h := valid_property (valid_part h (.tail _ (.tail _ (.tail _ (.head _))))) (.tail _ (.tail _ (.tail _ (.head _)))) hx
        have hkn := hs.known hx
        have hs := hs.member hx
        refine items_keeps (valid_part h (.head _)) (valid_part h (.tail _ (.head _))) hs fun l el y hy h hs => ?_
        exact string_keeps (type_string h)
      refine bind_keeps (opt_keeps (g := Json.nat) fun x hx => ?_) fun _ f4 => ?_
      · have h := valid_property (valid_part h (.tail _ (.tail _ (.tail _ (.head _))))) (.tail _ (.tail _ (.tail _ (.tail _ (.head _))))) hx
        have hkn := hs.known hx
        have hs := hs.member hx
        exact u32_keeps (hr.small _ _ hx (by simp) (integer_number h))
      refine bind_keeps (opt_keeps (g := Json.nat) fun x hx => ?_) fun _ f5 => ?_
      · have h := valid_property (valid_part h (.tail _ (.tail _ (.tail _ (.head _))))) (.tail _ (.tail _ (.tail _ (.tail _ (.tail _ (.head _)))))) hx
        have hkn := hs.known hx
        have hs := hs.member hx
        exact u32_keeps (hr.small _ _ hx (by simp) (integer_number h))
      refine bind_keeps (opt_keeps (g := Json.str) fun x hx => ?_) fun _ f6 => ?_
      · have h := valid_property (valid_part h (.tail _ (.tail _ (.tail _ (.head _))))) (.tail _ (.tail _ (.tail _ (.tail _ (.tail _ (.tail _ (.head _))))))) hx
        have hkn := hs.known hx
        have hs := hs.member hx
        exact string_keeps (type_string h)
      exact ⟨_, rfl, same_mk hs.nodup (forall_head f0 (forall_head f1 (forall_head f2 (forall_head f3 (forall_head f4 (forall_head f5 (forall_head f6 nofun))))))) (all_written (ks := ["package", "module", "function", "parameters", "line", "column", "fullFilename"]) (lost := []) (closed_only (valid_part h (.tail _ (.tail _ (.head _))))) no_members rfl (by decide +kernel))⟩
    exact ⟨_, rfl, same_mk hs.nodup (forall_head f0 nofun) (all_written (ks := ["frames"]) (lost := []) (closed_only (valid_part h (.tail _ (.head _)))) no_members rfl (by decide +kernel))⟩
  refine bind_keeps (opt_keeps (g := Identity.toJson) fun x hx => ?_) fun _ f4 => ?_
  · have h := valid_property (valid_part h (.tail _ (.tail _ (.head _)))) (.head _) hx
    have hkn := hs.known hx
    have hs := hs.member hx
    obtain ⟨o, rfl⟩ := type_object (valid_part h (.head _))
    have hr := hs.readable
    have hk := hs.kept
    have hreq := (valid_part h (.tail _ (.head _)))
    refine object_keeps ?_
    refine bind_keeps (req_keeps (g := (Json.ofEnum IdentityField.display)) (valid_required hreq (by simp)) fun x hx => ?_) fun _ f0 => ?_
    · have h := valid_property (valid_part h (.tail _ (.tail _ (.tail _ (.head _))))) (.head _) hx
      have hkn := hs.known hx
      have hs := hs.member hx
      exact enum_keeps (type_string (valid_part h (.head _))) fun s e => IdentityField.display_new (hkn.field rfl s e)
    refine bind_keeps (opt_keeps (g := Json.ofF32) fun x hx => ?_) fun _ f1 => ?_
    · have h := valid_property (valid_part h (.tail _ (.tail _ (.tail _ (.head _))))) (.tail _ (.head _)) hx
      have hkn := hs.known hx
      have hs := hs.member hx
      exact f32_keeps (type_number (valid_part h (.head _))) (fun e => hr.numbers _ (e ▸ hx)) hs (fun m e => hk.exact _ _ (e ▸ hx) (by simp))
    refine bind_keeps (opt_keeps (g := (Json.ofList Method.toJson)) fun x hx => ?_) fun _ f2 => ?_
    · have h := valid_property (valid_part h (.tail _ (.tail _ (.tail _ (.head _))))) (.tail _ (.tail _ (.head _))) hx
      have hkn := hs.known hx
      have hs := hs.member hx
      refine items_keeps (valid_part h (.head _)) (valid_part h (.tail _ (.head _))) hs fun l el y hy h hs => ?_
      obtain ⟨o, rfl⟩ := type_object (valid_part h (.head _))
      have hr := hs.readable
      have hk := hs.kept
      have hreq := (valid_part h (.tail _ (.head _)))
      refine object_keeps ?_
      refine bind_keeps (req_keeps (g := Json.str) (valid_required hreq (by simp)) fun x hx => ?_) fun _ f0 => ?_
      · have h := valid_property (valid_part h (.tail _ (.tail _ (.tail _ (.head _))))) (.head _) hx
        have hkn := hs.known hx
        have hs := hs.member hx
        exact string_keeps (type_string (valid_part h (.head _)))
      refine bind_keeps (req_keeps (g := Json.ofF32) (valid_required hreq (by simp)) fun x hx => ?_) fun _ f1 => ?_
      · have h := valid_property (valid_part h (.tail _ (.tail _ (.tail _ (.head _))))) (.tail _ (.head _)) hx
        have hkn := hs.known hx
        have hs := hs.member hx
        exact f32_keeps (type_number (valid_part h (.head _))) (fun e => hr.numbers _ (e ▸ hx)) hs (fun m e => hk.exact _ _ (e ▸ hx) (by simp))
      refine bind_keeps (opt_keeps (g := Json.str) fun x hx => ?_) fun _ f2 => ?_
      · have h := valid_property (valid_part h (.tail _ (.tail _ (.tail _ (.head _))))) (.tail _ (.tail _ (.head _))) hx
        have hkn := hs.known hx
        have hs := hs.member hx
        exact string_keeps (type_string h)
      exact ⟨_, rfl, same_mk hs.nodup (forall_head f0 (forall_head f1 (forall_head f2 nofun))) (all_written (ks := ["technique", "confidence", "value"]) (lost := []) (closed_only (valid_part h (.tail _ (.tail _ (.head _))))) no_members rfl (by decide +kernel))⟩
    refine bind_keeps (opt_keeps (g := (Json.ofList Json.str)) fun x hx => ?_) fun _ f3 => ?_
    · have h := valid_property (valid_part h (.tail _ (.tail _ (.tail _ (.head _))))) (.tail _ (.tail _ (.tail _ (.head _)))) hx
      have hkn := hs.known hx
      have hs := hs.member hx
      refine items_keeps (valid_part h (.head _)) (valid_part h (.tail _ (.tail _ (.head _)))) hs fun l el y hy h hs => ?_
      exact string_keeps ((anyOf_two h).elim (fun h => (type_string (valid_part (v15_ref_refType (valid_part (v15_ref_refLinkType h) (.head _))) (.head _)))) (fun h => (type_string (valid_part (v15_ref_bomLinkElementType h) (.head _)))))
    exact ⟨_, rfl, same_mk hs.nodup (forall_head f0 (forall_head f1 (forall_head f2 (forall_head f3 nofun)))) (all_written (ks := ["field", "confidence", "methods", "tools"]) (lost := []) (closed_only (valid_part h (.tail _ (.tail _ (.head _))))) no_members rfl (by decide +kernel))⟩
  exact ⟨_, rfl, same_mk hs.nodup (forall_head f0 (forall_head f1 (forall_head f2 (forall_head f3 (forall_head f4 nofun))))) (all_written (ks := ["licenses", "copyright", "occurrences", "callstack", "identity"]) (lost := []) (closed_only (valid_part h (.tail _ (.head _)))) no_members rfl (by decide +kernel))⟩

theorem v15k_attachment_Attachment {n : Nat} {j : Json} (h : Valid (schemaContext F .v1_5) Schema15.attachment j) (hs : Clean n j) :
    Keeps (Attachment.ofJson) Attachment.toJson j := by
  obtain ⟨o, rfl⟩ := type_object (valid_part h (.head _))
  have hr := hs.readable
  have hk := hs.kept
  have hreq := (valid_part h (.tail _ (.head _)))
  refine object_keeps ?_
  refine bind_keeps (req_keeps (g := Json.str) (valid_required hreq (by simp)) fun x hx => ?_) fun _ f0 => ?_
  · have h := valid_property (valid_part h (.tail _ (.tail _ (.tail _ (.head _))))) (.tail _ (.tail _ (.head _))) hx
    have hkn := hs.known hx
    have hs := hs.member hx
    exact string_keeps (type_string h)
  refine bind_keeps (opt_keeps (g := Json.str) fun x hx => ?_) fun _ f1 => ?_
  · have h := valid_property (valid_part h (.tail _ (.tail _ (.tail _ (.head _))))) (.head _) hx
    have hkn := hs.known hx
    have hs := hs.member hx
    exact string_keeps (type_string h)
  refine bind_keeps (opt_keeps (g := Json.str) fun x hx => ?_) fun _ f2 => ?_
  · have h := valid_property (valid_part h (.tail _ (.tail _ (.tail _ (.head _))))) (.tail _ (.head _)) hx
    have hkn := hs.known hx
    have hs := hs.member hx
    exact string_keeps (type_string (valid_part h (.head _)))
  exact ⟨_, rfl, same_mk hs.nodup (forall_head f0 (forall_head f1 (forall_head f2 nofun))) (all_written (ks := ["content", "contentType", "encoding"]) (lost := []) (closed_only (valid_part h (.tail _ (.tail _ (.head _))))) no_members rfl (by decide +kernel))⟩

theorem v15k_graphic_Graphic {n : Nat} {j : Json} (h : Valid (schemaContext F .v1_5) Schema15.graphic j) (hs : Clean n j) :
    Keeps (Graphic.ofJson) Graphic.toJson j := by
  obtain ⟨o, rfl⟩ := type_object (valid_part h (.head _))
  have hr := hs.readable
  have hk := hs.kept
  refine object_keeps ?_
  refine bind_keeps (opt_keeps (g := Json.str) fun x hx => ?_) fun _ f0 => ?_
  · have h := valid_property (valid_part h (.tail _ (.tail _ (.head _)))) (.head _) hx
    have hkn := hs.known hx
    have hs := hs.member hx
    exact string_keeps (type_string h)
  refine bind_keeps (opt_keeps (g := Attachment.toJson) fun x hx => ?_) fun _ f1 => ?_
  · have h := valid_property (valid_part h (.tail _ (.tail _ (.head _)))) (.tail _ (.head _)) hx
    have hkn := hs.known hx
    have hs := hs.member hx
    exact v15k_attachment_Attachment (v15_ref_attachment h) hs
  exact ⟨_, rfl, same_mk hs.nodup (forall_head f0 (forall_head f1 nofun)) (all_written (ks := ["name", "image"]) (lost := []) (closed_only (valid_part h (.tail _ (.head _)))) no_members rfl (by decide +kernel))⟩

theorem v15k_graphicsCollection_GraphicsCollection {n : Nat} {j : Json} (h : Valid (schemaContext F .v1_5) Schema15.graphicsCollection j) (hs : Clean n j) :
    Keeps (GraphicsCollection.ofJson) GraphicsCollection.toJson j := by
  obtain ⟨o, rfl⟩ := type_object (valid_part h (.head _))
  have hr := hs.readable
  have hk := hs.kept
  refine object_keeps ?_
  refine bind_keeps (opt_keeps (g := Json.str) fun x hx => ?_) fun _ f0 => ?_
  · have h := valid_property (valid_part h (.tail _ (.tail _ (.head _)))) (.head _) hx
    have hkn := hs.known hx
    have hs := hs.member hx
    exact string_keeps (type_string h)
  refine bind_keeps (opt_keeps (g := (Json.ofList Graphic.toJson)) fun x hx => ?_) fun _ f1 => ?_
  · have h := valid_property (valid_part h (.tail _ (.tail _ (.head _)))) (.tail _ (.head _)) hx
    have hkn := hs.known hx
    have hs := hs.member hx
    refine items_keeps (valid_part h (.head _)) (valid_part h (.tail _ (.head _))) hs fun l el y hy h hs => ?_
    exact v15k_graphic_Graphic (v15_ref_graphic h) hs
  exact ⟨_, rfl, same_mk hs.nodup (forall_head f0 (forall_head f1 nofun)) (all_written (ks := ["description", "collection"]) (lost := []) (closed_only (valid_part h (.tail _ (.head _)))) no_members rfl (by decide +kernel))⟩

theorem v15k_componentData_ComponentData {n : Nat} {j : Json} (h : Valid (schemaContext F .v1_5) Schema15.componentData j) (hs : Clean n j)
    (hb : ¬ Has "bom-ref" j) :
    Keeps (ComponentData.ofJson) ComponentData.toJson j := by
  obtain ⟨o, rfl⟩ := type_object (valid_part h (.head _))
  have hr := hs.readable
  have hk := hs.kept
  have hreq := (valid_part h (.tail _ (.head _)))
  refine object_keeps ?_
  refine bind_keeps (opt_keeps (g := Json.str) fun x hx => ?_) fun _ f0 => ?_
  · have := valid_closed (valid_part h (.tail _ (.tail _ (.head _)))) hx
    simp at this
  refine bind_keeps (req_keeps (g := (Json.ofEnum ComponentDataType.display)) (valid_required hreq (by simp)) fun x hx => ?_) fun _ f1 => ?_
  · have h := valid_property (valid_part h (.tail _ (.tail _ (.tail _ (.head _))))) (.tail _ (.head _)) hx
    have hkn := hs.known hx
    have hs := hs.member hx
    exact enum_keeps (type_string (valid_part h (.head _))) fun s e => ComponentDataType.display_new s
  refine bind_keeps (opt_keeps (g := Json.str) fun x hx => ?_) fun _ f2 => ?_
  · have h := valid_property (valid_part h (.tail _ (.tail _ (.tail _ (.head _))))) (.tail _ (.tail _ (.head _))) hx
    have hkn := hs.known hx
    have hs := hs.member hx
    exact string_keeps (type_string h)
  refine bind_keeps (opt_keeps (g := DataContents.toJson) fun x hx => ?_) fun _ f3 => ?_
  · have h := valid_property (valid_part h (.tail _ (.tail _ (.tail _ (.head _))))) (.tail _ (.tail _ (.tail _ (.head _)))) hx
    have hkn := hs.known hx
    have hs := hs.member hx
    obtain ⟨o, rfl⟩ := type_object (valid_part h (.head _))
    have hr := hs.readable
    have hk := hs.kept
    refine object_keeps ?_
    refine bind_keeps (opt_keeps (g := Attachment.toJson) fun x hx => ?_) fun _ f0 => ?_
    · have h := valid_property (valid_part h (.tail _ (.tail _ (.head _)))) (.head _) hx
      have hkn := hs.known hx
      have hs := hs.member hx
      exact v15k_attachment_Attachment (v15_ref_attachment h) hs
    refine bind_keeps (opt_keeps (g := Json.str) fun x hx => ?_) fun _ f1 => ?_
    · have h := valid_property (valid_part h (.tail _ (.tail _ (.head _)))) (.tail _ (.head _)) hx
      have hkn := hs.known hx
      have hs := hs.member hx
      exact string_keeps (type_string (valid_part h (.head _)))
    refine bind_keeps (opt_keeps (g := (Json.ofList Property.toJson)) fun x hx => ?_) fun _ f2 => ?_
    · have h := valid_property (valid_part h (.tail _ (.tail _ (.head _)))) (.tail _ (.tail _ (.head _))) hx
      have hkn := hs.known hx
      have hs := hs.member hx
      refine items_keeps (valid_part h (.head _)) (valid_part h (.tail _ (.head _))) hs fun l el y hy h hs => ?_
      exact v15k_property_Property (v15_ref_property h) hs (hr.named _ (el ▸ hx) _ hy) (fun p e => hk.properties _ _ (el ▸ hx) (by simp) p (e ▸ hy))
    exact ⟨_, rfl, same_mk hs.nodup (forall_head f0 (forall_head f1 (forall_head f2 nofun))) (all_written (ks := ["attachment", "url", "properties"]) (lost := []) (closed_only (valid_part h (.tail _ (.head _)))) no_members rfl (by decide +kernel))⟩
  refine bind_keeps (opt_keeps (g := Json.str) fun x hx => ?_) fun _ f4 => ?_
  · have h := valid_property (valid_part h (.tail _ (.tail _ (.tail _ (.head _))))) (.tail _ (.tail _ (.tail _ (.tail _ (.head _))))) hx
    have hkn := hs.known hx
    have hs := hs.member hx
    exact string_keeps (type_string (v15_ref_dataClassification h))
  refine bind_keeps (opt_keeps (g := Json.str) fun x hx => ?_) fun _ f5 => ?_
  · exact absurd hx (hr.sensitive _)
  refine bind_keeps (opt_keeps (g := GraphicsCollection.toJson) fun x hx => ?_) fun _ f6 => ?_
  · have h := valid_property (valid_part h (.tail _ (.tail _ (.tail _ (.head _))))) (.tail _ (.tail _ (.tail _ (.tail _ (.tail _ (.tail _ (.head _))))))) hx
    have hkn := hs.known hx
    have hs := hs.member hx
    exact v15k_graphicsCollection_GraphicsCollection (v15_ref_graphicsCollection h) hs
  refine bind_keeps (opt_keeps (g := Json.str) fun x hx => ?_) fun _ f7 => ?_
  · have h := valid_property (valid_part h (.tail _ (.tail _ (.tail _ (.head _))))) (.tail _ (.tail _ (.tail _ (.tail _ (.tail _ (.tail _ (.tail _ (.head _)))))))) hx
    have hkn := hs.known hx
    have hs := hs.member hx
    exact string_keeps (type_string h)
  refine bind_keeps (opt_keeps (g := DataGovernance.toJson) fun x hx => ?_) fun _ f8 => ?_
  · have h := valid_property (valid_part h (.tail _ (.tail _ (.tail _ (.head _))))) (.tail _ (.tail _ (.tail _ (.tail _ (.tail _ (.tail _ (.tail _ (.tail _ (.head _))))))))) hx
    replace h := (v15_ref_dataGovernance h)
    obtain ⟨p, rfl⟩ := type_object (valid_part h (.head _))
    have hgov := hr.governance ⟨_, _, rfl, (valid_required hreq (by simp : "type" ∈ _)).choose_spec⟩ p hx
    exact governance_keeps_v15 h (hs.member hx) hgov
  exact ⟨_, rfl, same_mk hs.nodup (forall_head f0 (forall_head f1 (forall_head f2 (forall_head f3 (forall_head f4 (forall_head f5 (forall_head f6 (forall_head f7 (forall_head f8 nofun))))))))) (all_written (ks := ["bomRef", "type", "name", "contents", "classification", "sensitiveData", "graphics", "description", "governance"]) (lost := ["bom-ref"]) (closed_only (valid_part h (.tail _ (.tail _ (.head _))))) (no_member (not_has hb) no_members) rfl (by decide +kernel))⟩

theorem v15k_inputOutputMLParameters_MLParameter {n : Nat} {j : Json} (h : Valid (schemaContext F .v1_5) Schema15.inputOutputMLParameters j) (hs : Clean n j) :
    Keeps (MLParameter.ofJson) MLParameter.toJson j := by
  obtain ⟨o, rfl⟩ := type_object (valid_part h (.head _))
  have hr := hs.readable
  have hk := hs.kept
  refine object_keeps ?_
  refine bind_keeps (opt_keeps (g := Json.str) fun x hx => ?_) fun _ f0 => ?_
  · have h := valid_property (valid_part h (.tail _ (.tail _ (.head _)))) (.head _) hx
    have hkn := hs.known hx
    have hs := hs.member hx
    exact string_keeps (type_string h)
  exact ⟨_, rfl, same_mk hs.nodup (forall_head f0 nofun) (all_written (ks := ["format"]) (lost := []) (closed_only (valid_part h (.tail _ (.head _)))) no_members rfl (by decide +kernel))⟩

theorem v15k_performanceMetric_PerformanceMetric {n : Nat} {j : Json} (h : Valid (schemaContext F .v1_5) Schema15.performanceMetric j) (hs : Clean n j) :
    Keeps (PerformanceMetric.ofJson) PerformanceMetric.toJson j := by
  obtain ⟨o, rfl⟩ := type_object (valid_part h (.head _))
  have hr := hs.readable
  have hk := hs.kept
  refine object_keeps ?_
  refine bind_keeps (opt_keeps (g := Json.str) fun x hx => ?_) fun _ f0 => ?_
  · have h := valid_property (valid_part h (.tail _ (.tail _ (.head _)))) (.head _) hx
    have hkn := hs.known hx
    have hs := hs.member hx
    exact string_keeps (type_string h)
  refine bind_keeps (opt_keeps (g := Json.str) fun x hx => ?_) fun _ f1 => ?_
  · have h := valid_property (valid_part h (.tail _ (.tail _ (.head _)))) (.tail _ (.head _)) hx
    have hkn := hs.known hx
    have hs := hs.member hx
    exact string_keeps (type_string h)
  refine bind_keeps (opt_keeps (g := Json.str) fun x hx => ?_) fun _ f2 => ?_
  · have h := valid_property (valid_part h (.tail _ (.tail _ (.head _)))) (.tail _ (.tail _ (.head _))) hx
    have hkn := hs.known hx
    have hs := hs.member hx
    exact string_keeps (type_string h)
  refine bind_keeps (opt_keeps (g := ConfidenceInterval.toJson) fun x hx => ?_) fun _ f3 => ?_
  · have := valid_closed (valid_part h (.tail _ (.head _))) hx
    simp at this
  exact ⟨_, rfl, same_mk hs.nodup (forall_head f0 (forall_head f1 (forall_head f2 (forall_head f3 nofun)))) (all_written (ks := ["type", "value", "slice", "confidence_interval"]) (lost := ["confidenceInterval"]) (closed_only (valid_part h (.tail _ (.head _)))) (no_member (hk.dropped _ (by simp)) no_members) rfl (by decide +kernel))⟩

theorem v15k_modelCard_ModelCard {n : Nat} {j : Json} (h : Valid (schemaContext F .v1_5) Schema15.modelCard j) (hs : Clean n j)
    (hb : ¬ Has "bom-ref" j) :
    Keeps (ModelCard.ofJson) ModelCard.toJson j := by
  obtain ⟨o, rfl⟩ := type_object (valid_part h (.head _))
  have hr := hs.readable
  have hk := hs.kept
  refine object_keeps ?_
  refine bind_keeps (opt_keeps (g := Json.str) fun x hx => ?_) fun _ f0 => ?_
  · have := valid_closed (valid_part h (.tail _ (.head _))) hx
    simp at this
  refine bind_keeps (opt_keeps (g := ModelParameters.toJson) fun x hx => ?_) fun _ f1 => ?_
  · have h := valid_property (valid_part h (.tail _ (.tail _ (.head _)))) (.tail _ (.head _)) hx
    have hkn := hs.known hx
    have hs := hs.member hx
    obtain ⟨o, rfl⟩ := type_object (valid_part h (.head _))
    have hr := hs.readable
    have hk := hs.kept
    refine object_keeps ?_
    refine bind_keeps (opt_keeps (g := ModelParametersApproach.toJson) fun x hx => ?_) fun _ f0 => ?_
    · have h := valid_property (valid_part h (.tail _ (.tail _ (.head _)))) (.head _) hx
      have hkn := hs.known hx
      have hs := hs.member hx
      obtain ⟨o, rfl⟩ := type_object (valid_part h (.head _))
      have hr := hs.readable
      have hk := hs.kept
      refine object_keeps ?_
      refine bind_keeps (opt_keeps (g := (Json.ofEnum ApproachType.display)) fun x hx => ?_) fun _ f0 => ?_
      · have h := valid_property (valid_part h (.tail _ (.tail _ (.head _)))) (.head _) hx
        have hkn := hs.known hx
        have hs := hs.member hx
        exact enum_keeps (type_string (valid_part h (.head _))) fun s e => ApproachType.display_new s
      exact ⟨_, rfl, same_mk hs.nodup (forall_head f0 nofun) (all_written (ks := ["type"]) (lost := []) (closed_only (valid_part h (.tail _ (.head _)))) no_members rfl (by decide +kernel))⟩
    refine bind_keeps (opt_keeps (g := Json.str) fun x hx => ?_) fun _ f1 => ?_
    · have h := valid_property (valid_part h (.tail _ (.tail _ (.head _)))) (.tail _ (.head _)) hx
      have hkn := hs.known hx
      have hs := hs.member hx
      exact string_keeps (type_string h)
    refine bind_keeps (opt_keeps (g := Json.str) fun x hx => ?_) fun _ f2 => ?_
    · have h := valid_property (valid_part h (.tail _ (.tail _ (.head _)))) (.tail _ (.tail _ (.head _))) hx
      have hkn := hs.known hx
      have hs := hs.member hx
      exact string_keeps (type_string h)
    refine bind_keeps (opt_keeps (g := Json.str) fun x hx => ?_) fun _ f3 => ?_
    · have h := valid_property (valid_part h (.tail _ (.tail _ (.head _)))) (.tail _ (.tail _ (.tail _ (.head _)))) hx
      have hkn := hs.known hx
      have hs := hs.member hx
      exact string_keeps (type_string h)
    refine bind_keeps (opt_keeps (g := (Json.ofList Dataset.toJson)) fun x hx => ?_) fun _ f4 => ?_
    · have h := valid_property (valid_part h (.tail _ (.tail _ (.head _)))) (.tail _ (.tail _ (.tail _ (.tail _ (.head _))))) hx
      have hkn := hs.known hx
      have hs := hs.member hx
      refine items_keeps (valid_part h (.head _)) (valid_part h (.tail _ (.head _))) hs fun l el y hy h hs => ?_
      have hh := hr.datasets _ (el ▸ hx) _ hy
      have hc : Keeps ComponentData.ofJson ComponentData.toJson y := by
        rcases oneOf_two h with h | h
        · exact v15k_componentData_ComponentData (v15_ref_componentData h) hs (hk.noRefs _ _ (el ▸ hx) (by simp) _ hy)
        · obtain ⟨o, rfl⟩ := type_object (valid_part h (.head _))
          obtain ⟨z, hz⟩ := hh.lookup
          have := valid_closed (valid_part h (.tail _ (.head _))) hz
          simp at this
      obtain ⟨hn, z, hz, hsm⟩ := hc
      exact ⟨hn, .component z, by simp only [Dataset.ofJson, hz], hsm⟩
    refine bind_keeps (opt_keeps (g := (Json.ofList MLParameter.toJson)) fun x hx => ?_) fun _ f5 => ?_
    · have h := valid_property (valid_part h (.tail _ (.tail _ (.head _)))) (.tail _ (.tail _ (.tail _ (.tail _ (.tail _ (.head _)))))) hx
      have hkn := hs.known hx
      have hs := hs.member hx
      refine items_keeps (valid_part h (.head _)) (valid_part h (.tail _ (.head _))) hs fun l el y hy h hs => ?_
      exact v15k_inputOutputMLParameters_MLParameter (v15_ref_inputOutputMLParameters h) hs
    refine bind_keeps (opt_keeps (g := (Json.ofList MLParameter.toJson)) fun x hx => ?_) fun _ f6 => ?_
    · have h := valid_property (valid_part h (.tail _ (.tail _ (.head _)))) (.tail _ (.tail _ (.tail _ (.tail _ (.tail _ (.tail _ (.head _))))))) hx
      have hkn := hs.known hx
      have hs := hs.member hx
      refine items_keeps (valid_part h (.head _)) (valid_part h (.tail _ (.head _))) hs fun l el y hy h hs => ?_
      exact v15k_inputOutputMLParameters_MLParameter (v15_ref_inputOutputMLParameters h) hs
    exact ⟨_, rfl, same_mk hs.nodup (forall_head f0 (forall_head f1 (forall_head f2 (forall_head f3 (forall_head f4 (forall_head f5 (forall_head f6 nofun))))))) (all_written (ks := ["approach", "task", "architectureFamily", "modelArchitecture", "datasets", "inputs", "outputs"]) (lost := []) (closed_only (valid_part h (.tail _ (.head _)))) no_members rfl (by decide +kernel))⟩
  refine bind_keeps (opt_keeps (g := QuantitativeAnalysis.toJson) fun x hx => ?_) fun _ f2 => ?_
  · have h := valid_property (valid_part h (.tail _ (.tail _ (.head _)))) (.tail _ (.tail _ (.head _))) hx
    have hkn := hs.known hx
    have hs := hs.member hx
    obtain ⟨o, rfl⟩ := type_object (valid_part h (.head _))
    have hr := hs.readable
    have hk := hs.kept
    refine object_keeps ?_
    refine bind_keeps (opt_keeps (g := (Json.ofList PerformanceMetric.toJson)) fun x hx => ?_) fun _ f0 => ?_
    · have h := valid_property (valid_part h (.tail _ (.tail _ (.head _)))) (.head _) hx
      have hkn := hs.known hx
      have hs := hs.member hx
      refine items_keeps (valid_part h (.head _)) (valid_part h (.tail _ (.head _))) hs fun l el y hy h hs => ?_
      exact v15k_performanceMetric_PerformanceMetric (v15_ref_performanceMetric h) hs
    refine bind_keeps (opt_keeps (g := GraphicsCollection.toJson) fun x hx => ?_) fun _ f1 => ?_
    · have h := valid_property (valid_part h (.tail _ (.tail _ (.head _)))) (.tail _ (.head _)) hx
      have hkn := hs.known hx
      have hs := hs.member hx
      exact v15k_graphicsCollection_GraphicsCollection (v15_ref_graphicsCollection h) hs
    exact ⟨_, rfl, same_mk hs.nodup (forall_head f0 (forall_head f1 nofun)) (all_written (ks := ["performanceMetrics", "graphics"]) (lost := []) (closed_only (valid_part h (.tail _ (.head _)))) no_members rfl (by decide +kernel))⟩
  refine bind_keeps (opt_keeps (g := Considerations.toJson) fun x hx => ?_) fun _ f3 => ?_
  · have h := valid_property (valid_part h (.tail _ (.tail _ (.head _)))) (.tail _ (.tail _ (.tail _ (.head _)))) hx
    have hkn := hs.known hx
    have hs := hs.member hx
    obtain rfl := hk.considerations _ hx
    exact ⟨nofun, {}, rfl, .obj (by simp) nofun⟩
  refine bind_keeps (opt_keeps (g := (Json.ofList Property.toJson)) fun x hx => ?_) fun _ f4 => ?_
  · have h := valid_property (valid_part h (.tail _ (.tail _ (.head _)))) (.tail _ (.tail _ (.tail _ (.tail _ (.head _))))) hx
    have hkn := hs.known hx
    have hs := hs.member hx
    refine items_keeps (valid_part h (.head _)) (valid_part h (.tail _ (.head _))) hs fun l el y hy h hs => ?_
    exact v15k_property_Property (v15_ref_property h) hs (hr.named _ (el ▸ hx) _ hy) (fun p e => hk.properties _ _ (el ▸ hx) (by simp) p (e ▸ hy))
  exact ⟨_, rfl, same_mk hs.nodup (forall_head f0 (forall_head f1 (forall_head f2 (forall_head f3 (forall_head f4 nofun))))) (all_written (ks := ["bomRef", "modelParameters", "quantitativeAnalysis", "considerations", "properties"]) (lost := ["bom-ref"]) (closed_only (valid_part h (.tail _ (.head _)))) (no_member (not_has hb) no_members) rfl (by decide +kernel))⟩

theorem v15k_component_Component_n (n : Nat) : ∀ {j : Json}, Valid (schemaContext F .v1_5) Schema15.component j → Clean n j →
    Keeps (Component.ofJsonN .v1_5 n) (Component.toJson .v1_5) j := by
  induction n with
  | zero =>
    intro j h hs
    obtain ⟨o, rfl⟩ := type_object (valid_part h (.head _))
    cases hs.sane.within
  | succ n ih =>
    intro j h hs
    show Keeps (Component.ofJsonWith (Component.ofJsonN .v1_5 n) .v1_5) (Component.toJson .v1_5) j
    obtain ⟨o, rfl⟩ := type_object (valid_part h (.head _))
    have hr := hs.readable
    have hk := hs.kept
    have hreq := (valid_part h (.tail _ (.head _)))
    refine object_keeps ?_
    refine bind_keeps (req_keeps (g := (Json.ofEnum Classification.display)) (valid_required hreq (by simp)) fun x hx => ?_) fun _ f0 => ?_
    · have h := valid_property (valid_part h (.tail _ (.tail _ (.tail _ (.head _))))) (.head _) hx
      have hkn := hs.known hx
      have hs := hs.down hx
      exact enum_keeps (type_string (valid_part h (.head _))) fun s e => Classification.display_new s
    refine bind_keeps (opt_keeps (g := Json.str) fun x hx => ?_) fun _ f1 => ?_
    · have h := valid_property (valid_part h (.tail _ (.tail _ (.tail _ (.head _))))) (.tail _ (.head _)) hx
      have hkn := hs.known hx
      have hs := hs.down hx
      exact string_keeps (type_string (valid_part h (.head _)))
    refine bind_keeps (opt_keeps (g := Json.str) fun x hx => ?_) fun _ f2 => ?_
    · have h := valid_property (valid_part h (.tail _ (.tail _ (.tail _ (.head _))))) (.tail _ (.tail _ (.head _))) hx
      have hkn := hs.known hx
      have hs := hs.down hx
      exact string_keeps (type_string (valid_part (v15_ref_refType h) (.head _)))
    refine bind_keeps (opt_keeps (g := OrganizationalEntity.toJson) fun x hx => ?_) fun _ f3 => ?_
    · have h := valid_property (valid_part h (.tail _ (.tail _ (.tail _ (.head _))))) (.tail _ (.tail _ (.tail _ (.head _)))) hx
      have hkn := hs.known hx
      have hs := hs.down hx
      exact v15k_organizationalEntity_OrganizationalEntity (v15_ref_organizationalEntity h) hs (hk.noRef _ _ hx (by simp))
    refine bind_keeps (opt_keeps (g := Json.str) fun x hx => ?_) fun _ f4 => ?_
    · have h := valid_property (valid_part h (.tail _ (.tail _ (.tail _ (.head _))))) (.tail _ (.tail _ (.tail _ (.tail _ (.head _))))) hx
      have hkn := hs.known hx
      have hs := hs.down hx
      exact string_keeps (type_string h)
    refine bind_keeps (opt_keeps (g := Json.str) fun x hx => ?_) fun _ f5 => ?_
    · have h := valid_property (valid_part h (.tail _ (.tail _ (.tail _ (.head _))))) (.tail _ (.tail _ (.tail _ (.tail _ (.tail _ (.head _)))))) hx
      have hkn := hs.known hx
      have hs := hs.down hx
      exact string_keeps (type_string h)
    refine bind_keeps (opt_keeps (g := Json.str) fun x hx => ?_) fun _ f6 => ?_
    · have h := valid_property (valid_part h (.tail _ (.tail _ (.tail _ (.head _))))) (.tail _ (.tail _ (.tail _ (.tail _ (.tail _ (.tail _ (.head _))))))) hx
      have hkn := hs.known hx
      have hs := hs.down hx
      exact string_keeps (type_string h)
    refine bind_keeps (req_keeps (g := Json.str) (valid_required hreq (by simp)) fun x hx => ?_) fun _ f7 => ?_
    · have h := valid_property (valid_part h (.tail _ (.tail _ (.tail _ (.head _))))) (.tail _ (.tail _ (.tail _ (.tail _ (.tail _ (.tail _ (.tail _ (.head _)))))))) hx
      have hkn := hs.known hx
      have hs := hs.down hx
      exact string_keeps (type_string h)
    refine bind_keeps (opt_keeps (g := Json.str) fun x hx => ?_) fun _ f8 => ?_
    · have h := valid_property (valid_part h (.tail _ (.tail _ (.tail _ (.head _))))) (.tail _ (.tail _ (.tail _ (.tail _ (.tail _ (.tail _ (.tail _ (.tail _ (.head _))))))))) hx
      have hkn := hs.known hx
      have hs := hs.down hx
      exact string_keeps (type_string h)
    refine bind_keeps (opt_keeps (g := Json.str) fun x hx => ?_) fun _ f9 => ?_
    · have h := valid_property (valid_part h (.tail _ (.tail _ (.tail _ (.head _))))) (.tail _ (.tail _ (.tail _ (.tail _ (.tail _ (.tail _ (.tail _ (.tail _ (.tail _ (.head _)))))))))) hx
      have hkn := hs.known hx
      have hs := hs.down hx
      exact string_keeps (type_string h)
    refine bind_keeps (opt_keeps (g := (Json.ofEnum Scope.display)) fun x hx => ?_) fun _ f10 => ?_
    · have h := valid_property (valid_part h (.tail _ (.tail _ (.tail _ (.head _))))) (.tail _ (.tail _ (.tail _ (.tail _ (.tail _ (.tail _ (.tail _ (.tail _ (.tail _ (.tail _ (.head _))))))))))) hx
      have hkn := hs.known hx
      have hs := hs.down hx
      exact enum_keeps (type_string (valid_part h (.head _))) fun s e => Scope.display_new s
    refine bind_keeps (opt_keeps (g := (Json.ofList Hash.toJson)) fun x hx => ?_) fun _ f11 => ?_
    · have h := valid_property (valid_part h (.tail _ (.tail _ (.tail _ (.head _))))) (.tail _ (.tail _ (.tail _ (.tail _ (.tail _ (.tail _ (.tail _ (.tail _ (.tail _ (.tail _ (.tail _ (.head _)))))))))))) hx
      have hkn := hs.known hx
      have hs := hs.down hx
      refine items_keeps (valid_part h (.head _)) (valid_part h (.tail _ (.head _))) hs fun l el y hy h hs => ?_
      exact v15k_hash_Hash (v15_ref_hash h) hs
    refine bind_keeps (opt_keeps (g := (Licenses.toJson .v1_5)) fun x hx => ?_) fun _ f12 => ?_
    · have h := valid_property (valid_part h (.tail _ (.tail _ (.tail _ (.head _))))) (.tail _ (.tail _ (.tail _ (.tail _ (.tail _ (.tail _ (.tail _ (.tail _ (.tail _ (.tail _ (.tail _ (.tail _ (.head _))))))))))))) hx
      have hkn := hs.known hx
      have hs := hs.down hx
      exact v15k_licenseChoice_Licenses (v15_ref_licenseChoice h) hs fun l e => hk.noRefs _ l (e ▸ hx) (by simp)
    refine bind_keeps (opt_keeps (g := Json.str) fun x hx => ?_) fun _ f13 => ?_
    · have h := valid_property (valid_part h (.tail _ (.tail _ (.tail _ (.head _))))) (.tail _ (.tail _ (.tail _ (.tail _ (.tail _ (.tail _ (.tail _ (.tail _ (.tail _ (.tail _ (.tail _ (.tail _ (.tail _ (.head _)))))))))))))) hx
      have hkn := hs.known hx
      have hs := hs.down hx
      exact string_keeps (type_string h)
    refine bind_keeps (opt_keeps (g := Json.str) fun x hx => ?_) fun _ f14 => ?_
    · have h := valid_property (valid_part h (.tail _ (.tail _ (.tail _ (.head _))))) (.tail _ (.tail _ (.tail _ (.tail _ (.tail _ (.tail _ (.tail _ (.tail _ (.tail _ (.tail _ (.tail _ (.tail _ (.tail _ (.tail _ (.head _))))))))))))))) hx
      have hkn := hs.known hx
      have hs := hs.down hx
      exact string_keeps (type_string h)
    refine bind_keeps (opt_keeps (g := Json.str) fun x hx => ?_) fun _ f15 => ?_
    · have h := valid_property (valid_part h (.tail _ (.tail _ (.tail _ (.head _))))) (.tail _ (.tail _ (.tail _ (.tail _ (.tail _ (.tail _ (.tail _ (.tail _ (.tail _ (.tail _ (.tail _ (.tail _ (.tail _ (.tail _ (.tail _ (.head _)))))))))))))))) hx
      have hkn := hs.known hx
      have hs := hs.down hx
      exact string_keeps (type_string h)
    refine bind_keeps (opt_keeps (g := Swid.toJson) fun x hx => ?_) fun _ f16 => ?_
    · have h := valid_property (valid_part h (.tail _ (.tail _ (.tail _ (.head _))))) (.tail _ (.tail _ (.tail _ (.tail _ (.tail _ (.tail _ (.tail _ (.tail _ (.tail _ (.tail _ (.tail _ (.tail _ (.tail _ (.tail _ (.tail _ (.tail _ (.head _))))))))))))))))) hx
      have hkn := hs.known hx
      have hs := hs.down hx
      exact v15k_swid_Swid (v15_ref_swid h) hs
    refine bind_keeps (opt_keeps (g := Json.bool) fun x hx => ?_) fun _ f17 => ?_
    · have h := valid_property (valid_part h (.tail _ (.tail _ (.tail _ (.head _))))) (.tail _ (.tail _ (.tail _ (.tail _ (.tail _ (.tail _ (.tail _ (.tail _ (.tail _ (.tail _ (.tail _ (.tail _ (.tail _ (.tail _ (.tail _ (.tail _ (.tail _ (.head _)))))))))))))))))) hx
      have hkn := hs.known hx
      have hs := hs.down hx
      exact boolean_keeps h
    refine bind_keeps (opt_keeps (g := (Pedigree.toJson .v1_5)) fun x hx => ?_) fun _ f18 => ?_
    · have h := valid_property (valid_part h (.tail _ (.tail _ (.tail _ (.head _))))) (.tail _ (.tail _ (.tail _ (.tail _ (.tail _ (.tail _ (.tail _ (.tail _ (.tail _ (.tail _ (.tail _ (.tail _ (.tail _ (.tail _ (.tail _ (.tail _ (.tail _ (.tail _ (.head _))))))))))))))))))) hx
      have hkn := hs.known hx
      have hs := hs.down hx
      obtain ⟨o, rfl⟩ := type_object (valid_part h (.head _))
      have hr := hs.readable
      have hk := hs.kept
      refine object_keeps ?_
      refine bind_keeps (opt_keeps (g := (Json.ofList (Component.toJson .v1_5))) fun x hx => ?_) fun _ f0 => ?_
      · have h := valid_property (valid_part h (.tail _ (.tail _ (.head _)))) (.head _) hx
        have hkn := hs.known hx
        have hs := hs.member hx
        refine items_keeps (valid_part h (.head _)) (valid_part h (.tail _ (.head _))) hs fun l el y hy h hs => ?_
        exact ih (v15_ref_component h) hs
      refine bind_keeps (opt_keeps (g := (Json.ofList (Component.toJson .v1_5))) fun x hx => ?_) fun _ f1 => ?_
      · have h := valid_property (valid_part h (.tail _ (.tail _ (.head _)))) (.tail _ (.head _)) hx
        have hkn := hs.known hx
        have hs := hs.member hx
        refine items_keeps (valid_part h (.head _)) (valid_part h (.tail _ (.head _))) hs fun l el y hy h hs => ?_
        exact ih (v15_ref_component h) hs
      refine bind_keeps (opt_keeps (g := (Json.ofList (Component.toJson .v1_5))) fun x hx => ?_) fun _ f2 => ?_
      · have h := valid_property (valid_part h (.tail _ (.tail _ (.head _)))) (.tail _ (.tail _ (.head _))) hx
        have hkn := hs.known hx
        have hs := hs.member hx
        refine items_keeps (valid_part h (.head _)) (valid_part h (.tail _ (.head _))) hs fun l el y hy h hs => ?_
        exact ih (v15_ref_component h) hs
      refine bind_keeps (opt_keeps (g := (Json.ofList Commit.toJson)) fun x hx => ?_) fun _ f3 => ?_
      · have h := valid_property (valid_part h (.tail _ (.tail _ (.head _)))) (.tail _ (.tail _ (.tail _ (.head _)))) hx
        have hkn := hs.known hx
        have hs := hs.member hx
        refine items_keeps (valid_part h (.head _)) (valid_part h (.tail _ (.head _))) hs fun l el y hy h hs => ?_
        exact v15k_commit_Commit (v15_ref_commit h) hs
      refine bind_keeps (opt_keeps (g := (Json.ofList Patch.toJson)) fun x hx => ?_) fun _ f4 => ?_
      · have h := valid_property (valid_part h (.tail _ (.tail _ (.head _)))) (.tail _ (.tail _ (.tail _ (.tail _ (.head _))))) hx
        have hkn := hs.known hx
        have hs := hs.member hx
        refine items_keeps (valid_part h (.head _)) (valid_part h (.tail _ (.head _))) hs fun l el y hy h hs => ?_
        exact v15k_patch_Patch (v15_ref_patch h) hs
      refine bind_keeps (opt_keeps (g := Json.str) fun x hx => ?_) fun _ f5 => ?_
      · have h := valid_property (valid_part h (.tail _ (.tail _ (.head _)))) (.tail _ (.tail _ (.tail _ (.tail _ (.tail _ (.head _)))))) hx
        have hkn := hs.known hx
        have hs := hs.member hx
        exact string_keeps (type_string h)
      refine ⟨_, rfl, ?_⟩
      rw [Pedigree.toJson_eq]
      exact same_mk hs.nodup (forall_head f0 (forall_head f1 (forall_head f2 (forall_head f3 (forall_head f4 (forall_head f5 nofun)))))) (all_written (ks := ["ancestors", "descendants", "variants", "commits", "patches", "notes"]) (lost := []) (closed_only (valid_part h (.tail _ (.head _)))) no_members rfl (by decide +kernel))
    refine bind_keeps (opt_keeps (g := (Json.ofList ExternalReference.toJson)) fun x hx => ?_) fun _ f19 => ?_
    · have h := valid_property (valid_part h (.tail _ (.tail _ (.tail _ (.head _))))) (.tail _ (.tail _ (.tail _ (.tail _ (.tail _ (.tail _ (.tail _ (.tail _ (.tail _ (.tail _ (.tail _ (.tail _ (.tail _ (.tail _ (.tail _ (.tail _ (.tail _ (.tail _ (.tail _ (.head _)))))))))))))))))))) hx
      have hkn := hs.known hx
      have hs := hs.down hx
      refine items_keeps (valid_part h (.head _)) (valid_part h (.tail _ (.head _))) hs fun l el y hy h hs => ?_
      exact v15k_externalReference_ExternalReference (v15_ref_externalReference h) hs
    refine bind_keeps (opt_keeps (g := (Json.ofList Property.toJson)) fun x hx => ?_) fun _ f20 => ?_
    · have h := valid_property (valid_part h (.tail _ (.tail _ (.tail _ (.head _))))) (.tail _ (.tail _ (.tail _ (.tail _ (.tail _ (.tail _ (.tail _ (.tail _ (.tail _ (.tail _ (.tail _ (.tail _ (.tail _ (.tail _ (.tail _ (.tail _ (.tail _ (.tail _ (.tail _ (.tail _ (.tail _ (.tail _ (.tail _ (.tail _ (.tail _ (.head _)))))))))))))))))))))))))) hx
      have hkn := hs.known hx
      have hs := hs.down hx
      refine items_keeps (valid_part h (.head _)) (valid_part h (.tail _ (.head _))) hs fun l el y hy h hs => ?_
      exact v15k_property_Property (v15_ref_property h) hs (hr.named _ (el ▸ hx) _ hy) (fun p e => hk.properties _ _ (el ▸ hx) (by simp) p (e ▸ hy))
    refine bind_keeps (opt_keeps (g := (Json.ofList (Component.toJson .v1_5))) fun x hx => ?_) fun _ f21 => ?_
    · have h := valid_property (valid_part h (.tail _ (.tail _ (.tail _ (.head _))))) (.tail _ (.tail _ (.tail _ (.tail _ (.tail _ (.tail _ (.tail _ (.tail _ (.tail _ (.tail _ (.tail _ (.tail _ (.tail _ (.tail _ (.tail _ (.tail _ (.tail _ (.tail _ (.tail _ (.tail _ (.head _))))))))))))))))))))) hx
      have hkn := hs.known hx
      have hs := hs.down hx
      refine items_keeps (valid_part h (.head _)) (valid_part h (.tail _ (.tail _ (.head _)))) hs fun l el y hy h hs => ?_
      exact ih (v15_ref_component h) hs
    refine bind_keeps (opt_keeps (g := (ComponentEvidence.toJson .v1_5)) fun x hx => ?_) fun _ f22 => ?_
    · have h := valid_property (valid_part h (.tail _ (.tail _ (.tail _ (.head _))))) (.tail _ (.tail _ (.tail _ (.tail _ (.tail _ (.tail _ (.tail _ (.tail _ (.tail _ (.tail _ (.tail _ (.tail _ (.tail _ (.tail _ (.tail _ (.tail _ (.tail _ (.tail _ (.tail _ (.tail _ (.tail _ (.head _)))))))))))))))))))))) hx
      have hkn := hs.known hx
      have hs := hs.down hx
      exact v15k_componentEvidence_ComponentEvidence (v15_ref_componentEvidence h) hs
    refine bind_keeps (opt_keeps (g := Signature.toJson) fun x hx => ?_) fun _ f23 => ?_
    · have h := valid_property (valid_part h (.tail _ (.tail _ (.tail _ (.head _))))) (.tail _ (.tail _ (.tail _ (.tail _ (.tail _ (.tail _ (.tail _ (.tail _ (.tail _ (.tail _ (.tail _ (.tail _ (.tail _ (.tail _ (.tail _ (.tail _ (.tail _ (.tail _ (.tail _ (.tail _ (.tail _ (.tail _ (.tail _ (.tail _ (.tail _ (.tail _ (.head _))))))))))))))))))))))))))) hx
      have hkn := hs.known hx
      have hs := hs.down hx
      replace h := (v15_ref_signature h)
      exact signature_keeps (v15_ref_jsf_signature h) hs (hr.signature _ hx) (fun p e => hk.signature p (e ▸ hx))
    refine bind_keeps (opt_keeps (g := ModelCard.toJson) fun x hx => ?_) fun _ f24 => ?_
    · have h := valid_property (valid_part h (.tail _ (.tail _ (.tail _ (.head _))))) (.tail _ (.tail _ (.tail _ (.tail _ (.tail _ (.tail _ (.tail _ (.tail _ (.tail _ (.tail _ (.tail _ (.tail _ (.tail _ (.tail _ (.tail _ (.tail _ (.tail _ (.tail _ (.tail _ (.tail _ (.tail _ (.tail _ (.tail _ (.head _)))))))))))))))))))))))) hx
      have hkn := hs.known hx
      have hs := hs.down hx
      exact v15k_modelCard_ModelCard (v15_ref_modelCard h) hs (hk.noRef _ _ hx (by simp))
    refine bind_keeps (opt_keeps (g := ComponentData.toJson) fun x hx => ?_) fun _ f25 => ?_
    · have h := valid_property (valid_part h (.tail _ (.tail _ (.tail _ (.head _))))) (.tail _ (.tail _ (.tail _ (.tail _ (.tail _ (.tail _ (.tail _ (.tail _ (.tail _ (.tail _ (.tail _ (.tail _ (.tail _ (.tail _ (.tail _ (.tail _ (.tail _ (.tail _ (.tail _ (.tail _ (.tail _ (.tail _ (.tail _ (.tail _ (.head _))))))))))))))))))))))))) hx
      have hkn := hs.known hx
      have hs := hs.down hx
      obtain ⟨l, rfl⟩ := type_array (valid_part h (.head _))
      exact absurd hx (hr.data ⟨_, _, rfl, (valid_required hreq (by simp : "type" ∈ _)).choose_spec⟩ l)
    refine ⟨_, rfl, ?_⟩
    rw [Component.toJson_eq]
    exact same_mk hs.nodup (forall_head f0 (forall_head f1 (forall_head f2 (forall_head f3 (forall_head f4 (forall_head f5 (forall_head f6 (forall_head f7 (forall_head f8 (forall_head f9 (forall_head f10 (forall_head f11 (forall_head f12 (forall_head f13 (forall_head f14 (forall_head f15 (forall_head f16 (forall_head f17 (forall_head f18 (forall_head f19 (forall_head f20 (forall_head f21 (forall_head f22 (forall_head f23 (forall_head f24 (forall_head f25 nofun)))))))))))))))))))))))))) (all_written (ks := ["type", "mime-type", "bom-ref", "supplier", "author", "publisher", "group", "name", "version", "description", "scope", "hashes", "licenses", "copyright", "cpe", "purl", "swid", "modified", "pedigree", "externalReferences", "properties", "components", "evidence", "signature", "modelCard", "data"]) (lost := ["releaseNotes"]) (closed_only (valid_part h (.tail _ (.tail _ (.head _))))) (no_member (hk.dropped _ (by simp)) no_members) rfl (by decide +kernel))

theorem v15k_component_Component {j : Json} (h : Valid (schemaContext F .v1_5) Schema15.component j) (hs : Clean ReadLimit.limit j) :
    Keeps (Component.ofJson .v1_5) (Component.toJson .v1_5) j := v15k_component_Component_n _ h hs

theorem v15k_metadata_Metadata {j : Json} (h : Valid (schemaContext F .v1_5) Schema15.metadata j) (hs : Clean ReadLimit.limit j) :
    Keeps (Metadata.ofJson .v1_5) (Metadata.toJson .v1_5) j := by
  obtain ⟨o, rfl⟩ := type_object (valid_part h (.head _))
  have hr := hs.readable
  have hk := hs.kept
  refine object_keeps ?_
  refine bind_keeps (opt_keeps (g := Json.str) fun x hx => ?_) fun _ f0 => ?_
  · have h := valid_property (valid_part h (.tail _ (.tail _ (.head _)))) (.head _) hx
    have hkn := hs.known hx
    have hs := hs.member hx
    exact string_keeps (type_string (valid_part h (.head _)))
  refine bind_keeps (opt_keeps (g := (Tools.toJson .v1_5)) fun x hx => ?_) fun _ f1 => ?_
  · have h := valid_property (valid_part h (.tail _ (.tail _ (.head _)))) (.tail _ (.tail _ (.head _))) hx
    have hkn := hs.known hx
    have hs := hs.member hx
    rcases oneOf_two h with h | h
    · have ho : ∃ o, x = .obj o := type_object (valid_part h (.head _))
      have ho : Keeps (Tools.objectOfJson .v1_5) (Tools.toJson .v1_5) x := by
        obtain ⟨o, rfl⟩ := type_object (valid_part h (.head _))
        have hr := hs.readable
        have hk := hs.kept
        refine object_keeps ?_
        refine bind_keeps (opt_keeps (g := (Json.ofList (Service.toJson .v1_5))) fun x hx => ?_) fun _ f0 => ?_
        · have h := valid_property (valid_part h (.tail _ (.tail _ (.head _)))) (.tail _ (.head _)) hx
          have hkn := hs.known hx
          have hs := hs.member hx
          refine items_keeps (valid_part h (.head _)) (valid_part h (.tail _ (.tail _ (.head _)))) hs fun l el y hy h hs => ?_
          exact v15k_service_Service (v15_ref_service h) hs
        refine bind_keeps (opt_keeps (g := (Json.ofList (Component.toJson .v1_5))) fun x hx => ?_) fun _ f1 => ?_
        · have h := valid_property (valid_part h (.tail _ (.tail _ (.head _)))) (.head _) hx
          have hkn := hs.known hx
          have hs := hs.member hx
          refine items_keeps (valid_part h (.head _)) (valid_part h (.tail _ (.tail _ (.head _)))) hs fun l el y hy h hs => ?_
          exact v15k_component_Component (v15_ref_component h) hs
        exact ⟨_, rfl, same_mk hs.nodup (forall_head f0 (forall_head f1 nofun)) (all_written (ks := ["services", "components"]) (lost := []) (closed_only (valid_part h (.tail _ (.head _)))) no_members rfl (by decide +kernel))⟩
      obtain ⟨o, rfl⟩ := type_object (valid_part h (.head _))
      exact ⟨nofun, ho.2⟩
    · have hl : Keeps (Json.array (Tool.ofJson .v1_5)) (Json.ofList (Tool.toJson .v1_5)) _ := items_keeps (valid_part h (.head _)) (valid_part h (.tail _ (.head _))) hs fun l el y hy h hs => v15k_tool_Tool (v15_ref_tool h) hs
      obtain ⟨hn, z, hz, hsm⟩ := hl
      exact ⟨hn, .list z, by simp only [Tools.ofJson, hz], hsm⟩
  refine bind_keeps (opt_keeps (g := (Json.ofList OrganizationalContact.toJson)) fun x hx => ?_) fun _ f2 => ?_
  · have h := valid_property (valid_part h (.tail _ (.tail _ (.head _)))) (.tail _ (.tail _ (.tail _ (.head _)))) hx
    have hkn := hs.known hx
    have hs := hs.member hx
    refine items_keeps (valid_part h (.head _)) (valid_part h (.tail _ (.head _))) hs fun l el y hy h hs => ?_
    exact v15k_organizationalContact_OrganizationalContact (v15_ref_organizationalContact h) hs (hk.noRefs _ _ (el ▸ hx) (by simp) _ hy)
  refine bind_keeps (opt_keeps (g := (Component.toJson .v1_5)) fun x hx => ?_) fun _ f3 => ?_
  · have h := valid_property (valid_part h (.tail _ (.tail _ (.head _)))) (.tail _ (.tail _ (.tail _ (.tail _ (.head _))))) hx
    have hkn := hs.known hx
    have hs := hs.member hx
    exact v15k_component_Component (v15_ref_component h) hs
  refine bind_keeps (opt_keeps (g := OrganizationalEntity.toJson) fun x hx => ?_) fun _ f4 => ?_
  · have h := valid_property (valid_part h (.tail _ (.tail _ (.head _)))) (.tail _ (.tail _ (.tail _ (.tail _ (.tail _ (.head _)))))) hx
    have hkn := hs.known hx
    have hs := hs.member hx
    exact v15k_organizationalEntity_OrganizationalEntity (v15_ref_organizationalEntity h) hs (hk.noRef _ _ hx (by simp))
  refine bind_keeps (opt_keeps (g := OrganizationalEntity.toJson) fun x hx => ?_) fun _ f5 => ?_
  · have h := valid_property (valid_part h (.tail _ (.tail _ (.head _)))) (.tail _ (.tail _ (.tail _ (.tail _ (.tail _ (.tail _ (.head _))))))) hx
    have hkn := hs.known hx
    have hs := hs.member hx
    exact v15k_organizationalEntity_OrganizationalEntity (v15_ref_organizationalEntity h) hs (hk.noRef _ _ hx (by simp))
  refine bind_keeps (opt_keeps (g := (Licenses.toJson .v1_5)) fun x hx => ?_) fun _ f6 => ?_
  · have h := valid_property (valid_part h (.tail _ (.tail _ (.head _)))) (.tail _ (.tail _ (.tail _ (.tail _ (.tail _ (.tail _ (.tail _ (.head _)))))))) hx
    have hkn := hs.known hx
    have hs := hs.member hx
    exact v15k_licenseChoice_Licenses (v15_ref_licenseChoice h) hs fun l e => hk.noRefs _ l (e ▸ hx) (by simp)
  refine bind_keeps (opt_keeps (g := (Json.ofList Property.toJson)) fun x hx => ?_) fun _ f7 => ?_
  · have h := valid_property (valid_part h (.tail _ (.tail _ (.head _)))) (.tail _ (.tail _ (.tail _ (.tail _ (.tail _ (.tail _ (.tail _ (.tail _ (.head _))))))))) hx
    have hkn := hs.known hx
    have hs := hs.member hx
    refine items_keeps (valid_part h (.head _)) (valid_part h (.tail _ (.head _))) hs fun l el y hy h hs => ?_
    exact v15k_property_Property (v15_ref_property h) hs (hr.named _ (el ▸ hx) _ hy) (fun p e => hk.properties _ _ (el ▸ hx) (by simp) p (e ▸ hy))
  refine bind_keeps (opt_keeps (g := (Json.ofList Lifecycle.toJson)) fun x hx => ?_) fun _ f8 => ?_
  · have h := valid_property (valid_part h (.tail _ (.tail _ (.head _)))) (.tail _ (.head _)) hx
    have hkn := hs.known hx
    have hs := hs.member hx
    refine items_keeps (valid_part h (.head _)) (valid_part h (.tail _ (.head _))) hs fun l el y hy h hs => ?_
    obtain ⟨o, rfl⟩ := type_object (valid_part h (.head _))
    rcases oneOf_two (valid_part h (.tail _ (.head _))) with h | h
    · obtain ⟨z, hz⟩ := valid_required (valid_part h (.head _)) (by simp : "phase" ∈ _)
      have e := one_member hs.nodup hz fun k' w hw => by
        have := valid_closed (valid_part h (.tail _ (.head _))) hw
        simpa using this
      obtain ⟨s, rfl⟩ := (type_string (valid_part (valid_property (valid_part h (.tail _ (.tail _ (.head _)))) (.head _) hz) (.head _)))
      subst e
      refine ⟨nofun, .phase (Phase.new s), rfl, same_single ?_⟩
      rw [Phase.display_new]
      exact .str s
    · have hd : Keeps LifecycleDescription.ofJson LifecycleDescription.toJson (.obj o) := by
        have hr := hs.readable
        have hk := hs.kept
        have hreq := (valid_part h (.head _))
        refine object_keeps ?_
        refine bind_keeps (req_keeps (g := Json.str) (valid_required hreq (by simp)) fun x hx => ?_) fun _ f0 => ?_
        · have h := valid_property (valid_part h (.tail _ (.tail _ (.head _)))) (.head _) hx
          have hkn := hs.known hx
          have hs := hs.member hx
          exact string_keeps (type_string h)
        refine bind_keeps (opt_keeps (g := Json.str) fun x hx => ?_) fun _ f1 => ?_
        · have h := valid_property (valid_part h (.tail _ (.tail _ (.head _)))) (.tail _ (.head _)) hx
          have hkn := hs.known hx
          have hs := hs.member hx
          exact string_keeps (type_string h)
        exact ⟨_, rfl, same_mk hs.nodup (forall_head f0 (forall_head f1 nofun)) (all_written (ks := ["name", "description"]) (lost := []) (closed_only (valid_part h (.tail _ (.head _)))) no_members rfl (by decide +kernel))⟩
      obtain ⟨e, he⟩ := tagged_fails (k := "phase") (o := o) (f := fun j => (Json.enum Phase.new j).map Lifecycle.phase) fun x hx => by
        have := valid_closed (valid_part h (.tail _ (.head _))) hx
        simp at this
      refine ⟨nofun, ?_⟩
      simp only [Lifecycle.ofJson, he]
      exact map_keeps hd fun _ => rfl
  exact ⟨_, rfl, same_mk hs.nodup (forall_head f0 (forall_head f1 (forall_head f2 (forall_head f3 (forall_head f4 (forall_head f5 (forall_head f6 (forall_head f7 (forall_head f8 nofun))))))))) (all_written (ks := ["timestamp", "tools", "authors", "component", "manufacture", "supplier", "licenses", "properties", "lifecycles"]) (lost := []) (closed_only (valid_part h (.tail _ (.head _)))) no_members rfl (by decide +kernel))⟩

theorem v15k_dependency_Dependency {n : Nat} {j : Json} (h : Valid (schemaContext F .v1_5) Schema15.dependency j) (hs : Clean n j) :
    Keeps (Dependency.ofJson) Dependency.toJson j := by
  obtain ⟨o, rfl⟩ := type_object (valid_part h (.head _))
  have hr := hs.readable
  have hk := hs.kept
  have hreq := (valid_part h (.tail _ (.head _)))
  refine object_keeps ?_
  refine bind_keeps (req_keeps (g := Json.str) (valid_required hreq (by simp)) fun x hx => ?_) fun _ f0 => ?_
  · have h := valid_property (valid_part h (.tail _ (.tail _ (.tail _ (.head _))))) (.head _) hx
    have hkn := hs.known hx
    have hs := hs.member hx
    exact string_keeps (type_string (valid_part (v15_ref_refType (valid_part (v15_ref_refLinkType h) (.head _))) (.head _)))
  refine bind_keeps (orEmpty_keeps (g := Json.str) hk.dependsOn fun x hx => ?_) fun _ f1 => ?_
  · have h := valid_property (valid_part h (.tail _ (.tail _ (.tail _ (.head _))))) (.tail _ (.head _)) hx
    have hkn := hs.known hx
    have hs := hs.member hx
    refine items_keeps (valid_part h (.head _)) (valid_part h (.tail _ (.tail _ (.head _)))) hs fun l el y hy h hs => ?_
    exact string_keeps (type_string (valid_part (v15_ref_refType (valid_part (v15_ref_refLinkType h) (.head _))) (.head _)))
  exact ⟨_, rfl, same_mk hs.nodup (forall_head f0 (forall_head f1 nofun)) (all_written (ks := ["ref", "dependsOn"]) (lost := []) (closed_only (valid_part h (.tail _ (.tail _ (.head _))))) no_members rfl (by decide +kernel))⟩

theorem v15k_compositions_Composition {n : Nat} {j : Json} (h : Valid (schemaContext F .v1_5) Schema15.compositions j) (hs : Clean n j)
    (hb : ¬ Has "bom-ref" j) :
    Keeps (Composition.ofJson .v1_5) (Composition.toJson .v1_5) j := by
  obtain ⟨o, rfl⟩ := type_object (valid_part h (.head _))
  have hr := hs.readable
  have hk := hs.kept
  have hreq := (valid_part h (.tail _ (.head _)))
  refine object_keeps ?_
  refine bind_keeps (opt_keeps (g := Json.str) fun x hx => ?_) fun _ f0 => ?_
  · have := valid_closed (valid_part h (.tail _ (.tail _ (.head _)))) hx
    simp at this
  refine bind_keeps (req_keeps (g := (Json.ofEnum AggregateType.display)) (valid_required hreq (by simp)) fun x hx => ?_) fun _ f1 => ?_
  · have h := valid_property (valid_part h (.tail _ (.tail _ (.tail _ (.head _))))) (.tail _ (.head _)) hx
    have hkn := hs.known hx
    have hs := hs.member hx
    exact enum_keeps (type_string (valid_part (v15_ref_aggregateType h) (.head _))) fun s e => AggregateType.display_new fun e' => hkn.aggregate rfl (e' ▸ e)
  refine bind_keeps (opt_keeps (g := (Json.ofList Json.str)) fun x hx => ?_) fun _ f2 => ?_
  · have h := valid_property (valid_part h (.tail _ (.tail _ (.tail _ (.head _))))) (.tail _ (.tail _ (.head _))) hx
    have hkn := hs.known hx
    have hs := hs.member hx
    refine items_keeps (valid_part h (.head _)) (valid_part h (.tail _ (.tail _ (.head _)))) hs fun l el y hy h hs => ?_
    exact string_keeps ((anyOf_two h).elim (fun h => (type_string (valid_part (v15_ref_refType (valid_part (v15_ref_refLinkType h) (.head _))) (.head _)))) (fun h => (type_string (valid_part (v15_ref_bomLinkElementType h) (.head _)))))
  refine bind_keeps (opt_keeps (g := (Json.ofList Json.str)) fun x hx => ?_) fun _ f3 => ?_
  · have h := valid_property (valid_part h (.tail _ (.tail _ (.tail _ (.head _))))) (.tail _ (.tail _ (.tail _ (.head _)))) hx
    have hkn := hs.known hx
    have hs := hs.member hx
    refine items_keeps (valid_part h (.head _)) (valid_part h (.tail _ (.tail _ (.head _)))) hs fun l el y hy h hs => ?_
    exact string_keeps (type_string h)
  refine bind_keeps (opt_keeps (g := (Json.ofList Json.str)) fun x hx => ?_) fun _ f4 => ?_
  · have h := valid_property (valid_part h (.tail _ (.tail _ (.tail _ (.head _))))) (.tail _ (.tail _ (.tail _ (.tail _ (.head _))))) hx
    have hkn := hs.known hx
    have hs := hs.member hx
    refine items_keeps (valid_part h (.head _)) (valid_part h (.tail _ (.tail _ (.head _)))) hs fun l el y hy h hs => ?_
    exact string_keeps (type_string h)
  refine bind_keeps (opt_keeps (g := Signature.toJson) fun x hx => ?_) fun _ f5 => ?_
  · have h := valid_property (valid_part h (.tail _ (.tail _ (.tail _ (.head _))))) (.tail _ (.tail _ (.tail _ (.tail _ (.tail _ (.head _)))))) hx
    have hkn := hs.known hx
    have hs := hs.member hx
    replace h := (v15_ref_signature h)
    exact signature_keeps (v15_ref_jsf_signature h) hs (hr.signature _ hx) (fun p e => hk.signature p (e ▸ hx))
  exact ⟨_, rfl, same_mk hs.nodup (forall_head f1 (forall_head f2 (forall_head f3 (forall_head f5 (forall_head f0 (forall_head f4 nofun)))))) (all_written (ks := ["aggregate", "assemblies", "dependencies", "signature", "bomRef", "vulnerabilities"]) (lost := ["bom-ref"]) (closed_only (valid_part h (.tail _ (.tail _ (.head _))))) (no_member (not_has hb) no_members) rfl (by decide +kernel))⟩

theorem v15k_vulnerabilitySource_VulnerabilitySource {n : Nat} {j : Json} (h : Valid (schemaContext F .v1_5) Schema15.vulnerabilitySource j) (hs : Clean n j) :
    Keeps (VulnerabilitySource.ofJson) VulnerabilitySource.toJson j := by
  obtain ⟨o, rfl⟩ := type_object (valid_part h (.head _))
  have hr := hs.readable
  have hk := hs.kept
  refine object_keeps ?_
  refine bind_keeps (opt_keeps (g := Json.str) fun x hx => ?_) fun _ f0 => ?_
  · have h := valid_property (valid_part h (.tail _ (.tail _ (.head _)))) (.tail _ (.head _)) hx
    have hkn := hs.known hx
    have hs := hs.member hx
    exact string_keeps (type_string h)
  refine bind_keeps (opt_keeps (g := Json.str) fun x hx => ?_) fun _ f1 => ?_
  · have h := valid_property (valid_part h (.tail _ (.tail _ (.head _)))) (.head _) hx
    have hkn := hs.known hx
    have hs := hs.member hx
    exact string_keeps (type_string h)
  exact ⟨_, rfl, same_mk hs.nodup (forall_head f0 (forall_head f1 nofun)) (all_written (ks := ["name", "url"]) (lost := []) (closed_only (valid_part h (.tail _ (.head _)))) no_members rfl (by decide +kernel))⟩

theorem v15k_rating_VulnerabilityRating {n : Nat} {j : Json} (h : Valid (schemaContext F .v1_5) Schema15.rating j) (hs : Clean n j) :
    Keeps (VulnerabilityRating.ofJson) VulnerabilityRating.toJson j := by
  obtain ⟨o, rfl⟩ := type_object (valid_part h (.head _))
  have hr := hs.readable
  have hk := hs.kept
  refine object_keeps ?_
  refine bind_keeps (opt_keeps (g := VulnerabilitySource.toJson) fun x hx => ?_) fun _ f0 => ?_
  · have h := valid_property (valid_part h (.tail _ (.tail _ (.head _)))) (.head _) hx
    have hkn := hs.known hx
    have hs := hs.member hx
    exact v15k_vulnerabilitySource_VulnerabilitySource (v15_ref_vulnerabilitySource h) hs
  refine bind_keeps (opt_keeps (g := Json.ofF32) fun x hx => ?_) fun _ f1 => ?_
  · have h := valid_property (valid_part h (.tail _ (.tail _ (.head _)))) (.tail _ (.head _)) hx
    have hkn := hs.known hx
    have hs := hs.member hx
    exact f32_keeps (type_number h) (fun e => hr.numbers _ (e ▸ hx)) hs (fun m e => hk.exact _ _ (e ▸ hx) (by simp))
  refine bind_keeps (opt_keeps (g := (Json.ofEnum Severity.display)) fun x hx => ?_) fun _ f2 => ?_
  · have h := valid_property (valid_part h (.tail _ (.tail _ (.head _)))) (.tail _ (.tail _ (.head _))) hx
    have hkn := hs.known hx
    have hs := hs.member hx
    exact enum_keeps (type_string (valid_part (v15_ref_severity h) (.head _))) fun s e => Severity.display_new s
  refine bind_keeps (opt_keeps (g := (Json.ofEnum ScoreMethod.display)) fun x hx => ?_) fun _ f3 => ?_
  · have h := valid_property (valid_part h (.tail _ (.tail _ (.head _)))) (.tail _ (.tail _ (.tail _ (.head _)))) hx
    have hkn := hs.known hx
    have hs := hs.member hx
    exact enum_keeps (type_string (valid_part (v15_ref_scoreMethod h) (.head _))) fun s e => ScoreMethod.display_new s
  refine bind_keeps (opt_keeps (g := Json.str) fun x hx => ?_) fun _ f4 => ?_
  · have h := valid_property (valid_part h (.tail _ (.tail _ (.head _)))) (.tail _ (.tail _ (.tail _ (.tail _ (.head _))))) hx
    have hkn := hs.known hx
    have hs := hs.member hx
    exact string_keeps (type_string h)
  refine bind_keeps (opt_keeps (g := Json.str) fun x hx => ?_) fun _ f5 => ?_
  · have h := valid_property (valid_part h (.tail _ (.tail _ (.head _)))) (.tail _ (.tail _ (.tail _ (.tail _ (.tail _ (.head _)))))) hx
    have hkn := hs.known hx
    have hs := hs.member hx
    exact string_keeps (type_string h)
  exact ⟨_, rfl, same_mk hs.nodup (forall_head f0 (forall_head f1 (forall_head f2 (forall_head f3 (forall_head f4 (forall_head f5 nofun)))))) (all_written (ks := ["source", "score", "severity", "method", "vector", "justification"]) (lost := []) (closed_only (valid_part h (.tail _ (.head _)))) no_members rfl (by decide +kernel))⟩

theorem v15k_advisory_Advisory {n : Nat} {j : Json} (h : Valid (schemaContext F .v1_5) Schema15.advisory j) (hs : Clean n j) :
    Keeps (Advisory.ofJson) Advisory.toJson j := by
  obtain ⟨o, rfl⟩ := type_object (valid_part h (.head _))
  have hr := hs.readable
  have hk := hs.kept
  have hreq := (valid_part h (.tail _ (.head _)))
  refine object_keeps ?_
  refine bind_keeps (opt_keeps (g := Json.str) fun x hx => ?_) fun _ f0 => ?_
  · have h := valid_property (valid_part h (.tail _ (.tail _ (.tail _ (.head _))))) (.head _) hx
    have hkn := hs.known hx
    have hs := hs.member hx
    exact string_keeps (type_string h)
  refine bind_keeps (req_keeps (g := Json.str) (valid_required hreq (by simp)) fun x hx => ?_) fun _ f1 => ?_
  · have h := valid_property (valid_part h (.tail _ (.tail _ (.tail _ (.head _))))) (.tail _ (.head _)) hx
    have hkn := hs.known hx
    have hs := hs.member hx
    exact string_keeps (type_string (valid_part h (.head _)))
  exact ⟨_, rfl, same_mk hs.nodup (forall_head f0 (forall_head f1 nofun)) (all_written (ks := ["title", "url"]) (lost := []) (closed_only (valid_part h (.tail _ (.tail _ (.head _))))) no_members rfl (by decide +kernel))⟩

theorem v15k_vulnerability_Vulnerability {j : Json} (h : Valid (schemaContext F .v1_5) Schema15.vulnerability j) (hs : Clean ReadLimit.limit j) :
    Keeps (Vulnerability.ofJson .v1_5) (Vulnerability.toJson .v1_5) j := by
  obtain ⟨o, rfl⟩ := type_object (valid_part h (.head _))
  have hr := hs.readable
  have hk := hs.kept
  have hnotype : ¬ Has "type" (.obj o) := fun ⟨_, _, e, m⟩ => by
    cases e
    have := valid_closed (valid_part h (.tail _ (.head _))) m
    simp at this
  refine object_keeps ?_
  refine bind_keeps (opt_keeps (g := Json.str) fun x hx => ?_) fun _ f0 => ?_
  · have h := valid_property (valid_part h (.tail _ (.tail _ (.head _)))) (.head _) hx
    have hkn := hs.known hx
    have hs := hs.member hx
    exact string_keeps (type_string (valid_part (v15_ref_refType h) (.head _)))
  refine bind_keeps (opt_keeps (g := Json.str) fun x hx => ?_) fun _ f1 => ?_
  · have h := valid_property (valid_part h (.tail _ (.tail _ (.head _)))) (.tail _ (.head _)) hx
    have hkn := hs.known hx
    have hs := hs.member hx
    exact string_keeps (type_string h)
  refine bind_keeps (opt_keeps (g := VulnerabilitySource.toJson) fun x hx => ?_) fun _ f2 => ?_
  · have h := valid_property (valid_part h (.tail _ (.tail _ (.head _)))) (.tail _ (.tail _ (.head _))) hx
    have hkn := hs.known hx
    have hs := hs.member hx
    exact v15k_vulnerabilitySource_VulnerabilitySource (v15_ref_vulnerabilitySource h) hs
  refine bind_keeps (opt_keeps (g := (Json.ofList VulnerabilityReference.toJson)) fun x hx => ?_) fun _ f3 => ?_
  · have h := valid_property (valid_part h (.tail _ (.tail _ (.head _)))) (.tail _ (.tail _ (.tail _ (.head _)))) hx
    have hkn := hs.known hx
    have hs := hs.member hx
    refine items_keeps (valid_part h (.head _)) (valid_part h (.tail _ (.head _))) hs fun l el y hy h hs => ?_
    obtain ⟨o, rfl⟩ := type_object (valid_part h (.head _))
    have hr := hs.readable
    have hk := hs.kept
    have hreq := (valid_part h (.tail _ (.head _)))
    refine object_keeps ?_
    refine bind_keeps (req_keeps (g := Json.str) (valid_required hreq (by simp)) fun x hx => ?_) fun _ f0 => ?_
    · have h := valid_property (valid_part h (.tail _ (.tail _ (.tail _ (.head _))))) (.head _) hx
      have hkn := hs.known hx
      have hs := hs.member hx
      exact string_keeps (type_string h)
    refine bind_keeps (req_keeps (g := VulnerabilitySource.toJson) (valid_required hreq (by simp)) fun x hx => ?_) fun _ f1 => ?_
    · have h := valid_property (valid_part h (.tail _ (.tail _ (.tail _ (.head _))))) (.tail _ (.head _)) hx
      have hkn := hs.known hx
      have hs := hs.member hx
      exact v15k_vulnerabilitySource_VulnerabilitySource (v15_ref_vulnerabilitySource h) hs
    exact ⟨_, rfl, same_mk hs.nodup (forall_head f0 (forall_head f1 nofun)) (all_written (ks := ["id", "source"]) (lost := []) (closed_only (valid_part h (.tail _ (.tail _ (.head _))))) no_members rfl (by decide +kernel))⟩
  refine bind_keeps (opt_keeps (g := (Json.ofList VulnerabilityRating.toJson)) fun x hx => ?_) fun _ f4 => ?_
  · have h := valid_property (valid_part h (.tail _ (.tail _ (.head _)))) (.tail _ (.tail _ (.tail _ (.tail _ (.head _))))) hx
    have hkn := hs.known hx
    have hs := hs.member hx
    refine items_keeps (valid_part h (.head _)) (valid_part h (.tail _ (.head _))) hs fun l el y hy h hs => ?_
    exact v15k_rating_VulnerabilityRating (v15_ref_rating h) hs
  refine bind_keeps (opt_keeps (g := (Json.ofList Json.nat)) fun x hx => ?_) fun _ f5 => ?_
  · have h := valid_property (valid_part h (.tail _ (.tail _ (.head _)))) (.tail _ (.tail _ (.tail _ (.tail _ (.tail _ (.head _)))))) hx
    have hkn := hs.known hx
    have hs := hs.member hx
    refine items_keeps (valid_part h (.head _)) (valid_part h (.tail _ (.head _))) hs fun l el y hy h hs => ?_
    exact u32_keeps (hr.cwes _ (el ▸ hx) _ hy)
  refine bind_keeps (opt_keeps (g := Json.str) fun x hx => ?_) fun _ f6 => ?_
  · have h := valid_property (valid_part h (.tail _ (.tail _ (.head _)))) (.tail _ (.tail _ (.tail _ (.tail _ (.tail _ (.tail _ (.head _))))))) hx
    have hkn := hs.known hx
    have hs := hs.member hx
    exact string_keeps (type_string h)
  refine bind_keeps (opt_keeps (g := Json.str) fun x hx => ?_) fun _ f7 => ?_
  · have h := valid_property (valid_part h (.tail _ (.tail _ (.head _)))) (.tail _ (.tail _ (.tail _ (.tail _ (.tail _ (.tail _ (.tail _ (.head _)))))))) hx
    have hkn := hs.known hx
    have hs := hs.member hx
    exact string_keeps (type_string h)
  refine bind_keeps (opt_keeps (g := Json.str) fun x hx => ?_) fun _ f8 => ?_
  · have h := valid_property (valid_part h (.tail _ (.tail _ (.head _)))) (.tail _ (.tail _ (.tail _ (.tail _ (.tail _ (.tail _ (.tail _ (.tail _ (.head _))))))))) hx
    have hkn := hs.known hx
    have hs := hs.member hx
    exact string_keeps (type_string h)
  refine bind_keeps (opt_keeps (g := Json.str) fun x hx => ?_) fun _ f9 => ?_
  · have h := valid_property (valid_part h (.tail _ (.tail _ (.head _)))) (.tail _ (.tail _ (.tail _ (.tail _ (.tail _ (.tail _ (.tail _ (.tail _ (.tail _ (.head _)))))))))) hx
    have hkn := hs.known hx
    have hs := hs.member hx
    exact string_keeps (type_string h)
  refine bind_keeps (opt_keeps (g := VulnerabilityProofOfConcept.toJson) fun x hx => ?_) fun _ f10 => ?_
  · have h := valid_property (valid_part h (.tail _ (.tail _ (.head _)))) (.tail _ (.tail _ (.tail _ (.tail _ (.tail _ (.tail _ (.tail _ (.tail _ (.tail _ (.tail _ (.head _))))))))))) hx
    have hkn := hs.known hx
    have hs := hs.member hx
    obtain ⟨o, rfl⟩ := type_object (valid_part h (.head _))
    have hcl := hk.proofOfConcept _ hx
    have hr := hs.readable
    have hk := hs.kept
    refine object_keeps ?_
    refine bind_keeps (opt_keeps (g := Json.str) fun x hx => ?_) fun _ f0 => ?_
    · have h := valid_property (valid_part h (.tail _ (.head _))) (.head _) hx
      have hkn := hs.known hx
      have hs := hs.member hx
      exact string_keeps (type_string h)
    refine bind_keeps (opt_keeps (g := Json.str) fun x hx => ?_) fun _ f1 => ?_
    · have h := valid_property (valid_part h (.tail _ (.head _))) (.tail _ (.head _)) hx
      have hkn := hs.known hx
      have hs := hs.member hx
      exact string_keeps (type_string h)
    refine bind_keeps (opt_keeps (g := (Json.ofList Attachment.toJson)) fun x hx => ?_) fun _ f2 => ?_
    · have h := valid_property (valid_part h (.tail _ (.head _))) (.tail _ (.tail _ (.head _))) hx
      have hkn := hs.known hx
      have hs := hs.member hx
      refine items_keeps (valid_part h (.head _)) (valid_part h (.tail _ (.head _))) hs fun l el y hy h hs => ?_
      exact v15k_attachment_Attachment (v15_ref_attachment h) hs
    exact ⟨_, rfl, same_mk hs.nodup (forall_head f0 (forall_head f1 (forall_head f2 nofun))) (all_written (ks := ["reproductionSteps", "environment", "supportingMaterial"]) (lost := []) hcl no_members rfl (by decide +kernel))⟩
  refine bind_keeps (opt_keeps (g := (Json.ofList Advisory.toJson)) fun x hx => ?_) fun _ f11 => ?_
  · have h := valid_property (valid_part h (.tail _ (.tail _ (.head _)))) (.tail _ (.tail _ (.tail _ (.tail _ (.tail _ (.tail _ (.tail _ (.tail _ (.tail _ (.tail _ (.tail _ (.head _)))))))))))) hx
    have hkn := hs.known hx
    have hs := hs.member hx
    refine items_keeps (valid_part h (.head _)) (valid_part h (.tail _ (.head _))) hs fun l el y hy h hs => ?_
    exact v15k_advisory_Advisory (v15_ref_advisory h) hs
  refine bind_keeps (opt_keeps (g := Json.str) fun x hx => ?_) fun _ f12 => ?_
  · have h := valid_property (valid_part h (.tail _ (.tail _ (.head _)))) (.tail _ (.tail _ (.tail _ (.tail _ (.tail _ (.tail _ (.tail _ (.tail _ (.tail _ (.tail _ (.tail _ (.tail _ (.head _))))))))))))) hx
    have hkn := hs.known hx
    have hs := hs.member hx
    exact string_keeps (type_string (valid_part h (.head _)))
  refine bind_keeps (opt_keeps (g := Json.str) fun x hx => ?_) fun _ f13 => ?_
  · have h := valid_property (valid_part h (.tail _ (.tail _ (.head _)))) (.tail _ (.tail _ (.tail _ (.tail _ (.tail _ (.tail _ (.tail _ (.tail _ (.tail _ (.tail _ (.tail _ (.tail _ (.tail _ (.head _)))))))))))))) hx
    have hkn := hs.known hx
    have hs := hs.member hx
    exact string_keeps (type_string (valid_part h (.head _)))
  refine bind_keeps (opt_keeps (g := Json.str) fun x hx => ?_) fun _ f14 => ?_
  · have h := valid_property (valid_part h (.tail _ (.tail _ (.head _)))) (.tail _ (.tail _ (.tail _ (.tail _ (.tail _ (.tail _ (.tail _ (.tail _ (.tail _ (.tail _ (.tail _ (.tail _ (.tail _ (.tail _ (.head _))))))))))))))) hx
    have hkn := hs.known hx
    have hs := hs.member hx
    exact string_keeps (type_string (valid_part h (.head _)))
  refine bind_keeps (opt_keeps (g := Json.str) fun x hx => ?_) fun _ f15 => ?_
  · have h := valid_property (valid_part h (.tail _ (.tail _ (.head _)))) (.tail _ (.tail _ (.tail _ (.tail _ (.tail _ (.tail _ (.tail _ (.tail _ (.tail _ (.tail _ (.tail _ (.tail _ (.tail _ (.tail _ (.tail _ (.head _)))))))))))))))) hx
    have hkn := hs.known hx
    have hs := hs.member hx
    exact string_keeps (type_string (valid_part h (.head _)))
  refine bind_keeps (opt_keeps (g := VulnerabilityCredits.toJson) fun x hx => ?_) fun _ f16 => ?_
  · have h := valid_property (valid_part h (.tail _ (.tail _ (.head _)))) (.tail _ (.tail _ (.tail _ (.tail _ (.tail _ (.tail _ (.tail _ (.tail _ (.tail _ (.tail _ (.tail _ (.tail _ (.tail _ (.tail _ (.tail _ (.tail _ (.head _))))))))))))))))) hx
    have hkn := hs.known hx
    have hs := hs.member hx
    obtain ⟨o, rfl⟩ := type_object (valid_part h (.head _))
    have hr := hs.readable
    have hk := hs.kept
    refine object_keeps ?_
    refine bind_keeps (opt_keeps (g := (Json.ofList OrganizationalEntity.toJson)) fun x hx => ?_) fun _ f0 => ?_
    · have h := valid_property (valid_part h (.tail _ (.tail _ (.head _)))) (.head _) hx
      have hkn := hs.known hx
      have hs := hs.member hx
      refine items_keeps (valid_part h (.head _)) (valid_part h (.tail _ (.head _))) hs fun l el y hy h hs => ?_
      exact v15k_organizationalEntity_OrganizationalEntity (v15_ref_organizationalEntity h) hs (hk.noRefs _ _ (el ▸ hx) (by simp) _ hy)
    refine bind_keeps (opt_keeps (g := (Json.ofList OrganizationalContact.toJson)) fun x hx => ?_) fun _ f1 => ?_
    · have h := valid_property (valid_part h (.tail _ (.tail _ (.head _)))) (.tail _ (.head _)) hx
      have hkn := hs.known hx
      have hs := hs.member hx
      refine items_keeps (valid_part h (.head _)) (valid_part h (.tail _ (.head _))) hs fun l el y hy h hs => ?_
      exact v15k_organizationalContact_OrganizationalContact (v15_ref_organizationalContact h) hs (hk.noRefs _ _ (el ▸ hx) (by simp) _ hy)
    exact ⟨_, rfl, same_mk hs.nodup (forall_head f0 (forall_head f1 nofun)) (all_written (ks := ["organizations", "individuals"]) (lost := []) (closed_only (valid_part h (.tail _ (.head _)))) no_members rfl (by decide +kernel))⟩
  refine bind_keeps (opt_keeps (g := (Tools.toJson .v1_5)) fun x hx => ?_) fun _ f17 => ?_
  · have h := valid_property (valid_part h (.tail _ (.tail _ (.head _)))) (.tail _ (.tail _ (.tail _ (.tail _ (.tail _ (.tail _ (.tail _ (.tail _ (.tail _ (.tail _ (.tail _ (.tail _ (.tail _ (.tail _ (.tail _ (.tail _ (.tail _ (.head _)))))))))))))))))) hx
    have hkn := hs.known hx
    have hs := hs.member hx
    rcases oneOf_two h with h | h
    · have ho : ∃ o, x = .obj o := type_object (valid_part h (.head _))
      have ho : Keeps (Tools.objectOfJson .v1_5) (Tools.toJson .v1_5) x := by
        obtain ⟨o, rfl⟩ := type_object (valid_part h (.head _))
        have hr := hs.readable
        have hk := hs.kept
        refine object_keeps ?_
        refine bind_keeps (opt_keeps (g := (Json.ofList (Service.toJson .v1_5))) fun x hx => ?_) fun _ f0 => ?_
        · have h := valid_property (valid_part h (.tail _ (.tail _ (.head _)))) (.tail _ (.head _)) hx
          have hkn := hs.known hx
          have hs := hs.member hx
          refine items_keeps (valid_part h (.head _)) (valid_part h (.tail _ (.tail _ (.head _)))) hs fun l el y hy h hs => ?_
          exact v15k_service_Service (v15_ref_service h) hs
        refine bind_keeps (opt_keeps (g := (Json.ofList (Component.toJson .v1_5))) fun x hx => ?_) fun _ f1 => ?_
        · have h := valid_property (valid_part h (.tail _ (.tail _ (.head _)))) (.head _) hx
          have hkn := hs.known hx
          have hs := hs.member hx
          refine items_keeps (valid_part h (.head _)) (valid_part h (.tail _ (.tail _ (.head _)))) hs fun l el y hy h hs => ?_
          exact v15k_component_Component (v15_ref_component h) hs
        exact ⟨_, rfl, same_mk hs.nodup (forall_head f0 (forall_head f1 nofun)) (all_written (ks := ["services", "components"]) (lost := []) (closed_only (valid_part h (.tail _ (.head _)))) no_members rfl (by decide +kernel))⟩
      obtain ⟨o, rfl⟩ := type_object (valid_part h (.head _))
      exact ⟨nofun, ho.2⟩
    · have hl : Keeps (Json.array (Tool.ofJson .v1_5)) (Json.ofList (Tool.toJson .v1_5)) _ := items_keeps (valid_part h (.head _)) (valid_part h (.tail _ (.head _))) hs fun l el y hy h hs => v15k_tool_Tool (v15_ref_tool h) hs
      obtain ⟨hn, z, hz, hsm⟩ := hl
      exact ⟨hn, .list z, by simp only [Tools.ofJson, hz], hsm⟩
  refine bind_keeps (opt_keeps (g := (VulnerabilityAnalysis.toJson .v1_5)) fun x hx => ?_) fun _ f18 => ?_
  · have h := valid_property (valid_part h (.tail _ (.tail _ (.head _)))) (.tail _ (.tail _ (.tail _ (.tail _ (.tail _ (.tail _ (.tail _ (.tail _ (.tail _ (.tail _ (.tail _ (.tail _ (.tail _ (.tail _ (.tail _ (.tail _ (.tail _ (.tail _ (.head _))))))))))))))))))) hx
    have hkn := hs.known hx
    have hs := hs.member hx
    obtain ⟨o, rfl⟩ := type_object (valid_part h (.head _))
    have hr := hs.readable
    have hk := hs.kept
    refine object_keeps ?_
    refine bind_keeps (opt_keeps (g := (Json.ofEnum ImpactAnalysisState.display)) fun x hx => ?_) fun _ f0 => ?_
    · have h := valid_property (valid_part h (.tail _ (.tail _ (.head _)))) (.head _) hx
      have hkn := hs.known hx
      have hs := hs.member hx
      exact enum_keeps (type_string (valid_part (v15_ref_impactAnalysisState h) (.head _))) fun s e => ImpactAnalysisState.display_new s
    refine bind_keeps (opt_keeps (g := (Json.ofEnum ImpactAnalysisJustification.display)) fun x hx => ?_) fun _ f1 => ?_
    · have h := valid_property (valid_part h (.tail _ (.tail _ (.head _)))) (.tail _ (.head _)) hx
      have hkn := hs.known hx
      have hs := hs.member hx
      exact enum_keeps (type_string (valid_part (v15_ref_impactAnalysisJustification h) (.head _))) fun s e => ImpactAnalysisJustification.display_new s
    refine bind_keeps (opt_keeps (g := (Json.ofList (Json.ofEnum ImpactAnalysisResponse.display))) fun x hx => ?_) fun _ f2 => ?_
    · have := valid_closed (valid_part h (.tail _ (.head _))) hx
      simp at this
    refine bind_keeps (opt_keeps (g := Json.str) fun x hx => ?_) fun _ f3 => ?_
    · have h := valid_property (valid_part h (.tail _ (.tail _ (.head _)))) (.tail _ (.tail _ (.tail _ (.head _)))) hx
      have hkn := hs.known hx
      have hs := hs.member hx
      exact string_keeps (type_string h)
    refine bind_keeps (opt_keeps (g := Json.str) fun x hx => ?_) fun _ f4 => ?_
    · have h := valid_property (valid_part h (.tail _ (.tail _ (.head _)))) (.tail _ (.tail _ (.tail _ (.tail _ (.head _))))) hx
      have hkn := hs.known hx
      have hs := hs.member hx
      exact string_keeps (type_string (valid_part h (.head _)))
    refine bind_keeps (opt_keeps (g := Json.str) fun x hx => ?_) fun _ f5 => ?_
    · have h := valid_property (valid_part h (.tail _ (.tail _ (.head _)))) (.tail _ (.tail _ (.tail _ (.tail _ (.tail _ (.head _)))))) hx
      have hkn := hs.known hx
      have hs := hs.member hx
      exact string_keeps (type_string (valid_part h (.head _)))
    exact ⟨_, rfl, same_mk hs.nodup (forall_head f0 (forall_head f1 (forall_head f2 (forall_head f3 (forall_head f4 (forall_head f5 nofun)))))) (all_written (ks := ["state", "justification", "responses", "detail", "firstIssued", "lastUpdated"]) (lost := ["response"]) (closed_only (valid_part h (.tail _ (.head _)))) (no_member (hk.dropped _ (by simp)) no_members) rfl (by decide +kernel))⟩
  refine bind_keeps (opt_keeps (g := (Json.ofList VulnerabilityTarget.toJson)) fun x hx => ?_) fun _ f19 => ?_
  · have h := valid_property (valid_part h (.tail _ (.tail _ (.head _)))) (.tail _ (.tail _ (.tail _ (.tail _ (.tail _ (.tail _ (.tail _ (.tail _ (.tail _ (.tail _ (.tail _ (.tail _ (.tail _ (.tail _ (.tail _ (.tail _ (.tail _ (.tail _ (.tail _ (.head _)))))))))))))))))))) hx
    have hkn := hs.known hx
    have hs := hs.member hx
    refine items_keeps (valid_part h (.head _)) (valid_part h (.tail _ (.tail _ (.head _)))) hs fun l el y hy h hs => ?_
    obtain ⟨o, rfl⟩ := type_object (valid_part h (.head _))
    have hr := hs.readable
    have hk := hs.kept
    have hreq := (valid_part h (.tail _ (.head _)))
    refine object_keeps ?_
    refine bind_keeps (req_keeps (g := Json.str) (valid_required hreq (by simp)) fun x hx => ?_) fun _ f0 => ?_
    · have h := valid_property (valid_part h (.tail _ (.tail _ (.tail _ (.head _))))) (.head _) hx
      have hkn := hs.known hx
      have hs := hs.member hx
      exact string_keeps ((anyOf_two h).elim (fun h => (type_string (valid_part (v15_ref_refType (valid_part (v15_ref_refLinkType h) (.head _))) (.head _)))) (fun h => (type_string (valid_part (v15_ref_bomLinkElementType h) (.head _)))))
    refine bind_keeps (opt_keeps (g := (Json.ofList TargetVersion.toJson)) fun x hx => ?_) fun _ f1 => ?_
    · have h := valid_property (valid_part h (.tail _ (.tail _ (.tail _ (.head _))))) (.tail _ (.head _)) hx
      have hkn := hs.known hx
      have hs := hs.member hx
      refine items_keeps (valid_part h (.head _)) (valid_part h (.tail _ (.head _))) hs fun l el y hy h hs => ?_
      have hh := hr.versions _ (el ▸ hx) _ hy
      obtain ⟨o, rfl⟩ := type_object (valid_part h (.head _))
      have hr := hs.readable
      have hk := hs.kept
      refine object_keeps ?_
      have key : ∃ y, VersionRange.ofFields o = .ok y ∧ (∀ p ∈ VersionRange.toFields y, FieldKept o p.1 p.2) ∧ ∀ k ∈ ["version", "range"], ∀ x, (k, x) ∈ o → ∃ w, (k, w) ∈ VersionRange.toFields y := by
        refine flatVariant_keeps (toFields := VersionRange.toFields) (ks := ["version", "range"]) (valid_part h (.tail _ (.tail _ (.tail _ (.head _))))) (by simp) ?_ ?_
        · intro p hp hn x hx
          simp only [List.mem_cons, List.not_mem_nil, or_false] at hp
          rcases hp with rfl | rfl | rfl
          · exact absurd (by simp) hn
          · have := valid_closed (valid_part h (.tail _ (.head _))) hx
            simp at this
          · exact absurd (by simp) hn
        · intro p hp x hx
          simp only [List.mem_cons, List.not_mem_nil, or_false] at hp
          rcases hp with rfl | rfl | rfl
          · have h := valid_property (valid_part h (.tail _ (.tail _ (.head _)))) (.tail _ (.head _)) hx
            have hs := hs.member hx
            refine variant_keeps (?_ : Keeps (Json.string) Json.str x) fun _ => rfl
            exact string_keeps (type_string (valid_part (v15_ref_range h) (.head _)))
          · have := valid_closed (valid_part h (.tail _ (.head _))) hx
            simp at this
          · have h := valid_property (valid_part h (.tail _ (.tail _ (.head _)))) (.head _) hx
            have hs := hs.member hx
            refine variant_keeps (?_ : Keeps (Json.string) Json.str x) fun _ => rfl
            exact string_keeps (type_string (valid_part (v15_ref_version h) (.head _)))
      refine bind_keeps key fun yf ff => ?_
      refine bind_keeps (req_keeps (g := (Json.ofEnum Status.display)) hh.lookup fun x hx => ?_) fun _ f0 => ?_
      · have h := valid_property (valid_part h (.tail _ (.tail _ (.head _)))) (.tail _ (.tail _ (.head _))) hx
        have hkn := hs.known hx
        have hs := hs.member hx
        exact enum_keeps (type_string (valid_part (v15_ref_affectedStatus h) (.head _))) fun s e => Status.display_new s
      exact ⟨_, rfl, same_mk hs.nodup (forall_append ff.1 (forall_head f0 nofun)) (all_written_flat (ks := ["status"]) (lost := []) (closed_only (valid_part h (.tail _ (.head _)))) no_members ff.2 rfl (by decide +kernel))⟩
    exact ⟨_, rfl, same_mk hs.nodup (forall_head f0 (forall_head f1 nofun)) (all_written (ks := ["ref", "versions"]) (lost := []) (closed_only (valid_part h (.tail _ (.tail _ (.head _))))) no_members rfl (by decide +kernel))⟩
  refine bind_keeps (opt_keeps (g := (Json.ofList Property.toJson)) fun x hx => ?_) fun _ f20 => ?_
  · have h := valid_property (valid_part h (.tail _ (.tail _ (.head _)))) (.tail _ (.tail _ (.tail _ (.tail _ (.tail _ (.tail _ (.tail _ (.tail _ (.tail _ (.tail _ (.tail _ (.tail _ (.tail _ (.tail _ (.tail _ (.tail _ (.tail _ (.tail _ (.tail _ (.tail _ (.head _))))))))))))))))))))) hx
    have hkn := hs.known hx
    have hs := hs.member hx
    refine items_keeps (valid_part h (.head _)) (valid_part h (.tail _ (.head _))) hs fun l el y hy h hs => ?_
    exact v15k_property_Property (v15_ref_property h) hs (hr.named _ (el ▸ hx) _ hy) (fun p e => hk.properties _ _ (el ▸ hx) (by simp) p (e ▸ hy))
  exact ⟨_, rfl, same_mk hs.nodup (forall_head f0 (forall_head f1 (forall_head f2 (forall_head f3 (forall_head f4 (forall_head f5 (forall_head f6 (forall_head f7 (forall_head f8 (forall_head f11 (forall_head f12 (forall_head f13 (forall_head f14 (forall_head f16 (forall_head f17 (forall_head f18 (forall_head f19 (forall_head f20 (forall_head f9 (forall_head f10 (forall_head f15 nofun))))))))))))))))))))) (all_written (ks := ["bom-ref", "id", "source", "references", "ratings", "cwes", "description", "detail", "recommendation", "advisories", "created", "published", "updated", "credits", "tools", "analysis", "affects", "properties", "workaround", "proofOfConcept", "rejected"]) (lost := []) (closed_only (valid_part h (.tail _ (.head _)))) no_members rfl (by decide +kernel))⟩

theorem v15k_annotations_Annotation {j : Json} (h : Valid (schemaContext F .v1_5) Schema15.annotations j) (hs : Clean ReadLimit.limit j) :
    Keeps (Annotation.ofJson .v1_5) (Annotation.toJson .v1_5) j := by
  obtain ⟨o, rfl⟩ := type_object (valid_part h (.head _))
  have hr := hs.readable
  have hk := hs.kept
  have hreq := (valid_part h (.tail _ (.head _)))
  refine object_keeps ?_
  refine bind_keeps (opt_keeps (g := Json.str) fun x hx => ?_) fun _ f0 => ?_
  · have h := valid_property (valid_part h (.tail _ (.tail _ (.tail _ (.head _))))) (.head _) hx
    have hkn := hs.known hx
    have hs := hs.member hx
    exact string_keeps (type_string (valid_part (v15_ref_refType h) (.head _)))
  refine bind_keeps (req_keeps (g := (Json.ofList Json.str)) (valid_required hreq (by simp)) fun x hx => ?_) fun _ f1 => ?_
  · have h := valid_property (valid_part h (.tail _ (.tail _ (.tail _ (.head _))))) (.tail _ (.head _)) hx
    have hkn := hs.known hx
    have hs := hs.member hx
    refine items_keeps (valid_part h (.head _)) (valid_part h (.tail _ (.tail _ (.head _)))) hs fun l el y hy h hs => ?_
    exact string_keeps ((anyOf_two h).elim (fun h => (type_string (valid_part (v15_ref_refType (valid_part (v15_ref_refLinkType h) (.head _))) (.head _)))) (fun h => (type_string (valid_part (v15_ref_bomLinkElementType h) (.head _)))))
  refine bind_keeps (req_keeps (g := (Annotator.toJson .v1_5)) (valid_required hreq (by simp)) fun x hx => ?_) fun _ f2 => ?_
  · have h := valid_property (valid_part h (.tail _ (.tail _ (.tail _ (.head _))))) (.tail _ (.tail _ (.head _))) hx
    have hkn := hs.known hx
    have hs := hs.member hx
    obtain ⟨o, rfl⟩ := type_object (valid_part h (.head _))
    obtain ⟨k, hk, x, rfl⟩ := oneOf_single (ks := ["organization", "individual", "component", "service"]) (valid_part h (.tail _ (.tail _ (.tail _ (.head _))))) (valid_part h (.tail _ (.head _))) hs.sane
    simp only [List.mem_cons, List.not_mem_nil, or_false] at hk
    rcases hk with rfl | rfl | rfl | rfl
    · have h := valid_property (valid_part h (.tail _ (.tail _ (.head _)))) (.head _) (.head _)
      have hx : ("organization", x) ∈ [("organization", x)] := .head _
      have hk := hs.kept
      have hs := hs.member (.head _)
      refine tagged_keeps (c := .organization) rfl (?_ : Keeps (OrganizationalEntity.ofJson) OrganizationalEntity.toJson x) fun _ => rfl
      exact v15k_organizationalEntity_OrganizationalEntity (v15_ref_organizationalEntity h) hs (hk.noRef _ _ hx (by simp))
    · have h := valid_property (valid_part h (.tail _ (.tail _ (.head _)))) (.tail _ (.head _)) (.head _)
      have hx : ("individual", x) ∈ [("individual", x)] := .head _
      have hk := hs.kept
      have hs := hs.member (.head _)
      refine tagged_keeps (c := .individual) rfl (?_ : Keeps (OrganizationalContact.ofJson) OrganizationalContact.toJson x) fun _ => rfl
      exact v15k_organizationalContact_OrganizationalContact (v15_ref_organizationalContact h) hs (hk.noRef _ _ hx (by simp))
    · have h := valid_property (valid_part h (.tail _ (.tail _ (.head _)))) (.tail _ (.tail _ (.head _))) (.head _)
      have hx : ("component", x) ∈ [("component", x)] := .head _
      have hk := hs.kept
      have hs := hs.member (.head _)
      refine tagged_keeps (c := .component) rfl (?_ : Keeps (Component.ofJson .v1_5) (Component.toJson .v1_5) x) fun _ => rfl
      exact v15k_component_Component (v15_ref_component h) hs
    · have h := valid_property (valid_part h (.tail _ (.tail _ (.head _)))) (.tail _ (.tail _ (.tail _ (.head _)))) (.head _)
      have hx : ("service", x) ∈ [("service", x)] := .head _
      have hk := hs.kept
      have hs := hs.member (.head _)
      refine tagged_keeps (c := .service) rfl (?_ : Keeps (Service.ofJson .v1_5) (Service.toJson .v1_5) x) fun _ => rfl
      exact v15k_service_Service (v15_ref_service h) hs
  refine bind_keeps (req_keeps (g := Json.str) (valid_required hreq (by simp)) fun x hx => ?_) fun _ f3 => ?_
  · have h := valid_property (valid_part h (.tail _ (.tail _ (.tail _ (.head _))))) (.tail _ (.tail _ (.tail _ (.head _)))) hx
    have hkn := hs.known hx
    have hs := hs.member hx
    exact string_keeps (type_string (valid_part h (.head _)))
  refine bind_keeps (req_keeps (g := Json.str) (valid_required hreq (by simp)) fun x hx => ?_) fun _ f4 => ?_
  · have h := valid_property (valid_part h (.tail _ (.tail _ (.tail _ (.head _))))) (.tail _ (.tail _ (.tail _ (.tail _ (.head _))))) hx
    have hkn := hs.known hx
    have hs := hs.member hx
    exact string_keeps (type_string h)
  refine bind_keeps (opt_keeps (g := Signature.toJson) fun x hx => ?_) fun _ f5 => ?_
  · have h := valid_property (valid_part h (.tail _ (.tail _ (.tail _ (.head _))))) (.tail _ (.tail _ (.tail _ (.tail _ (.tail _ (.head _)))))) hx
    have hkn := hs.known hx
    have hs := hs.member hx
    replace h := (v15_ref_signature h)
    exact signature_keeps (v15_ref_jsf_signature h) hs (hr.signature _ hx) (fun p e => hk.signature p (e ▸ hx))
  exact ⟨_, rfl, same_mk hs.nodup (forall_head f0 (forall_head f1 (forall_head f2 (forall_head f3 (forall_head f4 (forall_head f5 nofun)))))) (all_written (ks := ["bom-ref", "subjects", "annotator", "timestamp", "text", "signature"]) (lost := []) (closed_only (valid_part h (.tail _ (.tail _ (.head _))))) no_members rfl (by decide +kernel))⟩

theorem v15k_resourceReferenceChoice_ResourceReference {n : Nat} {j : Json} (h : Valid (schemaContext F .v1_5) Schema15.resourceReferenceChoice j) (hs : Clean n j) :
    Keeps (ResourceReference.ofJson) ResourceReference.toJson j := by
  obtain ⟨o, rfl⟩ := type_object (valid_part h (.head _))
  have hr := hs.readable
  have hk := hs.kept
  refine object_keeps ?_
  have key : ∃ y, ResourceReference.ofFields o = .ok y ∧ (∀ p ∈ ResourceReference.toFields y, FieldKept o p.1 p.2) ∧ ∀ k ∈ ["ref", "externalReference"], ∀ x, (k, x) ∈ o → ∃ w, (k, w) ∈ ResourceReference.toFields y := by
    refine flatUntagged_keeps (toFields := ResourceReference.toFields) (ks := ["ref", "externalReference"]) (valid_part h (.tail _ (.tail _ (.tail _ (.head _))))) (by simp) ?_ ?_
    · intro p hp hn x hx
      simp only [List.mem_cons, List.not_mem_nil, or_false] at hp
      rcases hp with rfl | rfl
      · exact absurd (by simp) hn
      · exact absurd (by simp) hn
    · intro p hp x hx
      simp only [List.mem_cons, List.not_mem_nil, or_false] at hp
      rcases hp with rfl | rfl
      · have h := valid_property (valid_part h (.tail _ (.tail _ (.head _)))) (.head _) hx
        have hs := hs.member hx
        refine variant_keeps (?_ : Keeps (Json.string) Json.str x) fun _ => rfl
        exact string_keeps ((anyOf_two h).elim (fun h => (type_string (valid_part (v15_ref_refType (valid_part (v15_ref_refLinkType h) (.head _))) (.head _)))) (fun h => (type_string (valid_part (v15_ref_bomLinkElementType h) (.head _)))))
      · have h := valid_property (valid_part h (.tail _ (.tail _ (.head _)))) (.tail _ (.head _)) hx
        have hs := hs.member hx
        refine variant_keeps (?_ : Keeps (ExternalReference.ofJson) ExternalReference.toJson x) fun _ => rfl
        exact v15k_externalReference_ExternalReference (v15_ref_externalReference h) hs
  obtain ⟨y, hy, f1, f2⟩ := key
  exact ⟨y, hy, same_mk hs.nodup f1 fun k x hx => f2 k (valid_closed (valid_part h (.tail _ (.head _))) hx) x hx⟩

theorem v15k_event_TriggerEvent {n : Nat} {j : Json} (h : Valid (schemaContext F .v1_5) Schema15.event j) (hs : Clean n j) :
    Keeps (TriggerEvent.ofJson) TriggerEvent.toJson j := by
  obtain ⟨o, rfl⟩ := type_object (valid_part h (.head _))
  have hr := hs.readable
  have hk := hs.kept
  refine object_keeps ?_
  refine bind_keeps (opt_keeps (g := Json.str) fun x hx => ?_) fun _ f0 => ?_
  · have h := valid_property (valid_part h (.tail _ (.tail _ (.head _)))) (.head _) hx
    have hkn := hs.known hx
    have hs := hs.member hx
    exact string_keeps (type_string h)
  refine bind_keeps (opt_keeps (g := Json.str) fun x hx => ?_) fun _ f1 => ?_
  · have h := valid_property (valid_part h (.tail _ (.tail _ (.head _)))) (.tail _ (.head _)) hx
    have hkn := hs.known hx
    have hs := hs.member hx
    exact string_keeps (type_string h)
  refine bind_keeps (opt_keeps (g := Json.str) fun x hx => ?_) fun _ f2 => ?_
  · have h := valid_property (valid_part h (.tail _ (.tail _ (.head _)))) (.tail _ (.tail _ (.head _))) hx
    have hkn := hs.known hx
    have hs := hs.member hx
    exact string_keeps (type_string (valid_part h (.head _)))
  refine bind_keeps (opt_keeps (g := Attachment.toJson) fun x hx => ?_) fun _ f3 => ?_
  · have h := valid_property (valid_part h (.tail _ (.tail _ (.head _)))) (.tail _ (.tail _ (.tail _ (.head _)))) hx
    have hkn := hs.known hx
    have hs := hs.member hx
    exact v15k_attachment_Attachment (v15_ref_attachment h) hs
  refine bind_keeps (opt_keeps (g := ResourceReference.toJson) fun x hx => ?_) fun _ f4 => ?_
  · have h := valid_property (valid_part h (.tail _ (.tail _ (.head _)))) (.tail _ (.tail _ (.tail _ (.tail _ (.head _))))) hx
    have hkn := hs.known hx
    have hs := hs.member hx
    exact v15k_resourceReferenceChoice_ResourceReference (v15_ref_resourceReferenceChoice h) hs
  refine bind_keeps (opt_keeps (g := ResourceReference.toJson) fun x hx => ?_) fun _ f5 => ?_
  · have h := valid_property (valid_part h (.tail _ (.tail _ (.head _)))) (.tail _ (.tail _ (.tail _ (.tail _ (.tail _ (.head _)))))) hx
    have hkn := hs.known hx
    have hs := hs.member hx
    exact v15k_resourceReferenceChoice_ResourceReference (v15_ref_resourceReferenceChoice h) hs
  refine bind_keeps (opt_keeps (g := (Json.ofList Property.toJson)) fun x hx => ?_) fun _ f6 => ?_
  · have h := valid_property (valid_part h (.tail _ (.tail _ (.head _)))) (.tail _ (.tail _ (.tail _ (.tail _ (.tail _ (.tail _ (.head _))))))) hx
    have hkn := hs.known hx
    have hs := hs.member hx
    refine items_keeps (valid_part h (.head _)) (valid_part h (.tail _ (.head _))) hs fun l el y hy h hs => ?_
    exact v15k_property_Property (v15_ref_property h) hs (hr.named _ (el ▸ hx) _ hy) (fun p e => hk.properties _ _ (el ▸ hx) (by simp) p (e ▸ hy))
  exact ⟨_, rfl, same_mk hs.nodup (forall_head f0 (forall_head f1 (forall_head f2 (forall_head f3 (forall_head f4 (forall_head f5 (forall_head f6 nofun))))))) (all_written (ks := ["uid", "description", "timeReceived", "data", "source", "target", "properties"]) (lost := []) (closed_only (valid_part h (.tail _ (.head _)))) no_members rfl (by decide +kernel))⟩

theorem v15k_condition_Condition {n : Nat} {j : Json} (h : Valid (schemaContext F .v1_5) Schema15.condition j) (hs : Clean n j) :
    Keeps (Condition.ofJson) Condition.toJson j := by
  obtain ⟨o, rfl⟩ := type_object (valid_part h (.head _))
  have hr := hs.readable
  have hk := hs.kept
  refine object_keeps ?_
  refine bind_keeps (opt_keeps (g := Json.str) fun x hx => ?_) fun _ f0 => ?_
  · have h := valid_property (valid_part h (.tail _ (.tail _ (.head _)))) (.head _) hx
    have hkn := hs.known hx
    have hs := hs.member hx
    exact string_keeps (type_string h)
  refine bind_keeps (opt_keeps (g := Json.str) fun x hx => ?_) fun _ f1 => ?_
  · have h := valid_property (valid_part h (.tail _ (.tail _ (.head _)))) (.tail _ (.head _)) hx
    have hkn := hs.known hx
    have hs := hs.member hx
    exact string_keeps (type_string h)
  refine bind_keeps (opt_keeps (g := (Json.ofList Property.toJson)) fun x hx => ?_) fun _ f2 => ?_
  · have h := valid_property (valid_part h (.tail _ (.tail _ (.head _)))) (.tail _ (.tail _ (.head _))) hx
    have hkn := hs.known hx
    have hs := hs.member hx
    refine items_keeps (valid_part h (.head _)) (valid_part h (.tail _ (.head _))) hs fun l el y hy h hs => ?_
    exact v15k_property_Property (v15_ref_property h) hs (hr.named _ (el ▸ hx) _ hy) (fun p e => hk.properties _ _ (el ▸ hx) (by simp) p (e ▸ hy))
  exact ⟨_, rfl, same_mk hs.nodup (forall_head f0 (forall_head f1 (forall_head f2 nofun))) (all_written (ks := ["description", "expression", "properties"]) (lost := []) (closed_only (valid_part h (.tail _ (.head _)))) no_members rfl (by decide +kernel))⟩

theorem v15k_parameter_Parameter {n : Nat} {j : Json} (h : Valid (schemaContext F .v1_5) Schema15.parameter j) (hs : Clean n j) :
    Keeps (Parameter.ofJson) Parameter.toJson j := by
  obtain ⟨o, rfl⟩ := type_object (valid_part h (.head _))
  have hr := hs.readable
  have hk := hs.kept
  refine object_keeps ?_
  refine bind_keeps (opt_keeps (g := Json.str) fun x hx => ?_) fun _ f0 => ?_
  · have h := valid_property (valid_part h (.tail _ (.tail _ (.head _)))) (.head _) hx
    have hkn := hs.known hx
    have hs := hs.member hx
    exact string_keeps (type_string h)
  refine bind_keeps (opt_keeps (g := Json.str) fun x hx => ?_) fun _ f1 => ?_
  · have h := valid_property (valid_part h (.tail _ (.tail _ (.head _)))) (.tail _ (.head _)) hx
    have hkn := hs.known hx
    have hs := hs.member hx
    exact string_keeps (type_string h)
  refine bind_keeps (opt_keeps (g := Json.str) fun x hx => ?_) fun _ f2 => ?_
  · have h := valid_property (valid_part h (.tail _ (.tail _ (.head _)))) (.tail _ (.tail _ (.head _))) hx
    have hkn := hs.known hx
    have hs := hs.member hx
    exact string_keeps (type_string h)
  exact ⟨_, rfl, same_mk hs.nodup (forall_head f0 (forall_head f1 (forall_head f2 nofun))) (all_written (ks := ["name", "value", "dataType"]) (lost := []) (closed_only (valid_part h (.tail _ (.head _)))) no_members rfl (by decide +kernel))⟩

theorem v15k_inputType_Input {n : Nat} {j : Json} (h : Valid (schemaContext F .v1_5) Schema15.inputType j) (hs : Clean n j) :
    Keeps (Input.ofJson) Input.toJson j := by
  obtain ⟨o, rfl⟩ := type_object (valid_part h (.head _))
  have hr := hs.readable
  have hk := hs.kept
  refine object_keeps ?_
  have key : ∃ y, RequiredInputField.ofFields o = .ok y ∧ (∀ p ∈ RequiredInputField.toFields y, FieldKept o p.1 p.2) ∧ ∀ k ∈ ["resource", "parameters", "environmentVars", "data"], ∀ x, (k, x) ∈ o → ∃ w, (k, w) ∈ RequiredInputField.toFields y := by
    refine flatUntagged_keeps (toFields := RequiredInputField.toFields) (ks := ["resource", "parameters", "environmentVars", "data"]) (valid_part h (.tail _ (.tail _ (.tail _ (.head _))))) (by simp) ?_ ?_
    · intro p hp hn x hx
      simp only [List.mem_cons, List.not_mem_nil, or_false] at hp
      rcases hp with rfl | rfl | rfl | rfl
      · exact absurd (by simp) hn
      · exact absurd (by simp) hn
      · exact absurd (by simp) hn
      · exact absurd (by simp) hn
    · intro p hp x hx
      simp only [List.mem_cons, List.not_mem_nil, or_false] at hp
      rcases hp with rfl | rfl | rfl | rfl
      · have h := valid_property (valid_part h (.tail _ (.tail _ (.head _)))) (.tail _ (.tail _ (.head _))) hx
        have hs := hs.member hx
        refine variant_keeps (?_ : Keeps (ResourceReference.ofJson) ResourceReference.toJson x) fun _ => rfl
        exact v15k_resourceReferenceChoice_ResourceReference (v15_ref_resourceReferenceChoice h) hs
      · have h := valid_property (valid_part h (.tail _ (.tail _ (.head _)))) (.tail _ (.tail _ (.tail _ (.head _)))) hx
        have hs := hs.member hx
        refine variant_keeps (?_ : Keeps (Json.array Parameter.ofJson) (Json.ofList Parameter.toJson) x) fun _ => rfl
        refine items_keeps (valid_part h (.head _)) (valid_part h (.tail _ (.tail _ (.head _)))) hs fun l el y hy h hs => ?_
        exact v15k_parameter_Parameter (v15_ref_parameter h) hs
      · have h := valid_property (valid_part h (.tail _ (.tail _ (.head _)))) (.tail _ (.tail _ (.tail _ (.tail _ (.head _))))) hx
        have hs := hs.member hx
        refine variant_keeps (?_ : Keeps (Json.array EnvironmentVar.ofJson) (Json.ofList EnvironmentVar.toJson) x) fun _ => rfl
        refine items_keeps (valid_part h (.head _)) (valid_part h (.tail _ (.tail _ (.head _)))) hs fun l el y hy h hs => ?_
        rcases hr.environment _ (el ▸ hx) _ hy with ⟨s, rfl⟩ | hh
        · exact ⟨nofun, .value s, rfl, .str s⟩
        · rcases oneOf_two h with h | h
          · replace h := (v15_ref_property h)
            obtain ⟨o, rfl⟩ := type_object (valid_part h (.head _))
            have hcl := hk.properties _ _ (el ▸ hx) (by simp) o hy
            refine ⟨nofun, fields_keeps ?_⟩
            refine bind_keeps (req_keeps (g := Json.str) hh.1.lookup fun x hx => string_keeps (type_string (valid_property (valid_part h (.tail _ (.head _))) (.head _) hx))) fun _ f0 => ?_
            refine bind_keeps (req_keeps (g := Json.str) hh.2.lookup fun x hx => string_keeps (type_string (valid_property (valid_part h (.tail _ (.head _))) (.tail _ (.head _)) hx))) fun _ f1 => ?_
            exact ⟨_, rfl, same_mk hs.nodup (forall_head f0 (forall_head f1 nofun)) (all_written (ks := ["name", "value"]) hcl no_members rfl (by decide +kernel))⟩
          · obtain ⟨s, rfl⟩ := (type_string h)
            exact ⟨nofun, .value s, rfl, .str s⟩
      · have h := valid_property (valid_part h (.tail _ (.tail _ (.head _)))) (.tail _ (.tail _ (.tail _ (.tail _ (.tail _ (.head _)))))) hx
        have hs := hs.member hx
        refine variant_keeps (?_ : Keeps (Attachment.ofJson) Attachment.toJson x) fun _ => rfl
        exact v15k_attachment_Attachment (v15_ref_attachment h) hs
  refine bind_keeps key fun yf ff => ?_
  refine bind_keeps (opt_keeps (g := ResourceReference.toJson) fun x hx => ?_) fun _ f0 => ?_
  · have h := valid_property (valid_part h (.tail _ (.tail _ (.head _)))) (.head _) hx
    have hkn := hs.known hx
    have hs := hs.member hx
    exact v15k_resourceReferenceChoice_ResourceReference (v15_ref_resourceReferenceChoice h) hs
  refine bind_keeps (opt_keeps (g := ResourceReference.toJson) fun x hx => ?_) fun _ f1 => ?_
  · have h := valid_property (valid_part h (.tail _ (.tail _ (.head _)))) (.tail _ (.head _)) hx
    have hkn := hs.known hx
    have hs := hs.member hx
    exact v15k_resourceReferenceChoice_ResourceReference (v15_ref_resourceReferenceChoice h) hs
  refine bind_keeps (opt_keeps (g := (Json.ofList Property.toJson)) fun x hx => ?_) fun _ f2 => ?_
  · have h := valid_property (valid_part h (.tail _ (.tail _ (.head _)))) (.tail _ (.tail _ (.tail _ (.tail _ (.tail _ (.tail _ (.head _))))))) hx
    have hkn := hs.known hx
    have hs := hs.member hx
    refine items_keeps (valid_part h (.head _)) (valid_part h (.tail _ (.head _))) hs fun l el y hy h hs => ?_
    exact v15k_property_Property (v15_ref_property h) hs (hr.named _ (el ▸ hx) _ hy) (fun p e => hk.properties _ _ (el ▸ hx) (by simp) p (e ▸ hy))
  exact ⟨_, rfl, same_mk hs.nodup (forall_append ff.1 (forall_head f0 (forall_head f1 (forall_head f2 nofun)))) (all_written_flat (ks := ["source", "target", "properties"]) (lost := []) (closed_only (valid_part h (.tail _ (.head _)))) no_members ff.2 rfl (by decide +kernel))⟩

theorem v15k_outputType_Output {n : Nat} {j : Json} (h : Valid (schemaContext F .v1_5) Schema15.outputType j) (hs : Clean n j) :
    Keeps (Output.ofJson) Output.toJson j := by
  obtain ⟨o, rfl⟩ := type_object (valid_part h (.head _))
  have hr := hs.readable
  have hk := hs.kept
  refine object_keeps ?_
  have key : ∃ y, RequiredOutputField.ofFields o = .ok y ∧ (∀ p ∈ RequiredOutputField.toFields y, FieldKept o p.1 p.2) ∧ ∀ k ∈ ["resource", "environmentVars", "data"], ∀ x, (k, x) ∈ o → ∃ w, (k, w) ∈ RequiredOutputField.toFields y := by
    refine flatUntagged_keeps (toFields := RequiredOutputField.toFields) (ks := ["resource", "environmentVars", "data"]) (valid_part h (.tail _ (.tail _ (.tail _ (.head _))))) (by simp) ?_ ?_
    · intro p hp hn x hx
      simp only [List.mem_cons, List.not_mem_nil, or_false] at hp
      rcases hp with rfl | rfl | rfl
      · exact absurd (by simp) hn
      · exact absurd (by simp) hn
      · exact absurd (by simp) hn
    · intro p hp x hx
      simp only [List.mem_cons, List.not_mem_nil, or_false] at hp
      rcases hp with rfl | rfl | rfl
      · have h := valid_property (valid_part h (.tail _ (.tail _ (.head _)))) (.tail _ (.tail _ (.tail _ (.head _)))) hx
        have hs := hs.member hx
        refine variant_keeps (?_ : Keeps (ResourceReference.ofJson) ResourceReference.toJson x) fun _ => rfl
        exact v15k_resourceReferenceChoice_ResourceReference (v15_ref_resourceReferenceChoice h) hs
      · have h := valid_property (valid_part h (.tail _ (.tail _ (.head _)))) (.tail _ (.tail _ (.tail _ (.tail _ (.tail _ (.head _)))))) hx
        have hs := hs.member hx
        refine variant_keeps (?_ : Keeps (Json.array EnvironmentVar.ofJson) (Json.ofList EnvironmentVar.toJson) x) fun _ => rfl
        refine items_keeps (valid_part h (.head _)) (valid_part h (.tail _ (.tail _ (.head _)))) hs fun l el y hy h hs => ?_
        rcases hr.environment _ (el ▸ hx) _ hy with ⟨s, rfl⟩ | hh
        · exact ⟨nofun, .value s, rfl, .str s⟩
        · rcases oneOf_two h with h | h
          · replace h := (v15_ref_property h)
            obtain ⟨o, rfl⟩ := type_object (valid_part h (.head _))
            have hcl := hk.properties _ _ (el ▸ hx) (by simp) o hy
            refine ⟨nofun, fields_keeps ?_⟩
            refine bind_keeps (req_keeps (g := Json.str) hh.1.lookup fun x hx => string_keeps (type_string (valid_property (valid_part h (.tail _ (.head _))) (.head _) hx))) fun _ f0 => ?_
            refine bind_keeps (req_keeps (g := Json.str) hh.2.lookup fun x hx => string_keeps (type_string (valid_property (valid_part h (.tail _ (.head _))) (.tail _ (.head _)) hx))) fun _ f1 => ?_
            exact ⟨_, rfl, same_mk hs.nodup (forall_head f0 (forall_head f1 nofun)) (all_written (ks := ["name", "value"]) hcl no_members rfl (by decide +kernel))⟩
          · obtain ⟨s, rfl⟩ := (type_string h)
            exact ⟨nofun, .value s, rfl, .str s⟩
      · have h := valid_property (valid_part h (.tail _ (.tail _ (.head _)))) (.tail _ (.tail _ (.tail _ (.tail _ (.head _))))) hx
        have hs := hs.member hx
        refine variant_keeps (?_ : Keeps (Attachment.ofJson) Attachment.toJson x) fun _ => rfl
        exact v15k_attachment_Attachment (v15_ref_attachment h) hs
  refine bind_keeps key fun yf ff => ?_
  refine bind_keeps (opt_keeps (g := (Json.ofEnum OutputType.display)) fun x hx => ?_) fun _ f0 => ?_
  · have h := valid_property (valid_part h (.tail _ (.tail _ (.head _)))) (.head _) hx
    have hkn := hs.known hx
    have hs := hs.member hx
    exact enum_keeps (type_string (valid_part h (.head _))) fun s e => OutputType.display_new s
  refine bind_keeps (opt_keeps (g := ResourceReference.toJson) fun x hx => ?_) fun _ f1 => ?_
  · have h := valid_property (valid_part h (.tail _ (.tail _ (.head _)))) (.tail _ (.head _)) hx
    have hkn := hs.known hx
    have hs := hs.member hx
    exact v15k_resourceReferenceChoice_ResourceReference (v15_ref_resourceReferenceChoice h) hs
  refine bind_keeps (opt_keeps (g := ResourceReference.toJson) fun x hx => ?_) fun _ f2 => ?_
  · have h := valid_property (valid_part h (.tail _ (.tail _ (.head _)))) (.tail _ (.tail _ (.head _))) hx
    have hkn := hs.known hx
    have hs := hs.member hx
    exact v15k_resourceReferenceChoice_ResourceReference (v15_ref_resourceReferenceChoice h) hs
  refine bind_keeps (opt_keeps (g := (Json.ofList Property.toJson)) fun x hx => ?_) fun _ f3 => ?_
  · have h := valid_property (valid_part h (.tail _ (.tail _ (.head _)))) (.tail _ (.tail _ (.tail _ (.tail _ (.tail _ (.tail _ (.head _))))))) hx
    have hkn := hs.known hx
    have hs := hs.member hx
    refine items_keeps (valid_part h (.head _)) (valid_part h (.tail _ (.head _))) hs fun l el y hy h hs => ?_
    exact v15k_property_Property (v15_ref_property h) hs (hr.named _ (el ▸ hx) _ hy) (fun p e => hk.properties _ _ (el ▸ hx) (by simp) p (e ▸ hy))
  exact ⟨_, rfl, same_mk hs.nodup (forall_append ff.1 (forall_head f0 (forall_head f1 (forall_head f2 (forall_head f3 nofun))))) (all_written_flat (ks := ["type", "source", "target", "properties"]) (lost := []) (closed_only (valid_part h (.tail _ (.head _)))) no_members ff.2 rfl (by decide +kernel))⟩

theorem v15k_trigger_Trigger {n : Nat} {j : Json} (h : Valid (schemaContext F .v1_5) Schema15.trigger j) (hs : Clean n j) :
    Keeps (Trigger.ofJson) Trigger.toJson j := by
  obtain ⟨o, rfl⟩ := type_object (valid_part h (.head _))
  have hr := hs.readable
  have hk := hs.kept
  have hreq := (valid_part h (.tail _ (.head _)))
  refine object_keeps ?_
  refine bind_keeps (req_keeps (g := Json.str) (valid_required hreq (by simp)) fun x hx => ?_) fun _ f0 => ?_
  · have h := valid_property (valid_part h (.tail _ (.tail _ (.tail _ (.head _))))) (.head _) hx
    have hkn := hs.known hx
    have hs := hs.member hx
    exact string_keeps (type_string (valid_part (v15_ref_refType h) (.head _)))
  refine bind_keeps (req_keeps (g := Json.str) (valid_required hreq (by simp)) fun x hx => ?_) fun _ f1 => ?_
  · have h := valid_property (valid_part h (.tail _ (.tail _ (.tail _ (.head _))))) (.tail _ (.head _)) hx
    have hkn := hs.known hx
    have hs := hs.member hx
    exact string_keeps (type_string h)
  refine bind_keeps (opt_keeps (g := Json.str) fun x hx => ?_) fun _ f2 => ?_
  · have h := valid_property (valid_part h (.tail _ (.tail _ (.tail _ (.head _))))) (.tail _ (.tail _ (.head _))) hx
    have hkn := hs.known hx
    have hs := hs.member hx
    exact string_keeps (type_string h)
  refine bind_keeps (opt_keeps (g := Json.str) fun x hx => ?_) fun _ f3 => ?_
  · have h := valid_property (valid_part h (.tail _ (.tail _ (.tail _ (.head _))))) (.tail _ (.tail _ (.tail _ (.head _)))) hx
    have hkn := hs.known hx
    have hs := hs.member hx
    exact string_keeps (type_string h)
  refine bind_keeps (opt_keeps (g := (Json.ofList ResourceReference.toJson)) fun x hx => ?_) fun _ f4 => ?_
  · have h := valid_property (valid_part h (.tail _ (.tail _ (.tail _ (.head _))))) (.tail _ (.tail _ (.tail _ (.tail _ (.head _))))) hx
    have hkn := hs.known hx
    have hs := hs.member hx
    refine items_keeps (valid_part h (.head _)) (valid_part h (.tail _ (.tail _ (.head _)))) hs fun l el y hy h hs => ?_
    exact v15k_resourceReferenceChoice_ResourceReference (v15_ref_resourceReferenceChoice h) hs
  refine bind_keeps (req_keeps (g := (Json.ofEnum TriggerType.display)) (valid_required hreq (by simp)) fun x hx => ?_) fun _ f5 => ?_
  · have h := valid_property (valid_part h (.tail _ (.tail _ (.tail _ (.head _))))) (.tail _ (.tail _ (.tail _ (.tail _ (.tail _ (.head _)))))) hx
    have hkn := hs.known hx
    have hs := hs.member hx
    exact enum_keeps (type_string (valid_part h (.head _))) fun s e => TriggerType.display_new s
  refine bind_keeps (opt_keeps (g := TriggerEvent.toJson) fun x hx => ?_) fun _ f6 => ?_
  · have h := valid_property (valid_part h (.tail _ (.tail _ (.tail _ (.head _))))) (.tail _ (.tail _ (.tail _ (.tail _ (.tail _ (.tail _ (.head _))))))) hx
    have hkn := hs.known hx
    have hs := hs.member hx
    exact v15k_event_TriggerEvent (v15_ref_event h) hs
  refine bind_keeps (opt_keeps (g := (Json.ofList Condition.toJson)) fun x hx => ?_) fun _ f7 => ?_
  · have h := valid_property (valid_part h (.tail _ (.tail _ (.tail _ (.head _))))) (.tail _ (.tail _ (.tail _ (.tail _ (.tail _ (.tail _ (.tail _ (.head _)))))))) hx
    have hkn := hs.known hx
    have hs := hs.member hx
    refine items_keeps (valid_part h (.head _)) (valid_part h (.tail _ (.tail _ (.head _)))) hs fun l el y hy h hs => ?_
    exact v15k_condition_Condition (v15_ref_condition h) hs
  refine bind_keeps (opt_keeps (g := Json.str) fun x hx => ?_) fun _ f8 => ?_
  · have h := valid_property (valid_part h (.tail _ (.tail _ (.tail _ (.head _))))) (.tail _ (.tail _ (.tail _ (.tail _ (.tail _ (.tail _ (.tail _ (.tail _ (.head _))))))))) hx
    have hkn := hs.known hx
    have hs := hs.member hx
    exact string_keeps (type_string (valid_part h (.head _)))
  refine bind_keeps (opt_keeps (g := (Json.ofList Input.toJson)) fun x hx => ?_) fun _ f9 => ?_
  · have h := valid_property (valid_part h (.tail _ (.tail _ (.tail _ (.head _))))) (.tail _ (.tail _ (.tail _ (.tail _ (.tail _ (.tail _ (.tail _ (.tail _ (.tail _ (.head _)))))))))) hx
    have hkn := hs.known hx
    have hs := hs.member hx
    refine items_keeps (valid_part h (.head _)) (valid_part h (.tail _ (.tail _ (.head _)))) hs fun l el y hy h hs => ?_
    exact v15k_inputType_Input (v15_ref_inputType h) hs
  refine bind_keeps (opt_keeps (g := (Json.ofList Output.toJson)) fun x hx => ?_) fun _ f10 => ?_
  · have h := valid_property (valid_part h (.tail _ (.tail _ (.tail _ (.head _))))) (.tail _ (.tail _ (.tail _ (.tail _ (.tail _ (.tail _ (.tail _ (.tail _ (.tail _ (.tail _ (.head _))))))))))) hx
    have hkn := hs.known hx
    have hs := hs.member hx
    refine items_keeps (valid_part h (.head _)) (valid_part h (.tail _ (.tail _ (.head _)))) hs fun l el y hy h hs => ?_
    exact v15k_outputType_Output (v15_ref_outputType h) hs
  refine bind_keeps (opt_keeps (g := (Json.ofList Property.toJson)) fun x hx => ?_) fun _ f11 => ?_
  · have h := valid_property (valid_part h (.tail _ (.tail _ (.tail _ (.head _))))) (.tail _ (.tail _ (.tail _ (.tail _ (.tail _ (.tail _ (.tail _ (.tail _ (.tail _ (.tail _ (.tail _ (.head _)))))))))))) hx
    have hkn := hs.known hx
    have hs := hs.member hx
    refine items_keeps (valid_part h (.head _)) (valid_part h (.tail _ (.head _))) hs fun l el y hy h hs => ?_
    exact v15k_property_Property (v15_ref_property h) hs (hr.named _ (el ▸ hx) _ hy) (fun p e => hk.properties _ _ (el ▸ hx) (by simp) p (e ▸ hy))
  exact ⟨_, rfl, same_mk hs.nodup (forall_head f0 (forall_head f1 (forall_head f2 (forall_head f3 (forall_head f4 (forall_head f5 (forall_head f6 (forall_head f7 (forall_head f8 (forall_head f9 (forall_head f10 (forall_head f11 nofun)))))))))))) (all_written (ks := ["bom-ref", "uid", "name", "description", "resourceReferences", "type", "event", "conditions", "timeActivated", "inputs", "outputs", "properties"]) (lost := []) (closed_only (valid_part h (.tail _ (.tail _ (.head _))))) no_members rfl (by decide +kernel))⟩

theorem v15k_command_Command {n : Nat} {j : Json} (h : Valid (schemaContext F .v1_5) Schema15.command j) (hs : Clean n j) :
    Keeps (Command.ofJson) Command.toJson j := by
  obtain ⟨o, rfl⟩ := type_object (valid_part h (.head _))
  have hr := hs.readable
  have hk := hs.kept
  refine object_keeps ?_
  refine bind_keeps (opt_keeps (g := Json.str) fun x hx => ?_) fun _ f0 => ?_
  · have h := valid_property (valid_part h (.tail _ (.tail _ (.head _)))) (.head _) hx
    have hkn := hs.known hx
    have hs := hs.member hx
    exact string_keeps (type_string h)
  refine bind_keeps (opt_keeps (g := (Json.ofList Property.toJson)) fun x hx => ?_) fun _ f1 => ?_
  · have h := valid_property (valid_part h (.tail _ (.tail _ (.head _)))) (.tail _ (.head _)) hx
    have hkn := hs.known hx
    have hs := hs.member hx
    refine items_keeps (valid_part h (.head _)) (valid_part h (.tail _ (.head _))) hs fun l el y hy h hs => ?_
    exact v15k_property_Property (v15_ref_property h) hs (hr.named _ (el ▸ hx) _ hy) (fun p e => hk.properties _ _ (el ▸ hx) (by simp) p (e ▸ hy))
  exact ⟨_, rfl, same_mk hs.nodup (forall_head f0 (forall_head f1 nofun)) (all_written (ks := ["executed", "properties"]) (lost := []) (closed_only (valid_part h (.tail _ (.head _)))) no_members rfl (by decide +kernel))⟩

theorem v15k_step_Step {n : Nat} {j : Json} (h : Valid (schemaContext F .v1_5) Schema15.step j) (hs : Clean n j) :
    Keeps (Step.ofJson) Step.toJson j := by
  obtain ⟨o, rfl⟩ := type_object (valid_part h (.head _))
  have hr := hs.readable
  have hk := hs.kept
  refine object_keeps ?_
  refine bind_keeps (opt_keeps (g := (Json.ofList Command.toJson)) fun x hx => ?_) fun _ f0 => ?_
  · have h := valid_property (valid_part h (.tail _ (.tail _ (.head _)))) (.tail _ (.tail _ (.head _))) hx
    have hkn := hs.known hx
    have hs := hs.member hx
    refine items_keeps (valid_part h (.head _)) (valid_part h (.tail _ (.head _))) hs fun l el y hy h hs => ?_
    exact v15k_command_Command (v15_ref_command h) hs
  refine bind_keeps (opt_keeps (g := Json.str) fun x hx => ?_) fun _ f1 => ?_
  · have h := valid_property (valid_part h (.tail _ (.tail _ (.head _)))) (.tail _ (.head _)) hx
    have hkn := hs.known hx
    have hs := hs.member hx
    exact string_keeps (type_string h)
  refine bind_keeps (opt_keeps (g := Json.str) fun x hx => ?_) fun _ f2 => ?_
  · have h := valid_property (valid_part h (.tail _ (.tail _ (.head _)))) (.head _) hx
    have hkn := hs.known hx
    have hs := hs.member hx
    exact string_keeps (type_string h)
  refine bind_keeps (opt_keeps (g := (Json.ofList Property.toJson)) fun x hx => ?_) fun _ f3 => ?_
  · have h := valid_property (valid_part h (.tail _ (.tail _ (.head _)))) (.tail _ (.tail _ (.tail _ (.head _)))) hx
    have hkn := hs.known hx
    have hs := hs.member hx
    refine items_keeps (valid_part h (.head _)) (valid_part h (.tail _ (.head _))) hs fun l el y hy h hs => ?_
    exact v15k_property_Property (v15_ref_property h) hs (hr.named _ (el ▸ hx) _ hy) (fun p e => hk.properties _ _ (el ▸ hx) (by simp) p (e ▸ hy))
  exact ⟨_, rfl, same_mk hs.nodup (forall_head f0 (forall_head f1 (forall_head f2 (forall_head f3 nofun)))) (all_written (ks := ["commands", "description", "name", "properties"]) (lost := []) (closed_only (valid_part h (.tail _ (.head _)))) no_members rfl (by decide +kernel))⟩

theorem v15k_volume_Volume {n : Nat} {j : Json} (h : Valid (schemaContext F .v1_5) Schema15.volume j) (hs : Clean n j)
    (hmode : Has "mode" j) :
    Keeps (Volume.ofJson) Volume.toJson j := by
  obtain ⟨o, rfl⟩ := type_object (valid_part h (.head _))
  have hr := hs.readable
  have hk := hs.kept
  refine object_keeps ?_
  refine bind_keeps (opt_keeps (g := Json.str) fun x hx => ?_) fun _ f0 => ?_
  · have h := valid_property (valid_part h (.tail _ (.tail _ (.head _)))) (.head _) hx
    have hkn := hs.known hx
    have hs := hs.member hx
    exact string_keeps (type_string h)
  refine bind_keeps (opt_keeps (g := Json.str) fun x hx => ?_) fun _ f1 => ?_
  · have h := valid_property (valid_part h (.tail _ (.tail _ (.head _)))) (.tail _ (.head _)) hx
    have hkn := hs.known hx
    have hs := hs.member hx
    exact string_keeps (type_string h)
  refine bind_keeps (default_keeps (g := (Json.ofEnum VolumeMode.display)) hmode.lookup fun x hx => ?_) fun _ f2 => ?_
  · have h := valid_property (valid_part h (.tail _ (.tail _ (.head _)))) (.tail _ (.tail _ (.head _))) hx
    have hkn := hs.known hx
    have hs := hs.member hx
    exact enum_keeps (type_string (valid_part h (.head _))) fun s e => VolumeMode.display_new s
  refine bind_keeps (opt_keeps (g := Json.str) fun x hx => ?_) fun _ f3 => ?_
  · have h := valid_property (valid_part h (.tail _ (.tail _ (.head _)))) (.tail _ (.tail _ (.tail _ (.head _)))) hx
    have hkn := hs.known hx
    have hs := hs.member hx
    exact string_keeps (type_string h)
  refine bind_keeps (opt_keeps (g := Json.str) fun x hx => ?_) fun _ f4 => ?_
  · have := valid_closed (valid_part h (.tail _ (.head _))) hx
    simp at this
  refine bind_keeps (opt_keeps (g := Json.bool) fun x hx => ?_) fun _ f5 => ?_
  · have h := valid_property (valid_part h (.tail _ (.tail _ (.head _)))) (.tail _ (.tail _ (.tail _ (.tail _ (.tail _ (.head _)))))) hx
    have hkn := hs.known hx
    have hs := hs.member hx
    exact boolean_keeps h
  refine bind_keeps (opt_keeps (g := Json.bool) fun x hx => ?_) fun _ f6 => ?_
  · have h := valid_property (valid_part h (.tail _ (.tail _ (.head _)))) (.tail _ (.tail _ (.tail _ (.tail _ (.tail _ (.tail _ (.head _))))))) hx
    have hkn := hs.known hx
    have hs := hs.member hx
    exact boolean_keeps h
  refine bind_keeps (opt_keeps (g := (Json.ofList Property.toJson)) fun x hx => ?_) fun _ f7 => ?_
  · have h := valid_property (valid_part h (.tail _ (.tail _ (.head _)))) (.tail _ (.tail _ (.tail _ (.tail _ (.tail _ (.tail _ (.tail _ (.head _)))))))) hx
    have hkn := hs.known hx
    have hs := hs.member hx
    refine items_keeps (valid_part h (.head _)) (valid_part h (.tail _ (.head _))) hs fun l el y hy h hs => ?_
    exact v15k_property_Property (v15_ref_property h) hs (hr.named _ (el ▸ hx) _ hy) (fun p e => hk.properties _ _ (el ▸ hx) (by simp) p (e ▸ hy))
  exact ⟨_, rfl, same_mk hs.nodup (forall_head f0 (forall_head f1 (forall_head f2 (forall_head f3 (forall_head f4 (forall_head f5 (forall_head f6 (forall_head f7 nofun)))))))) (all_written (ks := ["uid", "name", "mode", "path", "size_allocated", "persistent", "remote", "properties"]) (lost := ["sizeAllocated"]) (closed_only (valid_part h (.tail _ (.head _)))) (no_member (hk.dropped _ (by simp)) no_members) rfl (by decide +kernel))⟩

theorem v15k_workspace_Workspace {n : Nat} {j : Json} (h : Valid (schemaContext F .v1_5) Schema15.workspace j) (hs : Clean n j) :
    Keeps (Workspace.ofJson) Workspace.toJson j := by
  obtain ⟨o, rfl⟩ := type_object (valid_part h (.head _))
  have hr := hs.readable
  have hk := hs.kept
  have hreq := (valid_part h (.tail _ (.head _)))
  refine object_keeps ?_
  refine bind_keeps (req_keeps (g := Json.str) (valid_required hreq (by simp)) fun x hx => ?_) fun _ f0 => ?_
  · have h := valid_property (valid_part h (.tail _ (.tail _ (.tail _ (.head _))))) (.head _) hx
    have hkn := hs.known hx
    have hs := hs.member hx
    exact string_keeps (type_string (valid_part (v15_ref_refType h) (.head _)))
  refine bind_keeps (req_keeps (g := Json.str) (valid_required hreq (by simp)) fun x hx => ?_) fun _ f1 => ?_
  · have h := valid_property (valid_part h (.tail _ (.tail _ (.tail _ (.head _))))) (.tail _ (.head _)) hx
    have hkn := hs.known hx
    have hs := hs.member hx
    exact string_keeps (type_string h)
  refine bind_keeps (opt_keeps (g := Json.str) fun x hx => ?_) fun _ f2 => ?_
  · have h := valid_property (valid_part h (.tail _ (.tail _ (.tail _ (.head _))))) (.tail _ (.tail _ (.head _))) hx
    have hkn := hs.known hx
    have hs := hs.member hx
    exact string_keeps (type_string h)
  refine bind_keeps (opt_keeps (g := (Json.ofList Json.str)) fun x hx => ?_) fun _ f3 => ?_
  · have h := valid_property (valid_part h (.tail _ (.tail _ (.tail _ (.head _))))) (.tail _ (.tail _ (.tail _ (.head _)))) hx
    have hkn := hs.known hx
    have hs := hs.member hx
    refine items_keeps (valid_part h (.head _)) (valid_part h (.tail _ (.head _))) hs fun l el y hy h hs => ?_
    exact string_keeps (type_string h)
  refine bind_keeps (opt_keeps (g := Json.str) fun x hx => ?_) fun _ f4 => ?_
  · have h := valid_property (valid_part h (.tail _ (.tail _ (.tail _ (.head _))))) (.tail _ (.tail _ (.tail _ (.tail _ (.head _))))) hx
    have hkn := hs.known hx
    have hs := hs.member hx
    exact string_keeps (type_string h)
  refine bind_keeps (opt_keeps (g := (Json.ofList ResourceReference.toJson)) fun x hx => ?_) fun _ f5 => ?_
  · have h := valid_property (valid_part h (.tail _ (.tail _ (.tail _ (.head _))))) (.tail _ (.tail _ (.tail _ (.tail _ (.tail _ (.head _)))))) hx
    have hkn := hs.known hx
    have hs := hs.member hx
    refine items_keeps (valid_part h (.head _)) (valid_part h (.tail _ (.tail _ (.head _)))) hs fun l el y hy h hs => ?_
    exact v15k_resourceReferenceChoice_ResourceReference (v15_ref_resourceReferenceChoice h) hs
  refine bind_keeps (opt_keeps (g := (Json.ofEnum AccessMode.display)) fun x hx => ?_) fun _ f6 => ?_
  · have h := valid_property (valid_part h (.tail _ (.tail _ (.tail _ (.head _))))) (.tail _ (.tail _ (.tail _ (.tail _ (.tail _ (.tail _ (.head _))))))) hx
    have hkn := hs.known hx
    have hs := hs.member hx
    exact enum_keeps (type_string (valid_part h (.head _))) fun s e => AccessMode.display_new s
  refine bind_keeps (opt_keeps (g := Json.str) fun x hx => ?_) fun _ f7 => ?_
  · have h := valid_property (valid_part h (.tail _ (.tail _ (.tail _ (.head _))))) (.tail _ (.tail _ (.tail _ (.tail _ (.tail _ (.tail _ (.tail _ (.head _)))))))) hx
    have hkn := hs.known hx
    have hs := hs.member hx
    exact string_keeps (type_string h)
  refine bind_keeps (opt_keeps (g := Json.str) fun x hx => ?_) fun _ f8 => ?_
  · have h := valid_property (valid_part h (.tail _ (.tail _ (.tail _ (.head _))))) (.tail _ (.tail _ (.tail _ (.tail _ (.tail _ (.tail _ (.tail _ (.tail _ (.head _))))))))) hx
    have hkn := hs.known hx
    have hs := hs.member hx
    exact string_keeps (type_string h)
  refine bind_keeps (opt_keeps (g := Json.str) fun x hx => ?_) fun _ f9 => ?_
  · have h := valid_property (valid_part h (.tail _ (.tail _ (.tail _ (.head _))))) (.tail _ (.tail _ (.tail _ (.tail _ (.tail _ (.tail _ (.tail _ (.tail _ (.tail _ (.head _)))))))))) hx
    have hkn := hs.known hx
    have hs := hs.member hx
    exact string_keeps (type_string h)
  refine bind_keeps (opt_keeps (g := Volume.toJson) fun x hx => ?_) fun _ f10 => ?_
  · have h := valid_property (valid_part h (.tail _ (.tail _ (.tail _ (.head _))))) (.tail _ (.tail _ (.tail _ (.tail _ (.tail _ (.tail _ (.tail _ (.tail _ (.tail _ (.tail _ (.head _))))))))))) hx
    have hkn := hs.known hx
    have hs := hs.member hx
    exact v15k_volume_Volume (v15_ref_volume h) hs (hk.mode _ hx)
  refine bind_keeps (opt_keeps (g := (Json.ofList Property.toJson)) fun x hx => ?_) fun _ f11 => ?_
  · have h := valid_property (valid_part h (.tail _ (.tail _ (.tail _ (.head _))))) (.tail _ (.tail _ (.tail _ (.tail _ (.tail _ (.tail _ (.tail _ (.tail _ (.tail _ (.tail _ (.tail _ (.head _)))))))))))) hx
    have hkn := hs.known hx
    have hs := hs.member hx
    refine items_keeps (valid_part h (.head _)) (valid_part h (.tail _ (.head _))) hs fun l el y hy h hs => ?_
    exact v15k_property_Property (v15_ref_property h) hs (hr.named _ (el ▸ hx) _ hy) (fun p e => hk.properties _ _ (el ▸ hx) (by simp) p (e ▸ hy))
  exact ⟨_, rfl, same_mk hs.nodup (forall_head f0 (forall_head f1 (forall_head f2 (forall_head f3 (forall_head f4 (forall_head f5 (forall_head f6 (forall_head f7 (forall_head f8 (forall_head f9 (forall_head f10 (forall_head f11 nofun)))))))))))) (all_written (ks := ["bom-ref", "uid", "name", "aliases", "description", "resourceReferences", "accessMode", "mountPath", "managedDataType", "volumeRequest", "volume", "properties"]) (lost := []) (closed_only (valid_part h (.tail _ (.tail _ (.head _))))) no_members rfl (by decide +kernel))⟩

theorem v15k_task_WorkflowTask {n : Nat} {j : Json} (h : Valid (schemaContext F .v1_5) Schema15.task j) (hs : Clean n j) :
    Keeps (WorkflowTask.ofJson) WorkflowTask.toJson j := by
  obtain ⟨o, rfl⟩ := type_object (valid_part h (.head _))
  have hr := hs.readable
  have hk := hs.kept
  have hreq := (valid_part h (.tail _ (.head _)))
  refine object_keeps ?_
  refine bind_keeps (req_keeps (g := Json.str) (valid_required hreq (by simp)) fun x hx => ?_) fun _ f0 => ?_
  · have h := valid_property (valid_part h (.tail _ (.tail _ (.tail _ (.head _))))) (.head _) hx
    have hkn := hs.known hx
    have hs := hs.member hx
    exact string_keeps (type_string (valid_part (v15_ref_refType h) (.head _)))
  refine bind_keeps (req_keeps (g := Json.str) (valid_required hreq (by simp)) fun x hx => ?_) fun _ f1 => ?_
  · have h := valid_property (valid_part h (.tail _ (.tail _ (.tail _ (.head _))))) (.tail _ (.head _)) hx
    have hkn := hs.known hx
    have hs := hs.member hx
    exact string_keeps (type_string h)
  refine bind_keeps (opt_keeps (g := Json.str) fun x hx => ?_) fun _ f2 => ?_
  · have h := valid_property (valid_part h (.tail _ (.tail _ (.tail _ (.head _))))) (.tail _ (.tail _ (.head _))) hx
    have hkn := hs.known hx
    have hs := hs.member hx
    exact string_keeps (type_string h)
  refine bind_keeps (opt_keeps (g := Json.str) fun x hx => ?_) fun _ f3 => ?_
  · have h := valid_property (valid_part h (.tail _ (.tail _ (.tail _ (.head _))))) (.tail _ (.tail _ (.tail _ (.head _)))) hx
    have hkn := hs.known hx
    have hs := hs.member hx
    exact string_keeps (type_string h)
  refine bind_keeps (opt_keeps (g := (Json.ofList ResourceReference.toJson)) fun x hx => ?_) fun _ f4 => ?_
  · have h := valid_property (valid_part h (.tail _ (.tail _ (.tail _ (.head _))))) (.tail _ (.tail _ (.tail _ (.tail _ (.head _))))) hx
    have hkn := hs.known hx
    have hs := hs.member hx
    refine items_keeps (valid_part h (.head _)) (valid_part h (.tail _ (.tail _ (.head _)))) hs fun l el y hy h hs => ?_
    exact v15k_resourceReferenceChoice_ResourceReference (v15_ref_resourceReferenceChoice h) hs
  refine bind_keeps (req_keeps (g := (Json.ofList (Json.ofEnum TaskType.display))) (valid_required hreq (by simp)) fun x hx => ?_) fun _ f5 => ?_
  · have h := valid_property (valid_part h (.tail _ (.tail _ (.tail _ (.head _))))) (.tail _ (.tail _ (.tail _ (.tail _ (.tail _ (.head _)))))) hx
    have hkn := hs.known hx
    have hs := hs.member hx
    refine items_keeps (valid_part h (.head _)) (valid_part h (.tail _ (.head _))) hs fun l el y hy h hs => ?_
    exact enum_keeps (type_string (valid_part (v15_ref_taskType h) (.head _))) fun s e => TaskType.display_new s
  refine bind_keeps (opt_keeps (g := Trigger.toJson) fun x hx => ?_) fun _ f6 => ?_
  · have h := valid_property (valid_part h (.tail _ (.tail _ (.tail _ (.head _))))) (.tail _ (.tail _ (.tail _ (.tail _ (.tail _ (.tail _ (.head _))))))) hx
    have hkn := hs.known hx
    have hs := hs.member hx
    exact v15k_trigger_Trigger (v15_ref_trigger h) hs
  refine bind_keeps (opt_keeps (g := (Json.ofList Step.toJson)) fun x hx => ?_) fun _ f7 => ?_
  · have h := valid_property (valid_part h (.tail _ (.tail _ (.tail _ (.head _))))) (.tail _ (.tail _ (.tail _ (.tail _ (.tail _ (.tail _ (.tail _ (.head _)))))))) hx
    have hkn := hs.known hx
    have hs := hs.member hx
    refine items_keeps (valid_part h (.head _)) (valid_part h (.tail _ (.tail _ (.head _)))) hs fun l el y hy h hs => ?_
    exact v15k_step_Step (v15_ref_step h) hs
  refine bind_keeps (opt_keeps (g := (Json.ofList Input.toJson)) fun x hx => ?_) fun _ f8 => ?_
  · have h := valid_property (valid_part h (.tail _ (.tail _ (.tail _ (.head _))))) (.tail _ (.tail _ (.tail _ (.tail _ (.tail _ (.tail _ (.tail _ (.tail _ (.head _))))))))) hx
    have hkn := hs.known hx
    have hs := hs.member hx
    refine items_keeps (valid_part h (.head _)) (valid_part h (.tail _ (.tail _ (.head _)))) hs fun l el y hy h hs => ?_
    exact v15k_inputType_Input (v15_ref_inputType h) hs
  refine bind_keeps (opt_keeps (g := (Json.ofList Output.toJson)) fun x hx => ?_) fun _ f9 => ?_
  · have h := valid_property (valid_part h (.tail _ (.tail _ (.tail _ (.head _))))) (.tail _ (.tail _ (.tail _ (.tail _ (.tail _ (.tail _ (.tail _ (.tail _ (.tail _ (.head _)))))))))) hx
    have hkn := hs.known hx
    have hs := hs.member hx
    refine items_keeps (valid_part h (.head _)) (valid_part h (.tail _ (.tail _ (.head _)))) hs fun l el y hy h hs => ?_
    exact v15k_outputType_Output (v15_ref_outputType h) hs
  refine bind_keeps (opt_keeps (g := Json.str) fun x hx => ?_) fun _ f10 => ?_
  · have h := valid_property (valid_part h (.tail _ (.tail _ (.tail _ (.head _))))) (.tail _ (.tail _ (.tail _ (.tail _ (.tail _ (.tail _ (.tail _ (.tail _ (.tail _ (.tail _ (.head _))))))))))) hx
    have hkn := hs.known hx
    have hs := hs.member hx
    exact string_keeps (type_string (valid_part h (.head _)))
  refine bind_keeps (opt_keeps (g := Json.str) fun x hx => ?_) fun _ f11 => ?_
  · have h := valid_property (valid_part h (.tail _ (.tail _ (.tail _ (.head _))))) (.tail _ (.tail _ (.tail _ (.tail _ (.tail _ (.tail _ (.tail _ (.tail _ (.tail _ (.tail _ (.tail _ (.head _)))))))))))) hx
    have hkn := hs.known hx
    have hs := hs.member hx
    exact string_keeps (type_string (valid_part h (.head _)))
  refine bind_keeps (opt_keeps (g := (Json.ofList Workspace.toJson)) fun x hx => ?_) fun _ f12 => ?_
  · have h := valid_property (valid_part h (.tail _ (.tail _ (.tail _ (.head _))))) (.tail _ (.tail _ (.tail _ (.tail _ (.tail _ (.tail _ (.tail _ (.tail _ (.tail _ (.tail _ (.tail _ (.tail _ (.head _))))))))))))) hx
    have hkn := hs.known hx
    have hs := hs.member hx
    refine items_keeps (valid_part h (.head _)) (valid_part h (.tail _ (.tail _ (.head _)))) hs fun l el y hy h hs => ?_
    exact v15k_workspace_Workspace (v15_ref_workspace h) hs
  refine bind_keeps (opt_keeps (g := (Json.ofList Dependency.toJson)) fun x hx => ?_) fun _ f13 => ?_
  · have h := valid_property (valid_part h (.tail _ (.tail _ (.tail _ (.head _))))) (.tail _ (.tail _ (.tail _ (.tail _ (.tail _ (.tail _ (.tail _ (.tail _ (.tail _ (.tail _ (.tail _ (.tail _ (.tail _ (.head _)))))))))))))) hx
    have hkn := hs.known hx
    have hs := hs.member hx
    refine items_keeps (valid_part h (.head _)) (valid_part h (.tail _ (.tail _ (.head _)))) hs fun l el y hy h hs => ?_
    exact v15k_dependency_Dependency (v15_ref_dependency h) hs
  refine bind_keeps (opt_keeps (g := (Json.ofList Property.toJson)) fun x hx => ?_) fun _ f14 => ?_
  · have h := valid_property (valid_part h (.tail _ (.tail _ (.tail _ (.head _))))) (.tail _ (.tail _ (.tail _ (.tail _ (.tail _ (.tail _ (.tail _ (.tail _ (.tail _ (.tail _ (.tail _ (.tail _ (.tail _ (.tail _ (.head _))))))))))))))) hx
    have hkn := hs.known hx
    have hs := hs.member hx
    refine items_keeps (valid_part h (.head _)) (valid_part h (.tail _ (.head _))) hs fun l el y hy h hs => ?_
    exact v15k_property_Property (v15_ref_property h) hs (hr.named _ (el ▸ hx) _ hy) (fun p e => hk.properties _ _ (el ▸ hx) (by simp) p (e ▸ hy))
  exact ⟨_, rfl, same_mk hs.nodup (forall_head f0 (forall_head f1 (forall_head f2 (forall_head f3 (forall_head f4 (forall_head f5 (forall_head f6 (forall_head f7 (forall_head f8 (forall_head f9 (forall_head f10 (forall_head f11 (forall_head f12 (forall_head f13 (forall_head f14 nofun))))))))))))))) (all_written (ks := ["bom-ref", "uid", "name", "description", "resourceReferences", "taskTypes", "trigger", "steps", "inputs", "outputs", "timeStart", "timeEnd", "workspaces", "runtimeTopology", "properties"]) (lost := []) (closed_only (valid_part h (.tail _ (.tail _ (.head _))))) no_members rfl (by decide +kernel))⟩

theorem v15k_workflow_Workflow {n : Nat} {j : Json} (h : Valid (schemaContext F .v1_5) Schema15.workflow j) (hs : Clean n j) :
    Keeps (Workflow.ofJson) Workflow.toJson j := by
  obtain ⟨o, rfl⟩ := type_object (valid_part h (.head _))
  have hr := hs.readable
  have hk := hs.kept
  have hreq := (valid_part h (.tail _ (.head _)))
  refine object_keeps ?_
  refine bind_keeps (req_keeps (g := Json.str) (valid_required hreq (by simp)) fun x hx => ?_) fun _ f0 => ?_
  · have h := valid_property (valid_part h (.tail _ (.tail _ (.tail _ (.head _))))) (.head _) hx
    have hkn := hs.known hx
    have hs := hs.member hx
    exact string_keeps (type_string (valid_part (v15_ref_refType h) (.head _)))
  refine bind_keeps (req_keeps (g := Json.str) (valid_required hreq (by simp)) fun x hx => ?_) fun _ f1 => ?_
  · have h := valid_property (valid_part h (.tail _ (.tail _ (.tail _ (.head _))))) (.tail _ (.head _)) hx
    have hkn := hs.known hx
    have hs := hs.member hx
    exact string_keeps (type_string h)
  refine bind_keeps (opt_keeps (g := Json.str) fun x hx => ?_) fun _ f2 => ?_
  · have h := valid_property (valid_part h (.tail _ (.tail _ (.tail _ (.head _))))) (.tail _ (.tail _ (.head _))) hx
    have hkn := hs.known hx
    have hs := hs.member hx
    exact string_keeps (type_string h)
  refine bind_keeps (opt_keeps (g := Json.str) fun x hx => ?_) fun _ f3 => ?_
  · have h := valid_property (valid_part h (.tail _ (.tail _ (.tail _ (.head _))))) (.tail _ (.tail _ (.tail _ (.head _)))) hx
    have hkn := hs.known hx
    have hs := hs.member hx
    exact string_keeps (type_string h)
  refine bind_keeps (opt_keeps (g := (Json.ofList ResourceReference.toJson)) fun x hx => ?_) fun _ f4 => ?_
  · have h := valid_property (valid_part h (.tail _ (.tail _ (.tail _ (.head _))))) (.tail _ (.tail _ (.tail _ (.tail _ (.head _))))) hx
    have hkn := hs.known hx
    have hs := hs.member hx
    refine items_keeps (valid_part h (.head _)) (valid_part h (.tail _ (.tail _ (.head _)))) hs fun l el y hy h hs => ?_
    exact v15k_resourceReferenceChoice_ResourceReference (v15_ref_resourceReferenceChoice h) hs
  refine bind_keeps (opt_keeps (g := (Json.ofList WorkflowTask.toJson)) fun x hx => ?_) fun _ f5 => ?_
  · have h := valid_property (valid_part h (.tail _ (.tail _ (.tail _ (.head _))))) (.tail _ (.tail _ (.tail _ (.tail _ (.tail _ (.head _)))))) hx
    have hkn := hs.known hx
    have hs := hs.member hx
    refine items_keeps (valid_part h (.head _)) (valid_part h (.tail _ (.tail _ (.head _)))) hs fun l el y hy h hs => ?_
    exact v15k_task_WorkflowTask (v15_ref_task h) hs
  refine bind_keeps (opt_keeps (g := (Json.ofList Dependency.toJson)) fun x hx => ?_) fun _ f6 => ?_
  · have h := valid_property (valid_part h (.tail _ (.tail _ (.tail _ (.head _))))) (.tail _ (.tail _ (.tail _ (.tail _ (.tail _ (.tail _ (.head _))))))) hx
    have hkn := hs.known hx
    have hs := hs.member hx
    refine items_keeps (valid_part h (.head _)) (valid_part h (.tail _ (.tail _ (.head _)))) hs fun l el y hy h hs => ?_
    exact v15k_dependency_Dependency (v15_ref_dependency h) hs
  refine bind_keeps (req_keeps (g := (Json.ofList (Json.ofEnum TaskType.display))) (valid_required hreq (by simp)) fun x hx => ?_) fun _ f7 => ?_
  · have h := valid_property (valid_part h (.tail _ (.tail _ (.tail _ (.head _))))) (.tail _ (.tail _ (.tail _ (.tail _ (.tail _ (.tail _ (.tail _ (.head _)))))))) hx
    have hkn := hs.known hx
    have hs := hs.member hx
    refine items_keeps (valid_part h (.head _)) (valid_part h (.tail _ (.head _))) hs fun l el y hy h hs => ?_
    exact enum_keeps (type_string (valid_part (v15_ref_taskType h) (.head _))) fun s e => TaskType.display_new s
  refine bind_keeps (opt_keeps (g := Trigger.toJson) fun x hx => ?_) fun _ f8 => ?_
  · have h := valid_property (valid_part h (.tail _ (.tail _ (.tail _ (.head _))))) (.tail _ (.tail _ (.tail _ (.tail _ (.tail _ (.tail _ (.tail _ (.tail _ (.head _))))))))) hx
    have hkn := hs.known hx
    have hs := hs.member hx
    exact v15k_trigger_Trigger (v15_ref_trigger h) hs
  refine bind_keeps (opt_keeps (g := (Json.ofList Step.toJson)) fun x hx => ?_) fun _ f9 => ?_
  · have h := valid_property (valid_part h (.tail _ (.tail _ (.tail _ (.head _))))) (.tail _ (.tail _ (.tail _ (.tail _ (.tail _ (.tail _ (.tail _ (.tail _ (.tail _ (.head _)))))))))) hx
    have hkn := hs.known hx
    have hs := hs.member hx
    refine items_keeps (valid_part h (.head _)) (valid_part h (.tail _ (.tail _ (.head _)))) hs fun l el y hy h hs => ?_
    exact v15k_step_Step (v15_ref_step h) hs
  refine bind_keeps (opt_keeps (g := (Json.ofList Input.toJson)) fun x hx => ?_) fun _ f10 => ?_
  · have h := valid_property (valid_part h (.tail _ (.tail _ (.tail _ (.head _))))) (.tail _ (.tail _ (.tail _ (.tail _ (.tail _ (.tail _ (.tail _ (.tail _ (.tail _ (.tail _ (.head _))))))))))) hx
    have hkn := hs.known hx
    have hs := hs.member hx
    refine items_keeps (valid_part h (.head _)) (valid_part h (.tail _ (.tail _ (.head _)))) hs fun l el y hy h hs => ?_
    exact v15k_inputType_Input (v15_ref_inputType h) hs
  refine bind_keeps (opt_keeps (g := (Json.ofList Output.toJson)) fun x hx => ?_) fun _ f11 => ?_
  · have h := valid_property (valid_part h (.tail _ (.tail _ (.tail _ (.head _))))) (.tail _ (.tail _ (.tail _ (.tail _ (.tail _ (.tail _ (.tail _ (.tail _ (.tail _ (.tail _ (.tail _ (.head _)))))))))))) hx
    have hkn := hs.known hx
    have hs := hs.member hx
    refine items_keeps (valid_part h (.head _)) (valid_part h (.tail _ (.tail _ (.head _)))) hs fun l el y hy h hs => ?_
    exact v15k_outputType_Output (v15_ref_outputType h) hs
  refine bind_keeps (opt_keeps (g := Json.str) fun x hx => ?_) fun _ f12 => ?_
  · have h := valid_property (valid_part h (.tail _ (.tail _ (.tail _ (.head _))))) (.tail _ (.tail _ (.tail _ (.tail _ (.tail _ (.tail _ (.tail _ (.tail _ (.tail _ (.tail _ (.tail _ (.tail _ (.head _))))))))))))) hx
    have hkn := hs.known hx
    have hs := hs.member hx
    exact string_keeps (type_string (valid_part h (.head _)))
  refine bind_keeps (opt_keeps (g := Json.str) fun x hx => ?_) fun _ f13 => ?_
  · have h := valid_property (valid_part h (.tail _ (.tail _ (.tail _ (.head _))))) (.tail _ (.tail _ (.tail _ (.tail _ (.tail _ (.tail _ (.tail _ (.tail _ (.tail _ (.tail _ (.tail _ (.tail _ (.tail _ (.head _)))))))))))))) hx
    have hkn := hs.known hx
    have hs := hs.member hx
    exact string_keeps (type_string (valid_part h (.head _)))
  refine bind_keeps (opt_keeps (g := (Json.ofList Workspace.toJson)) fun x hx => ?_) fun _ f14 => ?_
  · have h := valid_property (valid_part h (.tail _ (.tail _ (.tail _ (.head _))))) (.tail _ (.tail _ (.tail _ (.tail _ (.tail _ (.tail _ (.tail _ (.tail _ (.tail _ (.tail _ (.tail _ (.tail _ (.tail _ (.tail _ (.head _))))))))))))))) hx
    have hkn := hs.known hx
    have hs := hs.member hx
    refine items_keeps (valid_part h (.head _)) (valid_part h (.tail _ (.tail _ (.head _)))) hs fun l el y hy h hs => ?_
    exact v15k_workspace_Workspace (v15_ref_workspace h) hs
  refine bind_keeps (opt_keeps (g := (Json.ofList Dependency.toJson)) fun x hx => ?_) fun _ f15 => ?_
  · have h := valid_property (valid_part h (.tail _ (.tail _ (.tail _ (.head _))))) (.tail _ (.tail _ (.tail _ (.tail _ (.tail _ (.tail _ (.tail _ (.tail _ (.tail _ (.tail _ (.tail _ (.tail _ (.tail _ (.tail _ (.tail _ (.head _)))))))))))))))) hx
    have hkn := hs.known hx
    have hs := hs.member hx
    refine items_keeps (valid_part h (.head _)) (valid_part h (.tail _ (.tail _ (.head _)))) hs fun l el y hy h hs => ?_
    exact v15k_dependency_Dependency (v15_ref_dependency h) hs
  refine bind_keeps (opt_keeps (g := (Json.ofList Property.toJson)) fun x hx => ?_) fun _ f16 => ?_
  · have h := valid_property (valid_part h (.tail _ (.tail _ (.tail _ (.head _))))) (.tail _ (.tail _ (.tail _ (.tail _ (.tail _ (.tail _ (.tail _ (.tail _ (.tail _ (.tail _ (.tail _ (.tail _ (.tail _ (.tail _ (.tail _ (.tail _ (.head _))))))))))))))))) hx
    have hkn := hs.known hx
    have hs := hs.member hx
    refine items_keeps (valid_part h (.head _)) (valid_part h (.tail _ (.head _))) hs fun l el y hy h hs => ?_
    exact v15k_property_Property (v15_ref_property h) hs (hr.named _ (el ▸ hx) _ hy) (fun p e => hk.properties _ _ (el ▸ hx) (by simp) p (e ▸ hy))
  exact ⟨_, rfl, same_mk hs.nodup (forall_head f0 (forall_head f1 (forall_head f2 (forall_head f3 (forall_head f4 (forall_head f5 (forall_head f6 (forall_head f7 (forall_head f8 (forall_head f9 (forall_head f10 (forall_head f11 (forall_head f12 (forall_head f13 (forall_head f14 (forall_head f15 (forall_head f16 nofun))))))))))))))))) (all_written (ks := ["bom-ref", "uid", "name", "description", "resourceReferences", "tasks", "taskDependencies", "taskTypes", "trigger", "steps", "inputs", "outputs", "timeStart", "timeEnd", "workspaces", "runtimeTopology", "properties"]) (lost := []) (closed_only (valid_part h (.tail _ (.tail _ (.head _))))) no_members rfl (by decide +kernel))⟩

theorem v15k_formula_Formula {j : Json} (h : Valid (schemaContext F .v1_5) Schema15.formula j) (hs : Clean ReadLimit.limit j) :
    Keeps (Formula.ofJson .v1_5) (Formula.toJson .v1_5) j := by
  obtain ⟨o, rfl⟩ := type_object (valid_part h (.head _))
  have hr := hs.readable
  have hk := hs.kept
  refine object_keeps ?_
  refine bind_keeps (opt_keeps (g := Json.str) fun x hx => ?_) fun _ f0 => ?_
  · have h := valid_property (valid_part h (.tail _ (.tail _ (.head _)))) (.head _) hx
    have hkn := hs.known hx
    have hs := hs.member hx
    exact string_keeps (type_string (valid_part (v15_ref_refType h) (.head _)))
  refine bind_keeps (opt_keeps (g := (Json.ofList (Component.toJson .v1_5))) fun x hx => ?_) fun _ f1 => ?_
  · have h := valid_property (valid_part h (.tail _ (.tail _ (.head _)))) (.tail _ (.head _)) hx
    have hkn := hs.known hx
    have hs := hs.member hx
    refine items_keeps (valid_part h (.head _)) (valid_part h (.tail _ (.tail _ (.head _)))) hs fun l el y hy h hs => ?_
    exact v15k_component_Component (v15_ref_component h) hs
  refine bind_keeps (opt_keeps (g := (Json.ofList (Service.toJson .v1_5))) fun x hx => ?_) fun _ f2 => ?_
  · have h := valid_property (valid_part h (.tail _ (.tail _ (.head _)))) (.tail _ (.tail _ (.head _))) hx
    have hkn := hs.known hx
    have hs := hs.member hx
    refine items_keeps (valid_part h (.head _)) (valid_part h (.tail _ (.tail _ (.head _)))) hs fun l el y hy h hs => ?_
    exact v15k_service_Service (v15_ref_service h) hs
  refine bind_keeps (opt_keeps (g := (Json.ofList Workflow.toJson)) fun x hx => ?_) fun _ f3 => ?_
  · have h := valid_property (valid_part h (.tail _ (.tail _ (.head _)))) (.tail _ (.tail _ (.tail _ (.head _)))) hx
    have hkn := hs.known hx
    have hs := hs.member hx
    refine items_keeps (valid_part h (.head _)) (valid_part h (.tail _ (.tail _ (.head _)))) hs fun l el y hy h hs => ?_
    exact v15k_workflow_Workflow (v15_ref_workflow h) hs
  refine bind_keeps (opt_keeps (g := (Json.ofList Property.toJson)) fun x hx => ?_) fun _ f4 => ?_
  · have h := valid_property (valid_part h (.tail _ (.tail _ (.head _)))) (.tail _ (.tail _ (.tail _ (.tail _ (.head _))))) hx
    have hkn := hs.known hx
    have hs := hs.member hx
    refine items_keeps (valid_part h (.head _)) (valid_part h (.tail _ (.head _))) hs fun l el y hy h hs => ?_
    exact v15k_property_Property (v15_ref_property h) hs (hr.named _ (el ▸ hx) _ hy) (fun p e => hk.properties _ _ (el ▸ hx) (by simp) p (e ▸ hy))
  exact ⟨_, rfl, same_mk hs.nodup (forall_head f0 (forall_head f1 (forall_head f2 (forall_head f3 (forall_head f4 nofun))))) (all_written (ks := ["bom-ref", "components", "services", "workflows", "properties"]) (lost := []) (closed_only (valid_part h (.tail _ (.head _)))) no_members rfl (by decide +kernel))⟩

theorem v15k_root_Bom {j : Json} (h : Valid (schemaContext F .v1_5) Schema15.root j) (hs : Clean ReadLimit.limit j)
    (hver : Has "version" j) (hspec : ∀ o, j = .obj o → ∀ x, ("specVersion", x) ∈ o → x = .str (SpecVersion.display .v1_5)) :
    Keeps (Bom.ofJson .v1_5) (Bom.toJson .v1_5) j := by
  obtain ⟨o, rfl⟩ := type_object (valid_part h (.head _))
  have hr := hs.readable
  have hk := hs.kept
  have hreq := (valid_part h (.tail _ (.head _)))
  refine object_keeps ?_
  refine bind_keeps (req_keeps (g := (fun _ => Json.str "CycloneDX")) (valid_required hreq (by simp)) fun x hx => ?_) fun _ f0 => ?_
  · have h := valid_property (valid_part h (.tail _ (.tail _ (.tail _ (.head _))))) (.tail _ (.head _)) hx
    have hkn := hs.known hx
    have hs := hs.member hx
    obtain ⟨s, hm, rfl⟩ := valid_kw.mp (valid_part h (.tail _ (.head _)))
    simp only [List.mem_cons, List.not_mem_nil, or_false] at hm
    subst hm
    exact ⟨nofun, (), rfl, .str _⟩
  refine bind_keeps (req_keeps (g := (fun _ => Json.str (SpecVersion.display .v1_5))) (valid_required hreq (by simp)) fun x hx => ?_) fun _ f1 => ?_
  · rw [hspec _ rfl _ hx]
    exact ⟨nofun, .v1_5, rfl, .str _⟩
  refine bind_keeps (req_keeps (g := Json.nat) hver.lookup fun x hx => ?_) fun _ f2 => ?_
  · have h := valid_property (valid_part h (.tail _ (.tail _ (.tail _ (.head _))))) (.tail _ (.tail _ (.tail _ (.tail _ (.head _))))) hx
    have hkn := hs.known hx
    have hs := hs.member hx
    exact u32_keeps (hr.small _ _ hx (by simp) (integer_number (valid_part h (.head _))))
  refine bind_keeps (opt_keeps (g := Json.str) fun x hx => ?_) fun _ f3 => ?_
  · have h := valid_property (valid_part h (.tail _ (.tail _ (.tail _ (.head _))))) (.tail _ (.tail _ (.tail _ (.head _)))) hx
    have hkn := hs.known hx
    have hs := hs.member hx
    exact string_keeps (type_string (valid_part h (.head _)))
  refine bind_keeps (opt_keeps (g := (Metadata.toJson .v1_5)) fun x hx => ?_) fun _ f4 => ?_
  · have h := valid_property (valid_part h (.tail _ (.tail _ (.tail _ (.head _))))) (.tail _ (.tail _ (.tail _ (.tail _ (.tail _ (.head _)))))) hx
    have hkn := hs.known hx
    have hs := hs.member hx
    exact v15k_metadata_Metadata (v15_ref_metadata h) hs
  refine bind_keeps (opt_keeps (g := (Json.ofList (Component.toJson .v1_5))) fun x hx => ?_) fun _ f5 => ?_
  · have h := valid_property (valid_part h (.tail _ (.tail _ (.tail _ (.head _))))) (.tail _ (.tail _ (.tail _ (.tail _ (.tail _ (.tail _ (.head _))))))) hx
    have hkn := hs.known hx
    have hs := hs.member hx
    refine items_keeps (valid_part h (.head _)) (valid_part h (.tail _ (.tail _ (.head _)))) hs fun l el y hy h hs => ?_
    exact v15k_component_Component (v15_ref_component h) hs
  refine bind_keeps (opt_keeps (g := (Json.ofList (Service.toJson .v1_5))) fun x hx => ?_) fun _ f6 => ?_
  · have h := valid_property (valid_part h (.tail _ (.tail _ (.tail _ (.head _))))) (.tail _ (.tail _ (.tail _ (.tail _ (.tail _ (.tail _ (.tail _ (.head _)))))))) hx
    have hkn := hs.known hx
    have hs := hs.member hx
    refine items_keeps (valid_part h (.head _)) (valid_part h (.tail _ (.tail _ (.head _)))) hs fun l el y hy h hs => ?_
    exact v15k_service_Service (v15_ref_service h) hs
  refine bind_keeps (opt_keeps (g := (Json.ofList ExternalReference.toJson)) fun x hx => ?_) fun _ f7 => ?_
  · have h := valid_property (valid_part h (.tail _ (.tail _ (.tail _ (.head _))))) (.tail _ (.tail _ (.tail _ (.tail _ (.tail _ (.tail _ (.tail _ (.tail _ (.head _))))))))) hx
    have hkn := hs.known hx
    have hs := hs.member hx
    refine items_keeps (valid_part h (.head _)) (valid_part h (.tail _ (.head _))) hs fun l el y hy h hs => ?_
    exact v15k_externalReference_ExternalReference (v15_ref_externalReference h) hs
  refine bind_keeps (opt_keeps (g := (Json.ofList Dependency.toJson)) fun x hx => ?_) fun _ f8 => ?_
  · have h := valid_property (valid_part h (.tail _ (.tail _ (.tail _ (.head _))))) (.tail _ (.tail _ (.tail _ (.tail _ (.tail _ (.tail _ (.tail _ (.tail _ (.tail _ (.head _)))))))))) hx
    have hkn := hs.known hx
    have hs := hs.member hx
    refine items_keeps (valid_part h (.head _)) (valid_part h (.tail _ (.tail _ (.head _)))) hs fun l el y hy h hs => ?_
    exact v15k_dependency_Dependency (v15_ref_dependency h) hs
  refine bind_keeps (opt_keeps (g := (Json.ofList (Composition.toJson .v1_5))) fun x hx => ?_) fun _ f9 => ?_
  · have h := valid_property (valid_part h (.tail _ (.tail _ (.tail _ (.head _))))) (.tail _ (.tail _ (.tail _ (.tail _ (.tail _ (.tail _ (.tail _ (.tail _ (.tail _ (.tail _ (.head _))))))))))) hx
    have hkn := hs.known hx
    have hs := hs.member hx
    refine items_keeps (valid_part h (.head _)) (valid_part h (.tail _ (.tail _ (.head _)))) hs fun l el y hy h hs => ?_
    exact v15k_compositions_Composition (v15_ref_compositions h) hs (hk.noRefs _ _ (el ▸ hx) (by simp) _ hy)
  refine bind_keeps (opt_keeps (g := (Json.ofList (Vulnerability.toJson .v1_5))) fun x hx => ?_) fun _ f10 => ?_
  · have h := valid_property (valid_part h (.tail _ (.tail _ (.tail _ (.head _))))) (.tail _ (.tail _ (.tail _ (.tail _ (.tail _ (.tail _ (.tail _ (.tail _ (.tail _ (.tail _ (.tail _ (.head _)))))))))))) hx
    have hkn := hs.known hx
    have hs := hs.member hx
    refine items_keeps (valid_part h (.head _)) (valid_part h (.tail _ (.tail _ (.head _)))) hs fun l el y hy h hs => ?_
    exact v15k_vulnerability_Vulnerability (v15_ref_vulnerability h) hs
  refine bind_keeps (opt_keeps (g := Signature.toJson) fun x hx => ?_) fun _ f11 => ?_
  · have h := valid_property (valid_part h (.tail _ (.tail _ (.tail _ (.head _))))) (.tail _ (.tail _ (.tail _ (.tail _ (.tail _ (.tail _ (.tail _ (.tail _ (.tail _ (.tail _ (.tail _ (.tail _ (.tail _ (.tail _ (.tail _ (.head _)))))))))))))))) hx
    have hkn := hs.known hx
    have hs := hs.member hx
    replace h := (v15_ref_signature h)
    exact signature_keeps (v15_ref_jsf_signature h) hs (hr.signature _ hx) (fun p e => hk.signature p (e ▸ hx))
  refine bind_keeps (opt_keeps (g := (Json.ofList (Annotation.toJson .v1_5))) fun x hx => ?_) fun _ f12 => ?_
  · have h := valid_property (valid_part h (.tail _ (.tail _ (.tail _ (.head _))))) (.tail _ (.tail _ (.tail _ (.tail _ (.tail _ (.tail _ (.tail _ (.tail _ (.tail _ (.tail _ (.tail _ (.tail _ (.head _))))))))))))) hx
    have hkn := hs.known hx
    have hs := hs.member hx
    refine items_keeps (valid_part h (.head _)) (valid_part h (.tail _ (.tail _ (.head _)))) hs fun l el y hy h hs => ?_
    exact v15k_annotations_Annotation (v15_ref_annotations h) hs
  refine bind_keeps (opt_keeps (g := (Json.ofList Property.toJson)) fun x hx => ?_) fun _ f13 => ?_
  · have h := valid_property (valid_part h (.tail _ (.tail _ (.tail _ (.head _))))) (.tail _ (.tail _ (.tail _ (.tail _ (.tail _ (.tail _ (.tail _ (.tail _ (.tail _ (.tail _ (.tail _ (.tail _ (.tail _ (.tail _ (.head _))))))))))))))) hx
    have hkn := hs.known hx
    have hs := hs.member hx
    refine items_keeps (valid_part h (.head _)) (valid_part h (.tail _ (.head _))) hs fun l el y hy h hs => ?_
    exact v15k_property_Property (v15_ref_property h) hs (hr.named _ (el ▸ hx) _ hy) (fun p e => hk.properties _ _ (el ▸ hx) (by simp) p (e ▸ hy))
  refine bind_keeps (opt_keeps (g := (Json.ofList (Formula.toJson .v1_5))) fun x hx => ?_) fun _ f14 => ?_
  · have h := valid_property (valid_part h (.tail _ (.tail _ (.tail _ (.head _))))) (.tail _ (.tail _ (.tail _ (.tail _ (.tail _ (.tail _ (.tail _ (.tail _ (.tail _ (.tail _ (.tail _ (.tail _ (.tail _ (.head _)))))))))))))) hx
    have hkn := hs.known hx
    have hs := hs.member hx
    refine items_keeps (valid_part h (.head _)) (valid_part h (.tail _ (.tail _ (.head _)))) hs fun l el y hy h hs => ?_
    exact v15k_formula_Formula (v15_ref_formula h) hs
  exact ⟨_, rfl, same_mk hs.nodup (forall_head f0 (forall_head f1 (forall_head f2 (forall_head f3 (forall_head f4 (forall_head f5 (forall_head f6 (forall_head f7 (forall_head f8 (forall_head f9 (forall_head f10 (forall_head f11 (forall_head f12 (forall_head f13 (forall_head f14 nofun))))))))))))))) (all_written (ks := ["bomFormat", "specVersion", "version", "serialNumber", "metadata", "components", "services", "externalReferences", "dependencies", "compositions", "vulnerabilities", "signature", "annotations", "properties", "formulation"]) (lost := ["$schema"]) (closed_only (valid_part h (.tail _ (.tail _ (.head _))))) (no_member (hk.dropped _ (by simp)) no_members) rfl (by decide +kernel))⟩

end Cdx
