import Verif.Lemmas.Exchange.Data

set_option linter.unusedSectionVars false
set_option linter.unusedVariables false

/-!
# The order of child elements: components, metadata and vulnerabilities

Generated by a script from the arms of the readers and the table of the format.
-/

namespace Cdx.Exchange

open Cdx.Spec

variable {v : SpecVersion} {d : Nat} [F32Format] [ReadLimit]

theorem Pedigree.stableWith (H : DecimalsParse) {sub : XElem Component} (hsub : Takes v d sub .component) (hsub' : Stable v d sub .component) : Stable v d (Pedigree.readXmlWith sub v) .pedigree :=
  stable_struct ["ancestors", "descendants", "variants", "commits", "patches", "notes"] rfl
    (.cons .components (by cases v <;> decide +kernel) (armHas (takes_list (t' := .component) rfl (by cases v <;> rfl) (hsub)) (stable_list (t' := .component) rfl (by cases v <;> rfl) (hsub) (hsub'))) <|
      .cons .components (by cases v <;> decide +kernel) (armHas (takes_list (t' := .component) rfl (by cases v <;> rfl) (hsub)) (stable_list (t' := .component) rfl (by cases v <;> rfl) (hsub) (hsub'))) <|
      .cons .components (by cases v <;> decide +kernel) (armHas (takes_list (t' := .component) rfl (by cases v <;> rfl) (hsub)) (stable_list (t' := .component) rfl (by cases v <;> rfl) (hsub) (hsub'))) <|
      .cons .commits (by cases v <;> decide +kernel) (armHas (takes_list (t' := .commit) rfl (by cases v <;> rfl) (Commit.takes H)) (stable_list (t' := .commit) rfl (by cases v <;> rfl) (Commit.takes H) (Commit.stable H))) <|
      .cons .patches (by cases v <;> decide +kernel) (armHas (takes_list (t' := .patch) rfl (by cases v <;> rfl) (Patch.takes H)) (stable_list (t' := .patch) rfl (by cases v <;> rfl) (Patch.takes H) (Patch.stable H))) <|
      .cons .string (by cases v <;> decide +kernel) (armHas (takes_simple rfl) (stable_text rfl)) <|
      .nil)
    rfl (.inl rfl)
    (by all_comm)

theorem Component.stableWith (H : DecimalsParse) {sub : XElem Component} (hsub : Takes v d sub .component) (hsub' : Stable v d sub .component) : Stable v (d + 1) (Component.readXmlWith sub v) .component :=
  stable_struct_miss rfl
    (.append (.append (.cons .organizationalEntity (by cases v <;> decide +kernel) (armHas (OrganizationalEntity.takes H) (OrganizationalEntity.stable H)) <|
      .cons .string (by cases v <;> decide +kernel) (armHas (takes_simple rfl) (stable_text rfl)) <|
      .cons .string (by cases v <;> decide +kernel) (armHas (takes_simple rfl) (stable_text rfl)) <|
      .cons .string (by cases v <;> decide +kernel) (armHas (takes_simple rfl) (stable_text rfl)) <|
      .cons .string (by cases v <;> decide +kernel) (armHas (takes_simple rfl) (stable_text rfl)) <|
      .cons .string (by cases v <;> decide +kernel) (armHas (takes_simple rfl) (stable_text rfl)) <|
      .cons .string (by cases v <;> decide +kernel) (armHas (takes_simple rfl) (stable_text rfl)) <|
      .cons .string (by cases v <;> decide +kernel) (armHas (takes_map (takes_simple rfl) _) (stable_text rfl)) <|
      .cons .hashes (by cases v <;> decide +kernel) (armHas (takes_list (t' := .hash) rfl (by cases v <;> rfl) (Hash.takes H)) (stable_list (t' := .hash) rfl (by cases v <;> rfl) (Hash.takes H) (stable_text rfl))) <|
      .cons .licenses (by cases v <;> decide +kernel) (armHas (Licenses.takes H) (Licenses.stable H)) <|
      .cons .string (by cases v <;> decide +kernel) (armHas (takes_simple rfl) (stable_text rfl)) <|
      .cons .string (by cases v <;> decide +kernel) (armHas (takes_simple rfl) (stable_text rfl)) <|
      .cons .string (by cases v <;> decide +kernel) (armHas (takes_simple rfl) (stable_text rfl)) <|
      .cons .swid (by cases v <;> decide +kernel) (armHas (Swid.takes) (Swid.stable H)) <|
      .cons .boolean (by cases v <;> decide +kernel) (armHas (takes_bool rfl) (stable_text rfl)) <|
      .cons .pedigree (by cases v <;> decide +kernel) (armHas (Pedigree.takesWith H hsub) (Pedigree.stableWith H hsub hsub')) <|
      .cons .externalReferences (by cases v <;> decide +kernel) (armHas (takes_list (t' := .externalReference) rfl (by cases v <;> rfl) (ExternalReference.takes H)) (stable_list (t' := .externalReference) rfl (by cases v <;> rfl) (ExternalReference.takes H) (ExternalReference.stable H))) <|
      .cons .properties (by cases v <;> decide +kernel) (armHas (takes_list (t' := .property) rfl (by cases v <;> rfl) (Property.takes H)) (stable_list (t' := .property) rfl (by cases v <;> rfl) (Property.takes H) (stable_text rfl))) <|
      .cons .components (by cases v <;> decide +kernel) (armHas (takes_list (t' := .component) rfl (by cases v <;> rfl) (hsub)) (stable_list (t' := .component) rfl (by cases v <;> rfl) (hsub) (hsub'))) <|
      .cons .evidence (by cases v <;> decide +kernel) (armHas (ComponentEvidence.takes H) (ComponentEvidence.stable H)) <|
      .nil) <|
      .since14 <|
      .other (by cases v <;> decide +kernel) <|
      .nil) <|
      .since15 <|
      .cons .modelCard (by cases v <;> decide +kernel) (armHas_as (ModelCard.takes H) (ModelCard.stable H)) <|
      .cons .componentData (by cases v <;> decide +kernel) (armHas (ComponentData.takes H) (ComponentData.stable H)) <|
      .nil)
    (fun _ _ _ _ _ _ _ => .inl rfl)
    (allComm_sub (by all_comm) (((List.Sublist.refl _).append since14_sublist).append since15_sublist))

theorem Component.stableN (H : DecimalsParse) : ∀ n, Stable v n (Component.readXmlN v n) .component
  | 0 => fun _ _ _ _ _ _ _ _ h => absurd h (Nat.not_lt_zero _)
  | n + 1 => Component.stableWith H (Component.takesN H n) (Component.stableN H n)

theorem Component.stable (H : DecimalsParse) (hd : d ≤ ReadLimit.limit) : Stable v d (Component.readXml v) .component :=
  (Component.stableN H ReadLimit.limit).mono hd

theorem Tool.stable (H : DecimalsParse) : Stable v d (Tool.readXml v) .tool :=
  stable_struct (["vendor", "name", "version", "hashes"] ++ since14 v ["externalReferences"] []) rfl
    (.append (.cons .string (by cases v <;> decide +kernel) (armHas (takes_simple rfl) (stable_text rfl)) <|
      .cons .string (by cases v <;> decide +kernel) (armHas (takes_simple rfl) (stable_text rfl)) <|
      .cons .string (by cases v <;> decide +kernel) (armHas (takes_simple rfl) (stable_text rfl)) <|
      .cons .hashes (by cases v <;> decide +kernel) (armHas (takes_list (t' := .hash) rfl (by cases v <;> rfl) (Hash.takes H)) (stable_list (t' := .hash) rfl (by cases v <;> rfl) (Hash.takes H) (stable_text rfl))) <|
      .nil) <|
      .since14 <|
      .cons .externalReferences (by cases v <;> decide +kernel) (armHas (takes_list (t' := .externalReference) rfl (by cases v <;> rfl) (ExternalReference.takes H)) (stable_list (t' := .externalReference) rfl (by cases v <;> rfl) (ExternalReference.takes H) (ExternalReference.stable H))) <|
      .nil)
    (by cases v <;> rfl) (.inl rfl)
    (allComm_sub (by all_comm) ((List.Sublist.refl _).append since14_sublist))

theorem Tools.stable (H : DecimalsParse) (hd : d ≤ ReadLimit.limit) : Stable v d (Tools.readXml v) .tools :=
  stable_struct (["tool"] ++ since15 v ["components", "services"] []) rfl
    (.append (.cons .tool (by cases v <;> decide +kernel) (armHas (Tool.takes H) (Tool.stable H)) <|
      .nil) <|
      .since15 <|
      .cons .components (by cases v <;> decide +kernel) (armHas (takes_list (t' := .component) rfl (by cases v <;> rfl) (Component.takes H hd)) (stable_list (t' := .component) rfl (by cases v <;> rfl) (Component.takes H hd) (Component.stable H hd))) <|
      .cons .services (by cases v <;> decide +kernel) (armHas (takes_list (t' := .service) rfl (by cases v <;> rfl) (Service.takes H hd)) (stable_list (t' := .service) rfl (by cases v <;> rfl) (Service.takes H hd) (Service.stable H hd))) <|
      .nil)
    (by cases v <;> rfl) (.inr (by cases v <;> decide +kernel))
    (allComm_sub (by all_comm) ((List.Sublist.refl _).append since15_sublist))

theorem Metadata.stable (H : DecimalsParse) (hd : d ≤ ReadLimit.limit) : Stable v d (Metadata.readXml v) .metadata :=
  stable_struct (["timestamp", "tools", "authors", "component", "manufacture", "supplier", "licenses", "properties"] ++ since15 v ["lifecycles"] []) rfl
    (.append (.cons .string (by cases v <;> decide +kernel) (armHas (takes_simple rfl) (stable_text rfl)) <|
      .cons .tools (by cases v <;> decide +kernel) (armHas (Tools.takes H hd) (Tools.stable H hd)) <|
      .cons .authors (by cases v <;> decide +kernel) (armHas (takes_list (t' := .organizationalContact) rfl (by cases v <;> rfl) (OrganizationalContact.takes H)) (stable_list (t' := .organizationalContact) rfl (by cases v <;> rfl) (OrganizationalContact.takes H) (OrganizationalContact.stable H))) <|
      .cons .component (by cases v <;> decide +kernel) (armHas (Component.takes H hd) (Component.stable H hd)) <|
      .cons .organizationalEntity (by cases v <;> decide +kernel) (armHas (OrganizationalEntity.takes H) (OrganizationalEntity.stable H)) <|
      .cons .organizationalEntity (by cases v <;> decide +kernel) (armHas (OrganizationalEntity.takes H) (OrganizationalEntity.stable H)) <|
      .cons .licenses (by cases v <;> decide +kernel) (armHas (Licenses.takes H) (Licenses.stable H)) <|
      .cons .properties (by cases v <;> decide +kernel) (armHas (takes_list (t' := .property) rfl (by cases v <;> rfl) (Property.takes H)) (stable_list (t' := .property) rfl (by cases v <;> rfl) (Property.takes H) (stable_text rfl))) <|
      .nil) <|
      .since15 <|
      .cons .lifecycles (by cases v <;> decide +kernel) (armHas (takes_list (t' := .lifecycle) rfl (by cases v <;> rfl) (Lifecycle.takes)) (stable_list (t' := .lifecycle) rfl (by cases v <;> rfl) (Lifecycle.takes) (Lifecycle.stable))) <|
      .nil)
    (by cases v <;> rfl) (.inl rfl)
    (allComm_sub (by all_comm) ((List.Sublist.refl _).append since15_sublist))

theorem Vulnerability.stable (H : DecimalsParse) (hd : d ≤ ReadLimit.limit) : Stable v d (Vulnerability.readXml v) .vulnerability :=
  stable_struct (["id", "source", "references", "ratings", "cwes", "description", "detail", "recommendation", "advisories", "created", "published", "updated", "credits", "tools", "analysis", "affects", "properties"] ++ since15 v ["proofOfConcept", "rejected", "workaround"] []) rfl
    (.append (.cons .string (by cases v <;> decide +kernel) (armHas (takes_simple rfl) (stable_text rfl)) <|
      .cons .namedUrl (by cases v <;> decide +kernel) (armHas (VulnerabilitySource.takes H) (VulnerabilitySource.stable H)) <|
      .cons .vulnerabilityReferences (by cases v <;> decide +kernel) (armHas (takes_list (t' := .vulnerabilityReference) rfl (by cases v <;> rfl) (VulnerabilityReference.takes H)) (stable_list (t' := .vulnerabilityReference) rfl (by cases v <;> rfl) (VulnerabilityReference.takes H) (VulnerabilityReference.stable H))) <|
      .cons .ratings (by cases v <;> decide +kernel) (armHas (takes_list (t' := .rating) rfl (by cases v <;> rfl) (VulnerabilityRating.takes H)) (stable_list (t' := .rating) rfl (by cases v <;> rfl) (VulnerabilityRating.takes H) (VulnerabilityRating.stable H))) <|
      .cons .cwes (by cases v <;> decide +kernel) (armHas (takes_list (t' := .integer) rfl (by cases v <;> rfl) (takes_u32 rfl)) (stable_list (t' := .integer) rfl (by cases v <;> rfl) (takes_u32 rfl) (stable_text rfl))) <|
      .cons .string (by cases v <;> decide +kernel) (armHas (takes_simple rfl) (stable_text rfl)) <|
      .cons .string (by cases v <;> decide +kernel) (armHas (takes_optional rfl) (stable_text rfl)) <|
      .cons .string (by cases v <;> decide +kernel) (armHas (takes_simple rfl) (stable_text rfl)) <|
      .cons .advisories (by cases v <;> decide +kernel) (armHas (takes_list (t' := .advisory) rfl (by cases v <;> rfl) (Advisory.takes H)) (stable_list (t' := .advisory) rfl (by cases v <;> rfl) (Advisory.takes H) (Advisory.stable H))) <|
      .cons .string (by cases v <;> decide +kernel) (armHas (takes_simple rfl) (stable_text rfl)) <|
      .cons .string (by cases v <;> decide +kernel) (armHas (takes_simple rfl) (stable_text rfl)) <|
      .cons .string (by cases v <;> decide +kernel) (armHas (takes_simple rfl) (stable_text rfl)) <|
      .cons .credits (by cases v <;> decide +kernel) (armHas (VulnerabilityCredits.takes H) (VulnerabilityCredits.stable H)) <|
      .cons .tools (by cases v <;> decide +kernel) (armHas (Tools.takes H hd) (Tools.stable H hd)) <|
      .cons .analysis (by cases v <;> decide +kernel) (armHas (VulnerabilityAnalysis.takes H) (VulnerabilityAnalysis.stable H)) <|
      .cons .affects (by cases v <;> decide +kernel) (armHas (takes_list (t' := .target) rfl (by cases v <;> rfl) (VulnerabilityTarget.takes H)) (stable_list (t' := .target) rfl (by cases v <;> rfl) (VulnerabilityTarget.takes H) (VulnerabilityTarget.stable H))) <|
      .cons .properties (by cases v <;> decide +kernel) (armHas (takes_list (t' := .property) rfl (by cases v <;> rfl) (Property.takes H)) (stable_list (t' := .property) rfl (by cases v <;> rfl) (Property.takes H) (stable_text rfl))) <|
      .nil) <|
      .since15 <|
      .cons .proofOfConcept (by cases v <;> decide +kernel) (armHas (VulnerabilityProofOfConcept.takes H) (VulnerabilityProofOfConcept.stable H)) <|
      .cons .string (by cases v <;> decide +kernel) (armHas (takes_simple rfl) (stable_text rfl)) <|
      .cons .string (by cases v <;> decide +kernel) (armHas (takes_simple rfl) (stable_text rfl)) <|
      .nil)
    (by cases v <;> rfl) (.inl rfl)
    (allComm_sub (by all_comm) ((List.Sublist.refl _).append since15_sublist))

theorem Annotator.stable (H : DecimalsParse) (hd : d ≤ ReadLimit.limit) : Stable v d (Annotator.readXml v) .annotator :=
  stable_struct ["organization", "individual", "component", "service"] rfl
    (.cons .organizationalEntity (by cases v <;> decide +kernel) (armHas (OrganizationalEntity.takes H) (OrganizationalEntity.stable H)) <|
      .cons .organizationalContact (by cases v <;> decide +kernel) (armHas (OrganizationalContact.takes H) (OrganizationalContact.stable H)) <|
      .cons .component (by cases v <;> decide +kernel) (armHas (Component.takes H hd) (Component.stable H hd)) <|
      .cons .service (by cases v <;> decide +kernel) (armHas (Service.takes H hd) (Service.stable H hd)) <|
      .nil)
    rfl (.inr (by cases v <;> decide +kernel))
    (by all_comm)

theorem Annotation.stable (H : DecimalsParse) (hd : d ≤ ReadLimit.limit) : Stable v d (Annotation.readXml v) .annotation :=
  stable_struct ["subjects", "annotator", "timestamp", "text", "signature"] rfl
    (.cons .subjects (by cases v <;> decide +kernel) (armHas (takes_list (t' := .reference) rfl (by cases v <;> rfl) (takes_ref rfl (by cases v <;> decide +kernel))) (stable_list (t' := .reference) rfl (by cases v <;> rfl) (takes_ref rfl (by cases v <;> decide +kernel)) (stable_empty rfl))) <|
      .cons .annotator (by cases v <;> decide +kernel) (armHas (Annotator.takes H hd) (Annotator.stable H hd)) <|
      .cons .string (by cases v <;> decide +kernel) (armHas (takes_simple rfl) (stable_text rfl)) <|
      .cons .string (by cases v <;> decide +kernel) (armHas (takes_simple rfl) (stable_text rfl)) <|
      .other (by cases v <;> decide +kernel) <|
      .nil)
    rfl (.inr (by cases v <;> decide +kernel))
    (by all_comm)

end Cdx.Exchange
