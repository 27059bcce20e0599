import Verif.Lemmas.Foreign.Data

set_option linter.unusedSectionVars false
set_option linter.unusedVariables false

/-!
# Foreign elements: components, metadata and vulnerabilities

Generated by a script from the arms of the readers and the table of the format.
-/

namespace Cdx.Foreign

open Cdx.Spec

variable {v : SpecVersion} [F32Format] [ReadLimit]

theorem Pedigree.blindWith {sub : XElem Component} (hsub : ∀ {tag}, Blind v .component tag sub) {tag : String} : Blind v .pedigree tag (Pedigree.readXmlWith sub v) :=
  struct_skip
    (.cons .components (by cases v <;> decide +kernel) (arm (list_skip (t' := .component) (by cases v <;> decide +kernel) hsub)) <|
      .cons .components (by cases v <;> decide +kernel) (arm (list_skip (t' := .component) (by cases v <;> decide +kernel) hsub)) <|
      .cons .components (by cases v <;> decide +kernel) (arm (list_skip (t' := .component) (by cases v <;> decide +kernel) hsub)) <|
      .cons .commits (by cases v <;> decide +kernel) (arm (list_skip (t' := .commit) (by cases v <;> decide +kernel) Commit.blind)) <|
      .cons .patches (by cases v <;> decide +kernel) (arm (list_skip (t' := .patch) (by cases v <;> decide +kernel) Patch.blind)) <|
      .cons .string (by cases v <;> decide +kernel) (arm (leaf_text readSimple_local rfl (by decide +kernel))) <|
      .nil)

theorem Component.blindWith {sub : XElem Component} (hsub : ∀ {tag}, Blind v .component tag sub) {tag : String} : Blind v .component tag (Component.readXmlWith sub v) :=
  struct_skip
    (.append (.append (.cons .organizationalEntity (by cases v <;> decide +kernel) (arm OrganizationalEntity.blind) <|
      .cons .string (by cases v <;> decide +kernel) (arm (leaf_text readSimple_local rfl (by decide +kernel))) <|
      .cons .string (by cases v <;> decide +kernel) (arm (leaf_text readSimple_local rfl (by decide +kernel))) <|
      .cons .string (by cases v <;> decide +kernel) (arm (leaf_text readSimple_local rfl (by decide +kernel))) <|
      .cons .string (by cases v <;> decide +kernel) (arm (leaf_text readSimple_local rfl (by decide +kernel))) <|
      .cons .string (by cases v <;> decide +kernel) (arm (leaf_text readSimple_local rfl (by decide +kernel))) <|
      .cons .string (by cases v <;> decide +kernel) (arm (leaf_text readSimple_local rfl (by decide +kernel))) <|
      .cons .string (by cases v <;> decide +kernel) (arm (leaf_text (map_local readSimple_local _) rfl (by decide +kernel))) <|
      .cons .hashes (by cases v <;> decide +kernel) (arm (list_fail (t' := .hash) (by cases v <;> decide +kernel) (leaf_text Hash.xml_local rfl (by decide +kernel)) (by decide +kernel))) <|
      .cons .licenses (by cases v <;> decide +kernel) (arm Licenses.blind) <|
      .cons .string (by cases v <;> decide +kernel) (arm (leaf_text readSimple_local rfl (by decide +kernel))) <|
      .cons .string (by cases v <;> decide +kernel) (arm (leaf_text readSimple_local rfl (by decide +kernel))) <|
      .cons .string (by cases v <;> decide +kernel) (arm (leaf_text readSimple_local rfl (by decide +kernel))) <|
      .cons .swid (by cases v <;> decide +kernel) (arm Swid.blind) <|
      .cons .boolean (by cases v <;> decide +kernel) (arm (leaf_text readBool_local rfl (by decide +kernel))) <|
      .cons .pedigree (by cases v <;> decide +kernel) (arm (Pedigree.blindWith hsub)) <|
      .cons .externalReferences (by cases v <;> decide +kernel) (arm (list_fail (t' := .externalReference) (by cases v <;> decide +kernel) ExternalReference.blind (by decide +kernel))) <|
      .cons .properties (by cases v <;> decide +kernel) (arm (list_skip (t' := .property) (by cases v <;> decide +kernel) (leaf_text Property.xml_local rfl (by decide +kernel)))) <|
      .cons .components (by cases v <;> decide +kernel) (arm (list_skip (t' := .component) (by cases v <;> decide +kernel) hsub)) <|
      .cons .evidence (by cases v <;> decide +kernel) (arm (ComponentEvidence.blind (by decide))) <|
      .nil) <|
      .since14 <|
      .other (by cases v <;> decide +kernel) (arm_local Signature.xml_local _) <|
      .nil) <|
      .since15 <|
      .cons .modelCard (by cases v <;> decide +kernel) (arm (ModelCard.blind (by decide))) <|
      .cons .componentData (by cases v <;> decide +kernel) (arm (ComponentData.blind (by decide))) <|
      .nil)

theorem Component.blindN : ∀ n {tag : String}, Blind v .component tag (Component.readXmlN v n)
  | 0, _ => ⟨Component.xml_localN v, fun _ _ _ _ _ _ _ _ _ => rfl⟩
  | n + 1, _ => Component.blindWith (Component.blindN n)

theorem Component.blind {tag : String} : Blind v .component tag (Component.readXml v) := Component.blindN _

theorem Tool.blind {tag : String} : Blind v .tool tag (Tool.readXml v) :=
  struct_skip
    (.append (.cons .string (by cases v <;> decide +kernel) (arm (leaf_text readSimple_local rfl (by decide +kernel))) <|
      .cons .string (by cases v <;> decide +kernel) (arm (leaf_text readSimple_local rfl (by decide +kernel))) <|
      .cons .string (by cases v <;> decide +kernel) (arm (leaf_text readSimple_local rfl (by decide +kernel))) <|
      .cons .hashes (by cases v <;> decide +kernel) (arm (list_fail (t' := .hash) (by cases v <;> decide +kernel) (leaf_text Hash.xml_local rfl (by decide +kernel)) (by decide +kernel))) <|
      .nil) <|
      .since14 <|
      .cons .externalReferences (by cases v <;> decide +kernel) (arm (list_fail (t' := .externalReference) (by cases v <;> decide +kernel) ExternalReference.blind (by decide +kernel))) <|
      .nil)

theorem Tools.blind {tag : String} : Blind v .tools tag (Tools.readXml v) :=
  struct_fail
    (.append (.cons .tool (by cases v <;> decide +kernel) (arm Tool.blind) <|
      .nil) <|
      .since15 <|
      .cons .components (by cases v <;> decide +kernel) (arm (list_skip (t' := .component) (by cases v <;> decide +kernel) Component.blind)) <|
      .cons .services (by cases v <;> decide +kernel) (arm (list_skip (t' := .service) (by cases v <;> decide +kernel) Service.blind)) <|
      .nil) (by decide +kernel)

theorem Metadata.blind {tag : String} : Blind v .metadata tag (Metadata.readXml v) :=
  struct_skip
    (.append (.cons .string (by cases v <;> decide +kernel) (arm (leaf_text readSimple_local rfl (by decide +kernel))) <|
      .cons .tools (by cases v <;> decide +kernel) (arm Tools.blind) <|
      .cons .authors (by cases v <;> decide +kernel) (arm (list_fail (t' := .organizationalContact) (by cases v <;> decide +kernel) OrganizationalContact.blind (by decide +kernel))) <|
      .cons .component (by cases v <;> decide +kernel) (arm Component.blind) <|
      .cons .organizationalEntity (by cases v <;> decide +kernel) (arm OrganizationalEntity.blind) <|
      .cons .organizationalEntity (by cases v <;> decide +kernel) (arm OrganizationalEntity.blind) <|
      .cons .licenses (by cases v <;> decide +kernel) (arm Licenses.blind) <|
      .cons .properties (by cases v <;> decide +kernel) (arm (list_skip (t' := .property) (by cases v <;> decide +kernel) (leaf_text Property.xml_local rfl (by decide +kernel)))) <|
      .nil) <|
      .since15 <|
      .cons .lifecycles (by cases v <;> decide +kernel) (arm (list_fail (t' := .lifecycle) (by cases v <;> decide +kernel) Lifecycle.blind (by decide +kernel))) <|
      .nil)

theorem Vulnerability.blind {tag : String} : Blind v .vulnerability tag (Vulnerability.readXml v) :=
  struct_skip
    (.append (.cons .string (by cases v <;> decide +kernel) (arm (leaf_text readSimple_local rfl (by decide +kernel))) <|
      .cons .namedUrl (by cases v <;> decide +kernel) (arm VulnerabilitySource.blind) <|
      .cons .vulnerabilityReferences (by cases v <;> decide +kernel) (arm (list_skip (t' := .vulnerabilityReference) (by cases v <;> decide +kernel) VulnerabilityReference.blind)) <|
      .cons .ratings (by cases v <;> decide +kernel) (arm (list_skip (t' := .rating) (by cases v <;> decide +kernel) VulnerabilityRating.blind)) <|
      .cons .cwes (by cases v <;> decide +kernel) (arm (list_fail (t' := .integer) (by cases v <;> decide +kernel) (leaf_text readU32_local rfl (by decide +kernel)) (by decide +kernel))) <|
      .cons .string (by cases v <;> decide +kernel) (arm (leaf_text readSimple_local rfl (by decide +kernel))) <|
      .cons .string (by cases v <;> decide +kernel) (arm (leaf_text readOptional_local rfl (by decide +kernel))) <|
      .cons .string (by cases v <;> decide +kernel) (arm (leaf_text readSimple_local rfl (by decide +kernel))) <|
      .cons .advisories (by cases v <;> decide +kernel) (arm (list_skip (t' := .advisory) (by cases v <;> decide +kernel) Advisory.blind)) <|
      .cons .string (by cases v <;> decide +kernel) (arm (leaf_text readSimple_local rfl (by decide +kernel))) <|
      .cons .string (by cases v <;> decide +kernel) (arm (leaf_text readSimple_local rfl (by decide +kernel))) <|
      .cons .string (by cases v <;> decide +kernel) (arm (leaf_text readSimple_local rfl (by decide +kernel))) <|
      .cons .credits (by cases v <;> decide +kernel) (arm VulnerabilityCredits.blind) <|
      .cons .tools (by cases v <;> decide +kernel) (arm Tools.blind) <|
      .cons .analysis (by cases v <;> decide +kernel) (arm VulnerabilityAnalysis.blind) <|
      .cons .affects (by cases v <;> decide +kernel) (arm (list_skip (t' := .target) (by cases v <;> decide +kernel) VulnerabilityTarget.blind)) <|
      .cons .properties (by cases v <;> decide +kernel) (arm (list_skip (t' := .property) (by cases v <;> decide +kernel) (leaf_text Property.xml_local rfl (by decide +kernel)))) <|
      .nil) <|
      .since15 <|
      .cons .proofOfConcept (by cases v <;> decide +kernel) (arm (VulnerabilityProofOfConcept.blind (by decide))) <|
      .cons .string (by cases v <;> decide +kernel) (arm (leaf_text readSimple_local rfl (by decide +kernel))) <|
      .cons .string (by cases v <;> decide +kernel) (arm (leaf_text readSimple_local rfl (by decide +kernel))) <|
      .nil)

theorem Annotator.blind {tag : String} : Blind v .annotator tag (Annotator.readXml v) :=
  struct_fail
    (.cons .organizationalEntity (by cases v <;> decide +kernel) (arm OrganizationalEntity.blind) <|
      .cons .organizationalContact (by cases v <;> decide +kernel) (arm OrganizationalContact.blind) <|
      .cons .component (by cases v <;> decide +kernel) (arm Component.blind) <|
      .cons .service (by cases v <;> decide +kernel) (arm Service.blind) <|
      .nil) (by decide +kernel)

theorem Annotation.blind {tag : String} : Blind v .annotation tag (Annotation.readXml v) :=
  struct_fail
    (.cons .subjects (by cases v <;> decide +kernel) (arm (list_fail (t' := .reference) (by cases v <;> decide +kernel) (leaf readRef_local (by cases v <;> decide +kernel)) (by decide +kernel))) <|
      .cons .annotator (by cases v <;> decide +kernel) (arm Annotator.blind) <|
      .cons .string (by cases v <;> decide +kernel) (arm (leaf_text readSimple_local rfl (by decide +kernel))) <|
      .cons .string (by cases v <;> decide +kernel) (arm (leaf_text readSimple_local rfl (by decide +kernel))) <|
      .other (by cases v <;> decide +kernel) (arm_local Signature.xml_local _) <|
      .nil) (by decide +kernel)

end Cdx.Foreign
