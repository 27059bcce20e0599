import Verif.Lemmas.Foreign.Basic

set_option linter.unusedSectionVars false
set_option linter.unusedVariables false

/-!
# Foreign elements: the smaller parts

Generated by a script from the arms of the readers and the table of the format.
-/

namespace Cdx.Foreign

open Cdx.Spec

variable {v : SpecVersion} [F32Format] [ReadLimit]

theorem subref {tag : String} : Blind v .subDependency tag readRef :=
  inert [.subDependency] readRef_local (by decide) (by cases v <;> decide +kernel)

theorem AttachedText.blind {tag : String} : Blind v .attachedText tag AttachedText.readXml := leaf_text (AttachedText.xml_local) rfl (by decide +kernel)

theorem Property.blind {tag : String} : Blind v .property tag Property.readXml := leaf_text (Property.xml_local) rfl (by decide +kernel)

theorem Hash.blind {tag : String} : Blind v .hash tag Hash.readXml := leaf_text (Hash.xml_local) rfl (by decide +kernel)

theorem OrganizationalContact.blind {tag : String} : Blind v .organizationalContact tag OrganizationalContact.readXml :=
  struct_skip
    (.cons .string (by cases v <;> decide +kernel) (arm (leaf_text readSimple_local rfl (by decide +kernel))) <|
      .cons .string (by cases v <;> decide +kernel) (arm (leaf_text readSimple_local rfl (by decide +kernel))) <|
      .cons .string (by cases v <;> decide +kernel) (arm (leaf_text readSimple_local rfl (by decide +kernel))) <|
      .nil)

theorem OrganizationalEntity.blind {tag : String} : Blind v .organizationalEntity tag OrganizationalEntity.readXml :=
  struct_skip
    (.cons .string (by cases v <;> decide +kernel) (arm (leaf_text readSimple_local rfl (by decide +kernel))) <|
      .cons .string (by cases v <;> decide +kernel) (arm (leaf_text readSimple_local rfl (by decide +kernel))) <|
      .cons .organizationalContact (by cases v <;> decide +kernel) (arm OrganizationalContact.blind) <|
      .nil)

theorem ExternalReference.blind {tag : String} : Blind v .externalReference tag ExternalReference.readXml :=
  struct_fail
    (.cons .string (by cases v <;> decide +kernel) (arm (leaf_text (map_local readSimple_local _) rfl (by decide +kernel))) <|
      .cons .string (by cases v <;> decide +kernel) (arm (leaf_text readSimple_local rfl (by decide +kernel))) <|
      .cons .hashes (by cases v <;> decide +kernel) (arm (list_fail (t' := .hash) (by cases v <;> decide +kernel) (leaf_text Hash.xml_local rfl (by decide +kernel)) (by decide +kernel))) <|
      .nil) (by decide +kernel)

theorem VulnerabilitySource.blind {tag : String} : Blind v .namedUrl tag VulnerabilitySource.readXml :=
  struct_skip
    (.cons .string (by cases v <;> decide +kernel) (arm (leaf_text readSimple_local rfl (by decide +kernel))) <|
      .cons .string (by cases v <;> decide +kernel) (arm (leaf_text readSimple_local rfl (by decide +kernel))) <|
      .nil)

theorem VulnerabilityReference.blind {tag : String} : Blind v .vulnerabilityReference tag VulnerabilityReference.readXml :=
  struct_skip
    (.cons .string (by cases v <;> decide +kernel) (arm (leaf_text readSimple_local rfl (by decide +kernel))) <|
      .cons .namedUrl (by cases v <;> decide +kernel) (arm VulnerabilitySource.blind) <|
      .nil)

theorem Advisory.blind {tag : String} : Blind v .advisory tag Advisory.readXml :=
  struct_skip
    (.cons .string (by cases v <;> decide +kernel) (arm (leaf_text readSimple_local rfl (by decide +kernel))) <|
      .cons .string (by cases v <;> decide +kernel) (arm (leaf_text readSimple_local rfl (by decide +kernel))) <|
      .nil)

theorem VulnerabilityCredits.blind {tag : String} : Blind v .credits tag VulnerabilityCredits.readXml :=
  struct_skip
    (.cons .organizations (by cases v <;> decide +kernel) (arm (list_fail (t' := .organizationalEntity) (by cases v <;> decide +kernel) OrganizationalEntity.blind (by decide +kernel))) <|
      .cons .individuals (by cases v <;> decide +kernel) (arm (list_fail (t' := .organizationalContact) (by cases v <;> decide +kernel) OrganizationalContact.blind (by decide +kernel))) <|
      .nil)

theorem Dependency.blind {tag : String} : Blind v .dependency tag Dependency.readXml :=
  struct_fail
    (.cons .subDependency (by cases v <;> decide +kernel) (arm subref) <|
      .nil) (by decide +kernel)

theorem Composition.blind {tag : String} : Blind v .composition tag (Composition.readXml v) :=
  struct_fail
    (.append (.append (.cons .string (by cases v <;> decide +kernel) (arm (leaf_text (map_local readSimple_local _) rfl (by decide +kernel))) <|
      .cons .assemblies (by cases v <;> decide +kernel) (arm (list_skip (t' := .reference) (by cases v <;> decide +kernel) (leaf readRef_local (by cases v <;> decide +kernel)))) <|
      .cons .referencedDependencies (by cases v <;> decide +kernel) (arm (list_skip (t' := .reference) (by cases v <;> decide +kernel) (leaf readRef_local (by cases v <;> decide +kernel)))) <|
      .nil) <|
      .since14 <|
      .other (by cases v <;> decide +kernel) (arm_local Signature.xml_local _) <|
      .nil) <|
      .since15 <|
      .cons .referencedVulnerabilities (by cases v <;> decide +kernel) (arm (list_skip (t' := .reference) (by cases v <;> decide +kernel) (leaf readRef_local (by cases v <;> decide +kernel)))) <|
      .nil) (by decide +kernel)

theorem IdentifiableAction.blind {tag : String} : Blind v .identifiableAction tag IdentifiableAction.readXml :=
  struct_skip
    (.cons .string (by cases v <;> decide +kernel) (arm (leaf_text readSimple_local rfl (by decide +kernel))) <|
      .cons .string (by cases v <;> decide +kernel) (arm (leaf_text readSimple_local rfl (by decide +kernel))) <|
      .cons .string (by cases v <;> decide +kernel) (arm (leaf_text readSimple_local rfl (by decide +kernel))) <|
      .nil)

theorem Commit.blind {tag : String} : Blind v .commit tag Commit.readXml :=
  struct_skip
    (.cons .string (by cases v <;> decide +kernel) (arm (leaf_text readSimple_local rfl (by decide +kernel))) <|
      .cons .string (by cases v <;> decide +kernel) (arm (leaf_text readSimple_local rfl (by decide +kernel))) <|
      .cons .identifiableAction (by cases v <;> decide +kernel) (arm IdentifiableAction.blind) <|
      .cons .identifiableAction (by cases v <;> decide +kernel) (arm IdentifiableAction.blind) <|
      .cons .string (by cases v <;> decide +kernel) (arm (leaf_text readSimple_local rfl (by decide +kernel))) <|
      .nil)

theorem Diff.blind {tag : String} : Blind v .diff tag Diff.readXml :=
  struct_skip
    (.cons .attachedText (by cases v <;> decide +kernel) (arm (leaf_text AttachedText.xml_local rfl (by decide +kernel))) <|
      .cons .string (by cases v <;> decide +kernel) (arm (leaf_text readSimple_local rfl (by decide +kernel))) <|
      .nil)

theorem Source.blind {tag : String} : Blind v .namedUrl tag Source.readXml :=
  struct_fail
    (.cons .string (by cases v <;> decide +kernel) (arm (leaf_text readSimple_local rfl (by decide +kernel))) <|
      .cons .string (by cases v <;> decide +kernel) (arm (leaf_text readSimple_local rfl (by decide +kernel))) <|
      .nil) (by decide +kernel)

theorem Issue.blind {tag : String} : Blind v .issue tag Issue.readXml :=
  struct_skip
    (.cons .string (by cases v <;> decide +kernel) (arm (leaf_text readSimple_local rfl (by decide +kernel))) <|
      .cons .string (by cases v <;> decide +kernel) (arm (leaf_text readSimple_local rfl (by decide +kernel))) <|
      .cons .string (by cases v <;> decide +kernel) (arm (leaf_text readSimple_local rfl (by decide +kernel))) <|
      .cons .namedUrl (by cases v <;> decide +kernel) (arm Source.blind) <|
      .cons .urls (by cases v <;> decide +kernel) (arm (list_fail (t' := .string) (by cases v <;> decide +kernel) (leaf_text readSimple_local rfl (by decide +kernel)) (by decide +kernel))) <|
      .nil)

theorem Patch.blind {tag : String} : Blind v .patch tag Patch.readXml :=
  struct_skip
    (.cons .diff (by cases v <;> decide +kernel) (arm Diff.blind) <|
      .cons .resolves (by cases v <;> decide +kernel) (arm (list_fail (t' := .issue) (by cases v <;> decide +kernel) Issue.blind (by decide +kernel))) <|
      .nil)

theorem VulnerabilityAnalysis.blind {tag : String} : Blind v .analysis tag (VulnerabilityAnalysis.readXml v) :=
  struct_skip
    (.append (.cons .string (by cases v <;> decide +kernel) (arm (leaf_text (map_local readSimple_local _) rfl (by decide +kernel))) <|
      .cons .string (by cases v <;> decide +kernel) (arm (leaf_text (map_local readSimple_local _) rfl (by decide +kernel))) <|
      .cons .responses (by cases v <;> decide +kernel) (arm (list_fail (t' := .string) (by cases v <;> decide +kernel) (leaf_text (map_local readSimple_local _) rfl (by decide +kernel)) (by decide +kernel))) <|
      .cons .string (by cases v <;> decide +kernel) (arm (leaf_text readSimple_local rfl (by decide +kernel))) <|
      .nil) <|
      .since15 <|
      .cons .string (by cases v <;> decide +kernel) (arm (leaf_text readSimple_local rfl (by decide +kernel))) <|
      .cons .string (by cases v <;> decide +kernel) (arm (leaf_text readSimple_local rfl (by decide +kernel))) <|
      .nil)

theorem TargetVersion.blind {tag : String} : Blind v .affectedVersion tag TargetVersion.readXml :=
  struct_skip
    (.cons .string (by cases v <;> decide +kernel) (arm (leaf_text readSimple_local rfl (by decide +kernel))) <|
      .cons .string (by cases v <;> decide +kernel) (arm (leaf_text readSimple_local rfl (by decide +kernel))) <|
      .cons .string (by cases v <;> decide +kernel) (arm (leaf_text (map_local readSimple_local _) rfl (by decide +kernel))) <|
      .nil)

theorem VulnerabilityTarget.blind {tag : String} : Blind v .target tag VulnerabilityTarget.readXml :=
  struct_skip
    (.cons .string (by cases v <;> decide +kernel) (arm (leaf_text readSimple_local rfl (by decide +kernel))) <|
      .cons .versions (by cases v <;> decide +kernel) (arm (list_skip (t' := .affectedVersion) (by cases v <;> decide +kernel) TargetVersion.blind)) <|
      .nil)

theorem LicenseContact.blind {tag : String} : Blind v .licenseContact tag LicenseContact.readXml :=
  struct_fail
    (.cons .organizationalEntity (by cases v <;> decide +kernel) (arm OrganizationalEntity.blind) <|
      .cons .organizationalContact (by cases v <;> decide +kernel) (arm OrganizationalContact.blind) <|
      .nil) (by decide +kernel)

theorem Licensing.blind {tag : String} : Blind v .licensing tag Licensing.readXml :=
  struct_fail
    (.cons .altIds (by cases v <;> decide +kernel) (arm (list_fail (t' := .string) (by cases v <;> decide +kernel) (leaf_text readSimple_local rfl (by decide +kernel)) (by decide +kernel))) <|
      .cons .licenseContact (by cases v <;> decide +kernel) (arm LicenseContact.blind) <|
      .cons .licenseContact (by cases v <;> decide +kernel) (arm LicenseContact.blind) <|
      .cons .licenseContact (by cases v <;> decide +kernel) (arm LicenseContact.blind) <|
      .cons .string (by cases v <;> decide +kernel) (arm (leaf_text readSimple_local rfl (by decide +kernel))) <|
      .cons .licenseTypes (by cases v <;> decide +kernel) (arm (list_fail (t' := .string) (by cases v <;> decide +kernel) (leaf_text (map_local readSimple_local _) rfl (by decide +kernel)) (by decide +kernel))) <|
      .cons .string (by cases v <;> decide +kernel) (arm (leaf_text readSimple_local rfl (by decide +kernel))) <|
      .cons .string (by cases v <;> decide +kernel) (arm (leaf_text readSimple_local rfl (by decide +kernel))) <|
      .nil) (by decide +kernel)

theorem SpdxExpression.blind {tag : String} : Blind v .expression tag SpdxExpression.readXml := leaf_text (SpdxExpression.xml_local) rfl (by decide +kernel)

theorem VulnerabilityRating.blind {tag : String} : Blind v .rating tag VulnerabilityRating.readXml :=
  struct_skip
    (.cons .namedUrl (by cases v <;> decide +kernel) (arm VulnerabilitySource.blind) <|
      .cons .decimal (by cases v <;> decide +kernel) (arm (leaf_text readScore_local rfl (by decide +kernel))) <|
      .cons .string (by cases v <;> decide +kernel) (arm (leaf_text (map_local readSimple_local _) rfl (by decide +kernel))) <|
      .cons .string (by cases v <;> decide +kernel) (arm (leaf_text (map_local readSimple_local _) rfl (by decide +kernel))) <|
      .cons .string (by cases v <;> decide +kernel) (arm (leaf_text readSimple_local rfl (by decide +kernel))) <|
      .cons .string (by cases v <;> decide +kernel) (arm (leaf_text readSimple_local rfl (by decide +kernel))) <|
      .nil)

theorem Occurrence.blind {tag : String} : Blind v .occurrence tag Occurrence.readXml :=
  struct_fail
    (.cons .string (by cases v <;> decide +kernel) (arm (leaf_text readSimple_local rfl (by decide +kernel))) <|
      .nil) (by decide +kernel)

theorem Frame.blind {tag : String} (hi : tag ∈ ignoring) : Blind v .frame tag Frame.readXml :=
  struct_ignore
    (.cons .string (by cases v <;> decide +kernel) (arm (leaf_text readSimple_local rfl (by decide +kernel))) <|
      .cons .string (by cases v <;> decide +kernel) (arm (leaf_text readSimple_local rfl (by decide +kernel))) <|
      .cons .string (by cases v <;> decide +kernel) (arm (leaf_text readSimple_local rfl (by decide +kernel))) <|
      .cons .frameParameters (by cases v <;> decide +kernel) (arm (list_fail (t' := .string) (by cases v <;> decide +kernel) (leaf_text readSimple_local rfl (by decide +kernel)) (by decide +kernel))) <|
      .cons .integer (by cases v <;> decide +kernel) (arm (leaf_text readU32_local rfl (by decide +kernel))) <|
      .cons .integer (by cases v <;> decide +kernel) (arm (leaf_text readU32_local rfl (by decide +kernel))) <|
      .cons .string (by cases v <;> decide +kernel) (arm (leaf_text readSimple_local rfl (by decide +kernel))) <|
      .nil) hi ["package", "module", "function", "parameters", "line", "column", "fullFilename"] rfl (by cases v <;> decide +kernel)

theorem Method.blind {tag : String} (hi : tag ∈ ignoring) : Blind v .method tag Method.readXml :=
  struct_ignore
    (.cons .string (by cases v <;> decide +kernel) (arm (leaf_text readSimple_local rfl (by decide +kernel))) <|
      .cons .decimal (by cases v <;> decide +kernel) (arm (leaf_text readF32_local rfl (by decide +kernel))) <|
      .cons .string (by cases v <;> decide +kernel) (arm (leaf_text readSimple_local rfl (by decide +kernel))) <|
      .nil) hi ["technique", "confidence", "value"] rfl (by cases v <;> decide +kernel)

theorem Attachment.blind {tag : String} (hi : tag ∈ ignoring) : Blind v .attachment tag Attachment.readXml := leaf_text (Attachment.xml_local hi) rfl (by decide +kernel)

theorem Swid.blind {tag : String} : Blind v .swid tag Swid.readXml :=
  struct_skip
    (.cons .attachedText (by cases v <;> decide +kernel) (arm (leaf_text AttachedText.xml_local rfl (by decide +kernel))) <|
      .cons .string (by cases v <;> decide +kernel) (arm (leaf_text readSimple_local rfl (by decide +kernel))) <|
      .nil)

theorem Lifecycle.blind {tag : String} : Blind v .lifecycle tag Lifecycle.readXml :=
  struct_fail
    (.cons .string (by cases v <;> decide +kernel) (arm (leaf_text readSimple_local rfl (by decide +kernel))) <|
      .cons .string (by cases v <;> decide +kernel) (arm (leaf_text readSimple_local rfl (by decide +kernel))) <|
      .cons .string (by cases v <;> decide +kernel) (arm (leaf_text readSimple_local rfl (by decide +kernel))) <|
      .nil) (by decide +kernel)

theorem License.blind {tag : String} : Blind v .license tag (License.readXml v) :=
  struct_skip
    (.append (.cons .licenseId (by cases v <;> decide +kernel) (arm_once (leaf_text readInner_local rfl (by decide +kernel))) <|
      .cons .licenseName (by cases v <;> decide +kernel) (arm_once (leaf_text readInner_local rfl (by decide +kernel))) <|
      .cons .attachedText (by cases v <;> decide +kernel) (arm (leaf_text AttachedText.xml_local rfl (by decide +kernel))) <|
      .cons .string (by cases v <;> decide +kernel) (arm (leaf_text readSimple_local rfl (by decide +kernel))) <|
      .nil) <|
      .since15 <|
      .cons .licensing (by cases v <;> decide +kernel) (arm Licensing.blind) <|
      .cons .properties (by cases v <;> decide +kernel) (arm (list_skip (t' := .property) (by cases v <;> decide +kernel) (leaf_text Property.xml_local rfl (by decide +kernel)))) <|
      .nil)

theorem Licenses.blind {tag : String} : Blind v .licenses tag (Licenses.readXml v) :=
  struct_fail
    (.cons .license (by cases v <;> decide +kernel) (arm License.blind) <|
      .cons .expression (by cases v <;> decide +kernel) (arm (leaf_text SpdxExpression.xml_local rfl (by decide +kernel))) <|
      .nil) (by decide +kernel)

theorem toolRefs : Blind v .toolRefs "tools" readToolRefs :=
  inert [.toolRefs, .reference] readToolRefs_local (by decide) (by cases v <;> decide +kernel)

theorem Callstack.blind {tag : String} (hi : tag ∈ ignoring) : Blind v .callstack tag Callstack.readXml := by
  have ha : ArmsBlind v .frames Callstack.arms :=
    .cons .frame (by cases v <;> decide +kernel) (arm (Frame.blind (by decide))) .nil
  refine struct_on (fun t => t = .callstack ∨ t = .frames) ha.vocab ha.locals (fun _ => hi) (.inl rfl) ?_
  rintro _ (rfl | rfl)
  · refine ⟨fun _ => nofun, fun name t' h => .inr ?_⟩
    have e : ElementType.callstack.items v = [("frames", .frames)] := by cases v <;> rfl
    have hm := mem_of_lookup h
    rw [e, List.mem_singleton] at hm
    cases hm
    exact ⟨rfl, fun _ => .inr rfl⟩
  · exact ⟨fun _ => nofun, fun name t' h =>
      .inl (covers_ignore ha ["frame"] rfl (by cases v <;> decide +kernel) name t' h)⟩

theorem Identity.blind {tag : String} (hi : tag ∈ ignoring) : Blind v .identity tag Identity.readXml :=
  struct_ignore
    (.cons .string (by cases v <;> decide +kernel) (arm (leaf_text (map_local readSimple_local _) rfl (by decide +kernel))) <|
      .cons .decimal (by cases v <;> decide +kernel) (arm (leaf_text readF32_local rfl (by decide +kernel))) <|
      .cons .methods (by cases v <;> decide +kernel) (arm (list_fail (t' := .method) (by cases v <;> decide +kernel) (Method.blind (by decide)) (by decide +kernel))) <|
      .cons .toolRefs (by cases v <;> decide +kernel) (arm toolRefs) <|
      .nil) hi ["field", "confidence", "methods", "tools"] rfl (by cases v <;> decide +kernel)

theorem ComponentEvidence.blind {tag : String} (hi : tag ∈ ignoring) : Blind v .evidence tag (ComponentEvidence.readXml v) :=
  struct_ignore
    (.append (.cons .licenses (by cases v <;> decide +kernel) (arm Licenses.blind) <|
      .cons .copyrights (by cases v <;> decide +kernel) (arm (list_fail (t' := .string) (by cases v <;> decide +kernel) (leaf_text readSimple_local rfl (by decide +kernel)) (by decide +kernel))) <|
      .nil) <|
      .since15 <|
      .cons .occurrences (by cases v <;> decide +kernel) (arm (list_fail (t' := .occurrence) (by cases v <;> decide +kernel) Occurrence.blind (by decide +kernel))) <|
      .cons .callstack (by cases v <;> decide +kernel) (arm (Callstack.blind (by decide))) <|
      .cons .identity (by cases v <;> decide +kernel) (arm (Identity.blind (by decide))) <|
      .nil) hi (["licenses", "copyright"] ++ since15 v ["occurrences", "callstack", "identity"] []) (by cases v <;> rfl) (by cases v <;> decide +kernel)

end Cdx.Foreign
