import Verif.Lemmas.Accepts.Basic

set_option linter.unusedSectionVars false
set_option linter.unusedVariables false

/-!
# Reading elements that conform to the format: the smaller parts

Generated by a script from the arms of the readers and the table of the format.
-/

namespace Cdx

open Spec

variable {v : SpecVersion} {d : Nat} [F32Format] [ReadLimit]

theorem AttachedText.takes (H : DecimalsParse) : Takes v d AttachedText.readXml .attachedText := 
  takes_with (fun _ _ _ => ⟨_, rfl⟩) (takes_inner rfl (by decide))

theorem Property.takes (H : DecimalsParse) : Takes v d Property.readXml .property := 
  takes_with (fun el attrs h => by
      obtain ⟨s0, h0⟩ := h.req el "name" (by cases v <;> decide +kernel)
      simp [h0, bind, Except.bind]) (takes_simple rfl)

theorem Hash.takes (H : DecimalsParse) : Takes v d Hash.readXml .hash := 
  takes_with (fun el attrs h => by
      obtain ⟨s0, h0⟩ := h.req el "alg" (by cases v <;> decide +kernel)
      simp [h0, bind, Except.bind]) (takes_simple rfl)

theorem OrganizationalContact.takes (H : DecimalsParse) : Takes v d OrganizationalContact.readXml .organizationalContact := 
  takes_struct ["name", "email", "phone"] rfl (fun _ _ => True) (fun _ _ _ => ⟨_, rfl⟩)
    (armsTake_cons .string (by cases v <;> decide +kernel) (armTakes (takes_simple rfl) (fun _ _ => trivial) fun _ _ _ _ => trivial) <|
      armsTake_cons .string (by cases v <;> decide +kernel) (armTakes (takes_simple rfl) (fun _ _ => trivial) fun _ _ _ _ => trivial) <|
      armsTake_cons .string (by cases v <;> decide +kernel) (armTakes (takes_simple rfl) (fun _ _ => trivial) fun _ _ _ _ => trivial) <|
      armsTake_nil)
    rfl (by cases v <;> decide +kernel)
    (fun _ _ _ _ => ⟨_, rfl⟩)

theorem OrganizationalEntity.takes (H : DecimalsParse) : Takes v d OrganizationalEntity.readXml .organizationalEntity := 
  takes_struct ["name", "url", "contact"] rfl (fun _ _ => True) (fun _ _ _ => ⟨_, rfl⟩)
    (armsTake_cons .string (by cases v <;> decide +kernel) (armTakes (takes_simple rfl) (fun _ _ => trivial) fun _ _ _ _ => trivial) <|
      armsTake_cons .string (by cases v <;> decide +kernel) (armTakes (takes_simple rfl) (fun _ _ => trivial) fun _ _ _ _ => trivial) <|
      armsTake_cons .organizationalContact (by cases v <;> decide +kernel) (armTakes (OrganizationalContact.takes H) (fun _ _ => trivial) fun _ _ _ _ => trivial) <|
      armsTake_nil)
    rfl (by cases v <;> decide +kernel)
    (fun _ _ _ _ => ⟨_, rfl⟩)

theorem ExternalReference.takes (H : DecimalsParse) : Takes v d ExternalReference.readXml .externalReference := 
  takes_struct ["url", "comment", "hashes"] rfl (fun m (s : ExternalReference.Vars) => (m = "url" → s.url.isSome = true)) (fun el attrs h => by
      obtain ⟨s0, h0⟩ := h.req el "type" (by cases v <;> decide +kernel)
      simp [h0, bind, Except.bind])
    (armsTake_cons .string (by cases v <;> decide +kernel) (armTakes (takes_map (takes_simple rfl) _) (by has_set) (by has_keep)) <|
      armsTake_cons .string (by cases v <;> decide +kernel) (armTakes (takes_simple rfl) (by has_set) (by has_keep)) <|
      armsTake_cons .hashes (by cases v <;> decide +kernel) (armTakes (takes_list (t' := .hash) rfl (by cases v <;> rfl) (Hash.takes H)) (by has_set) (by has_keep)) <|
      armsTake_nil)
    rfl (by cases v <;> decide +kernel)
    (fun el p st h => by
      have g0 := seen_one (v := v) (t := .externalReference) (st := st) (Has := fun m (s : ExternalReference.Vars) => (m = "url" → s.url.isSome = true)) "url" (by cases v <;> decide +kernel) h
      obtain ⟨x0, e0⟩ := Option.isSome_iff_exists.mp (g0 rfl)
      simp [Cdx.required, e0, bind, Except.bind])

theorem VulnerabilitySource.takes (H : DecimalsParse) : Takes v d VulnerabilitySource.readXml .namedUrl := 
  takes_struct ["name", "url"] rfl (fun _ _ => True) (fun _ _ _ => ⟨_, rfl⟩)
    (armsTake_cons .string (by cases v <;> decide +kernel) (armTakes (takes_simple rfl) (fun _ _ => trivial) fun _ _ _ _ => trivial) <|
      armsTake_cons .string (by cases v <;> decide +kernel) (armTakes (takes_simple rfl) (fun _ _ => trivial) fun _ _ _ _ => trivial) <|
      armsTake_nil)
    rfl (by cases v <;> decide +kernel)
    (fun _ _ _ _ => ⟨_, rfl⟩)

theorem VulnerabilityReference.takes (H : DecimalsParse) : Takes v d VulnerabilityReference.readXml .vulnerabilityReference := 
  takes_struct ["id", "source"] rfl (fun m (s : VulnerabilityReference.Vars) => (m = "id" → s.id.isSome = true) ∧ (m = "source" → s.vulnerabilitySource.isSome = true)) (fun _ _ _ => ⟨_, rfl⟩)
    (armsTake_cons .string (by cases v <;> decide +kernel) (armTakes (takes_simple rfl) (by has_set) (by has_keep)) <|
      armsTake_cons .namedUrl (by cases v <;> decide +kernel) (armTakes (VulnerabilitySource.takes H) (by has_set) (by has_keep)) <|
      armsTake_nil)
    rfl (by cases v <;> decide +kernel)
    (fun el p st h => by
      have g0 := seen_one (v := v) (t := .vulnerabilityReference) (st := st) (Has := fun m (s : VulnerabilityReference.Vars) => (m = "id" → s.id.isSome = true) ∧ (m = "source" → s.vulnerabilitySource.isSome = true)) "id" (by cases v <;> decide +kernel) h
      obtain ⟨x0, e0⟩ := Option.isSome_iff_exists.mp (g0.1 rfl)
      have g1 := seen_one (v := v) (t := .vulnerabilityReference) (st := st) (Has := fun m (s : VulnerabilityReference.Vars) => (m = "id" → s.id.isSome = true) ∧ (m = "source" → s.vulnerabilitySource.isSome = true)) "source" (by cases v <;> decide +kernel) h
      obtain ⟨x1, e1⟩ := Option.isSome_iff_exists.mp (g1.2 rfl)
      simp [Cdx.required, e0, e1, bind, Except.bind])

theorem Advisory.takes (H : DecimalsParse) : Takes v d Advisory.readXml .advisory := 
  takes_struct ["title", "url"] rfl (fun m (s : Advisory.Vars) => (m = "url" → s.url.isSome = true)) (fun _ _ _ => ⟨_, rfl⟩)
    (armsTake_cons .string (by cases v <;> decide +kernel) (armTakes (takes_simple rfl) (by has_set) (by has_keep)) <|
      armsTake_cons .string (by cases v <;> decide +kernel) (armTakes (takes_simple rfl) (by has_set) (by has_keep)) <|
      armsTake_nil)
    rfl (by cases v <;> decide +kernel)
    (fun el p st h => by
      have g0 := seen_one (v := v) (t := .advisory) (st := st) (Has := fun m (s : Advisory.Vars) => (m = "url" → s.url.isSome = true)) "url" (by cases v <;> decide +kernel) h
      obtain ⟨x0, e0⟩ := Option.isSome_iff_exists.mp (g0 rfl)
      simp [Cdx.required, e0, bind, Except.bind])

theorem VulnerabilityCredits.takes (H : DecimalsParse) : Takes v d VulnerabilityCredits.readXml .credits := 
  takes_struct ["organizations", "individuals"] rfl (fun _ _ => True) (fun _ _ _ => ⟨_, rfl⟩)
    (armsTake_cons .organizations (by cases v <;> decide +kernel) (armTakes (takes_list (t' := .organizationalEntity) rfl (by cases v <;> rfl) (OrganizationalEntity.takes H)) (fun _ _ => trivial) fun _ _ _ _ => trivial) <|
      armsTake_cons .individuals (by cases v <;> decide +kernel) (armTakes (takes_list (t' := .organizationalContact) rfl (by cases v <;> rfl) (OrganizationalContact.takes H)) (fun _ _ => trivial) fun _ _ _ _ => trivial) <|
      armsTake_nil)
    rfl (by cases v <;> decide +kernel)
    (fun _ _ _ _ => ⟨_, rfl⟩)

theorem Dependency.takes (H : DecimalsParse) : Takes v d Dependency.readXml .dependency := 
  takes_struct ["dependency"] rfl (fun _ _ => True) (fun el attrs h => by
      obtain ⟨s0, h0⟩ := h.req el "ref" (by cases v <;> decide +kernel)
      simp [h0, bind, Except.bind])
    (armsTake_cons .subDependency (by cases v <;> decide +kernel) (armTakes (takes_subref) (fun _ _ => trivial) fun _ _ _ _ => trivial) <|
      armsTake_nil)
    rfl (by cases v <;> decide +kernel)
    (fun _ _ _ _ => ⟨_, rfl⟩)

theorem Composition.takes (H : DecimalsParse) : Takes v d (Composition.readXml v) .composition := 
  takes_struct (["aggregate", "assemblies", "dependencies"] ++ since14 v ["signature"] [] ++ since15 v ["vulnerabilities"] []) rfl (fun m (s : Composition.Vars) => (m = "aggregate" → s.aggregate.isSome = true)) (fun _ _ _ => ⟨_, rfl⟩)
    (armsTake_append (armsTake_append (armsTake_cons .string (by cases v <;> decide +kernel) (armTakes (takes_map (takes_simple rfl) _) (by has_set) (by has_keep)) <|
      armsTake_cons .assemblies (by cases v <;> decide +kernel) (armTakes (takes_list (t' := .reference) rfl (by cases v <;> rfl) (takes_ref rfl (by cases v <;> decide +kernel))) (by has_set) (by has_keep)) <|
      armsTake_cons .referencedDependencies (by cases v <;> decide +kernel) (armTakes (takes_list (t' := .reference) rfl (by cases v <;> rfl) (takes_ref rfl (by cases v <;> decide +kernel))) (by has_set) (by has_keep)) <|
      armsTake_nil) <|
      armsTake_since14 <|
      armsTake_other (by cases v <;> decide +kernel) <|
      armsTake_nil) <|
      armsTake_since15 <|
      armsTake_cons .referencedVulnerabilities (by cases v <;> decide +kernel) (armTakes (takes_list (t' := .reference) rfl (by cases v <;> rfl) (takes_ref rfl (by cases v <;> decide +kernel))) (by has_set) (by has_keep)) <|
      armsTake_nil)
    (by cases v <;> rfl) (by cases v <;> decide +kernel)
    (fun el p st h => by
      have g0 := seen_one (v := v) (t := .composition) (st := st) (Has := fun m (s : Composition.Vars) => (m = "aggregate" → s.aggregate.isSome = true)) "aggregate" (by cases v <;> decide +kernel) h
      obtain ⟨x0, e0⟩ := Option.isSome_iff_exists.mp (g0 rfl)
      simp [Cdx.required, e0, bind, Except.bind])

theorem IdentifiableAction.takes (H : DecimalsParse) : Takes v d IdentifiableAction.readXml .identifiableAction := 
  takes_struct ["timestamp", "name", "email"] rfl (fun _ _ => True) (fun _ _ _ => ⟨_, rfl⟩)
    (armsTake_cons .string (by cases v <;> decide +kernel) (armTakes (takes_simple rfl) (fun _ _ => trivial) fun _ _ _ _ => trivial) <|
      armsTake_cons .string (by cases v <;> decide +kernel) (armTakes (takes_simple rfl) (fun _ _ => trivial) fun _ _ _ _ => trivial) <|
      armsTake_cons .string (by cases v <;> decide +kernel) (armTakes (takes_simple rfl) (fun _ _ => trivial) fun _ _ _ _ => trivial) <|
      armsTake_nil)
    rfl (by cases v <;> decide +kernel)
    (fun _ _ _ _ => ⟨_, rfl⟩)

theorem Commit.takes (H : DecimalsParse) : Takes v d Commit.readXml .commit := 
  takes_struct ["uid", "url", "author", "committer", "message"] rfl (fun _ _ => True) (fun _ _ _ => ⟨_, rfl⟩)
    (armsTake_cons .string (by cases v <;> decide +kernel) (armTakes (takes_simple rfl) (fun _ _ => trivial) fun _ _ _ _ => trivial) <|
      armsTake_cons .string (by cases v <;> decide +kernel) (armTakes (takes_simple rfl) (fun _ _ => trivial) fun _ _ _ _ => trivial) <|
      armsTake_cons .identifiableAction (by cases v <;> decide +kernel) (armTakes (IdentifiableAction.takes H) (fun _ _ => trivial) fun _ _ _ _ => trivial) <|
      armsTake_cons .identifiableAction (by cases v <;> decide +kernel) (armTakes (IdentifiableAction.takes H) (fun _ _ => trivial) fun _ _ _ _ => trivial) <|
      armsTake_cons .string (by cases v <;> decide +kernel) (armTakes (takes_simple rfl) (fun _ _ => trivial) fun _ _ _ _ => trivial) <|
      armsTake_nil)
    rfl (by cases v <;> decide +kernel)
    (fun _ _ _ _ => ⟨_, rfl⟩)

theorem Diff.takes (H : DecimalsParse) : Takes v d Diff.readXml .diff := 
  takes_struct ["text", "url"] rfl (fun _ _ => True) (fun _ _ _ => ⟨_, rfl⟩)
    (armsTake_cons .attachedText (by cases v <;> decide +kernel) (armTakes (AttachedText.takes H) (fun _ _ => trivial) fun _ _ _ _ => trivial) <|
      armsTake_cons .string (by cases v <;> decide +kernel) (armTakes (takes_simple rfl) (fun _ _ => trivial) fun _ _ _ _ => trivial) <|
      armsTake_nil)
    rfl (by cases v <;> decide +kernel)
    (fun _ _ _ _ => ⟨_, rfl⟩)

theorem Source.takes (H : DecimalsParse) : Takes v d Source.readXml .namedUrl := 
  takes_struct ["name", "url"] rfl (fun _ _ => True) (fun _ _ _ => ⟨_, rfl⟩)
    (armsTake_cons .string (by cases v <;> decide +kernel) (armTakes (takes_simple rfl) (fun _ _ => trivial) fun _ _ _ _ => trivial) <|
      armsTake_cons .string (by cases v <;> decide +kernel) (armTakes (takes_simple rfl) (fun _ _ => trivial) fun _ _ _ _ => trivial) <|
      armsTake_nil)
    rfl (by cases v <;> decide +kernel)
    (fun _ _ _ _ => ⟨_, rfl⟩)

theorem Issue.takes (H : DecimalsParse) : Takes v d Issue.readXml .issue := 
  takes_struct ["id", "name", "description", "source", "references"] rfl (fun _ _ => True) (fun el attrs h => by
      obtain ⟨s0, h0⟩ := h.req el "type" (by cases v <;> decide +kernel)
      simp [h0, bind, Except.bind])
    (armsTake_cons .string (by cases v <;> decide +kernel) (armTakes (takes_simple rfl) (fun _ _ => trivial) fun _ _ _ _ => trivial) <|
      armsTake_cons .string (by cases v <;> decide +kernel) (armTakes (takes_simple rfl) (fun _ _ => trivial) fun _ _ _ _ => trivial) <|
      armsTake_cons .string (by cases v <;> decide +kernel) (armTakes (takes_simple rfl) (fun _ _ => trivial) fun _ _ _ _ => trivial) <|
      armsTake_cons .namedUrl (by cases v <;> decide +kernel) (armTakes (Source.takes H) (fun _ _ => trivial) fun _ _ _ _ => trivial) <|
      armsTake_cons .urls (by cases v <;> decide +kernel) (armTakes (takes_list (t' := .string) rfl (by cases v <;> rfl) (takes_simple rfl)) (fun _ _ => trivial) fun _ _ _ _ => trivial) <|
      armsTake_nil)
    rfl (by cases v <;> decide +kernel)
    (fun _ _ _ _ => ⟨_, rfl⟩)

theorem Patch.takes (H : DecimalsParse) : Takes v d Patch.readXml .patch := 
  takes_struct ["diff", "resolves"] rfl (fun _ _ => True) (fun el attrs h => by
      obtain ⟨s0, h0⟩ := h.req el "type" (by cases v <;> decide +kernel)
      simp [h0, bind, Except.bind])
    (armsTake_cons .diff (by cases v <;> decide +kernel) (armTakes (Diff.takes H) (fun _ _ => trivial) fun _ _ _ _ => trivial) <|
      armsTake_cons .resolves (by cases v <;> decide +kernel) (armTakes (takes_list (t' := .issue) rfl (by cases v <;> rfl) (Issue.takes H)) (fun _ _ => trivial) fun _ _ _ _ => trivial) <|
      armsTake_nil)
    rfl (by cases v <;> decide +kernel)
    (fun _ _ _ _ => ⟨_, rfl⟩)

theorem VulnerabilityAnalysis.takes (H : DecimalsParse) : Takes v d (VulnerabilityAnalysis.readXml v) .analysis := 
  takes_struct (["state", "justification", "responses", "detail"] ++ since15 v ["firstIssued", "lastUpdated"] []) rfl (fun _ _ => True) (fun _ _ _ => ⟨_, rfl⟩)
    (armsTake_append (armsTake_cons .string (by cases v <;> decide +kernel) (armTakes (takes_map (takes_simple rfl) _) (fun _ _ => trivial) fun _ _ _ _ => trivial) <|
      armsTake_cons .string (by cases v <;> decide +kernel) (armTakes (takes_map (takes_simple rfl) _) (fun _ _ => trivial) fun _ _ _ _ => trivial) <|
      armsTake_cons .responses (by cases v <;> decide +kernel) (armTakes (takes_list (t' := .string) rfl (by cases v <;> rfl) (takes_map (takes_simple rfl) _)) (fun _ _ => trivial) fun _ _ _ _ => trivial) <|
      armsTake_cons .string (by cases v <;> decide +kernel) (armTakes (takes_simple rfl) (fun _ _ => trivial) fun _ _ _ _ => trivial) <|
      armsTake_nil) <|
      armsTake_since15 <|
      armsTake_cons .string (by cases v <;> decide +kernel) (armTakes (takes_simple rfl) (fun _ _ => trivial) fun _ _ _ _ => trivial) <|
      armsTake_cons .string (by cases v <;> decide +kernel) (armTakes (takes_simple rfl) (fun _ _ => trivial) fun _ _ _ _ => trivial) <|
      armsTake_nil)
    (by cases v <;> rfl) (by cases v <;> decide +kernel)
    (fun _ _ _ _ => ⟨_, rfl⟩)

theorem TargetVersion.takes (H : DecimalsParse) : Takes v d TargetVersion.readXml .affectedVersion := 
  takes_struct ["version", "range", "status"] rfl (fun m (s : TargetVersion.Vars) => (m = "version" ∨ m = "range" → s.versionRange.isSome = true)) (fun _ _ _ => ⟨_, rfl⟩)
    (armsTake_cons .string (by cases v <;> decide +kernel) (armTakes (takes_simple rfl) (by has_set) (by has_keep)) <|
      armsTake_cons .string (by cases v <;> decide +kernel) (armTakes (takes_simple rfl) (by has_set) (by has_keep)) <|
      armsTake_cons .string (by cases v <;> decide +kernel) (armTakes (takes_map (takes_simple rfl) _) (by has_set) (by has_keep)) <|
      armsTake_nil)
    rfl (by cases v <;> decide +kernel)
    (fun el p st h => by
      obtain ⟨n0, m0, s0⟩ := seen_of_choices (v := v) (t := .affectedVersion) (st := st) (Has := fun m (s : TargetVersion.Vars) => (m = "version" ∨ m = "range" → s.versionRange.isSome = true)) ["version", "range"] (by cases v <;> decide +kernel) h
      obtain ⟨x0, e0⟩ := Option.isSome_iff_exists.mp (s0 (by simpa using m0))
      simp [Cdx.required, e0, bind, Except.bind])

theorem VulnerabilityTarget.takes (H : DecimalsParse) : Takes v d VulnerabilityTarget.readXml .target := 
  takes_struct ["ref", "versions"] rfl (fun m (s : VulnerabilityTarget.Vars) => (m = "ref" → s.bomRef.isSome = true)) (fun _ _ _ => ⟨_, rfl⟩)
    (armsTake_cons .string (by cases v <;> decide +kernel) (armTakes (takes_simple rfl) (by has_set) (by has_keep)) <|
      armsTake_cons .versions (by cases v <;> decide +kernel) (armTakes (takes_list (t' := .affectedVersion) rfl (by cases v <;> rfl) (TargetVersion.takes H)) (by has_set) (by has_keep)) <|
      armsTake_nil)
    rfl (by cases v <;> decide +kernel)
    (fun el p st h => by
      have g0 := seen_one (v := v) (t := .target) (st := st) (Has := fun m (s : VulnerabilityTarget.Vars) => (m = "ref" → s.bomRef.isSome = true)) "ref" (by cases v <;> decide +kernel) h
      obtain ⟨x0, e0⟩ := Option.isSome_iff_exists.mp (g0 rfl)
      simp [Cdx.required, e0, bind, Except.bind])

theorem LicenseContact.takes (H : DecimalsParse) : Takes v d LicenseContact.readXml .licenseContact := 
  takes_struct ["organization", "individual"] rfl (fun _ (s : Option LicenseContact) => s.isSome = true) (fun _ _ _ => ⟨_, rfl⟩)
    (armsTake_cons .organizationalEntity (by cases v <;> decide +kernel) (armTakes (OrganizationalEntity.takes H) (by has_set) (by has_keep)) <|
      armsTake_cons .organizationalContact (by cases v <;> decide +kernel) (armTakes (OrganizationalContact.takes H) (by has_set) (by has_keep)) <|
      armsTake_nil)
    rfl (by cases v <;> decide +kernel)
    (fun el p st h => by
      obtain ⟨n, -, h0⟩ := seen_of_choices (v := v) (t := .licenseContact) (st := st) (Has := fun _ (s : Option LicenseContact) => s.isSome = true) ["organization", "individual"] (by cases v <;> decide +kernel) h
      obtain ⟨x, rfl⟩ := Option.isSome_iff_exists.mp h0
      exact ⟨x, rfl⟩)

theorem Licensing.takes (H : DecimalsParse) : Takes v d Licensing.readXml .licensing := 
  takes_struct ["altIds", "licensor", "licensee", "purchaser", "purchaseOrder", "licenseTypes", "lastRenewal", "expiration"] rfl (fun _ _ => True) (fun _ _ _ => ⟨_, rfl⟩)
    (armsTake_cons .altIds (by cases v <;> decide +kernel) (armTakes (takes_list (t' := .string) rfl (by cases v <;> rfl) (takes_simple rfl)) (fun _ _ => trivial) fun _ _ _ _ => trivial) <|
      armsTake_cons .licenseContact (by cases v <;> decide +kernel) (armTakes (LicenseContact.takes H) (fun _ _ => trivial) fun _ _ _ _ => trivial) <|
      armsTake_cons .licenseContact (by cases v <;> decide +kernel) (armTakes (LicenseContact.takes H) (fun _ _ => trivial) fun _ _ _ _ => trivial) <|
      armsTake_cons .licenseContact (by cases v <;> decide +kernel) (armTakes (LicenseContact.takes H) (fun _ _ => trivial) fun _ _ _ _ => trivial) <|
      armsTake_cons .string (by cases v <;> decide +kernel) (armTakes (takes_simple rfl) (fun _ _ => trivial) fun _ _ _ _ => trivial) <|
      armsTake_cons .licenseTypes (by cases v <;> decide +kernel) (armTakes (takes_list (t' := .string) rfl (by cases v <;> rfl) (takes_map (takes_simple rfl) _)) (fun _ _ => trivial) fun _ _ _ _ => trivial) <|
      armsTake_cons .string (by cases v <;> decide +kernel) (armTakes (takes_simple rfl) (fun _ _ => trivial) fun _ _ _ _ => trivial) <|
      armsTake_cons .string (by cases v <;> decide +kernel) (armTakes (takes_simple rfl) (fun _ _ => trivial) fun _ _ _ _ => trivial) <|
      armsTake_nil)
    rfl (by cases v <;> decide +kernel)
    (fun _ _ _ _ => ⟨_, rfl⟩)

theorem SpdxExpression.takes (H : DecimalsParse) : Takes v d SpdxExpression.readXml .expression := 
  takes_with (fun _ _ _ => ⟨_, rfl⟩) (takes_simple rfl)

theorem VulnerabilityRating.takes (H : DecimalsParse) : Takes v d VulnerabilityRating.readXml .rating := 
  takes_struct ["source", "score", "severity", "method", "vector", "justification"] rfl (fun _ _ => True) (fun _ _ _ => ⟨_, rfl⟩)
    (armsTake_cons .namedUrl (by cases v <;> decide +kernel) (armTakes (VulnerabilitySource.takes H) (fun _ _ => trivial) fun _ _ _ _ => trivial) <|
      armsTake_cons .decimal (by cases v <;> decide +kernel) (armTakes (takes_score H rfl) (fun _ _ => trivial) fun _ _ _ _ => trivial) <|
      armsTake_cons .string (by cases v <;> decide +kernel) (armTakes (takes_map (takes_simple rfl) _) (fun _ _ => trivial) fun _ _ _ _ => trivial) <|
      armsTake_cons .string (by cases v <;> decide +kernel) (armTakes (takes_map (takes_simple rfl) _) (fun _ _ => trivial) fun _ _ _ _ => trivial) <|
      armsTake_cons .string (by cases v <;> decide +kernel) (armTakes (takes_simple rfl) (fun _ _ => trivial) fun _ _ _ _ => trivial) <|
      armsTake_cons .string (by cases v <;> decide +kernel) (armTakes (takes_simple rfl) (fun _ _ => trivial) fun _ _ _ _ => trivial) <|
      armsTake_nil)
    rfl (by cases v <;> decide +kernel)
    (fun _ _ _ _ => ⟨_, rfl⟩)

theorem Occurrence.takes (H : DecimalsParse) : Takes v d Occurrence.readXml .occurrence := 
  takes_struct ["location"] rfl (fun m (s : Occurrence.Vars) => (m = "location" → s.location.isSome = true)) (fun _ _ _ => ⟨_, rfl⟩)
    (armsTake_cons .string (by cases v <;> decide +kernel) (armTakes (takes_simple rfl) (by has_set) (by has_keep)) <|
      armsTake_nil)
    rfl (by cases v <;> decide +kernel)
    (fun el p st h => by
      have g0 := seen_one (v := v) (t := .occurrence) (st := st) (Has := fun m (s : Occurrence.Vars) => (m = "location" → s.location.isSome = true)) "location" (by cases v <;> decide +kernel) h
      obtain ⟨x0, e0⟩ := Option.isSome_iff_exists.mp (g0 rfl)
      simp [Cdx.required, e0, bind, Except.bind])

theorem Frame.takes (H : DecimalsParse) : Takes v d Frame.readXml .frame := 
  takes_struct ["package", "module", "function", "parameters", "line", "column", "fullFilename"] rfl (fun m (s : Frame.Vars) => (m = "module" → s.module.isSome = true)) (fun _ _ _ => ⟨_, rfl⟩)
    (armsTake_cons .string (by cases v <;> decide +kernel) (armTakes (takes_simple rfl) (by has_set) (by has_keep)) <|
      armsTake_cons .string (by cases v <;> decide +kernel) (armTakes (takes_simple rfl) (by has_set) (by has_keep)) <|
      armsTake_cons .string (by cases v <;> decide +kernel) (armTakes (takes_simple rfl) (by has_set) (by has_keep)) <|
      armsTake_cons .frameParameters (by cases v <;> decide +kernel) (armTakes (takes_list (t' := .string) rfl (by cases v <;> rfl) (takes_simple rfl)) (by has_set) (by has_keep)) <|
      armsTake_cons .integer (by cases v <;> decide +kernel) (armTakes (takes_u32 rfl) (by has_set) (by has_keep)) <|
      armsTake_cons .integer (by cases v <;> decide +kernel) (armTakes (takes_u32 rfl) (by has_set) (by has_keep)) <|
      armsTake_cons .string (by cases v <;> decide +kernel) (armTakes (takes_simple rfl) (by has_set) (by has_keep)) <|
      armsTake_nil)
    rfl (by cases v <;> decide +kernel)
    (fun el p st h => by
      have g0 := seen_one (v := v) (t := .frame) (st := st) (Has := fun m (s : Frame.Vars) => (m = "module" → s.module.isSome = true)) "module" (by cases v <;> decide +kernel) h
      obtain ⟨x0, e0⟩ := Option.isSome_iff_exists.mp (g0 rfl)
      simp [Cdx.required, e0, bind, Except.bind])

theorem Method.takes (H : DecimalsParse) : Takes v d Method.readXml .method := 
  takes_struct ["technique", "confidence", "value"] rfl (fun m (s : Method.Vars) => (m = "technique" → s.technique.isSome = true) ∧ (m = "confidence" → s.confidence.isSome = true)) (fun _ _ _ => ⟨_, rfl⟩)
    (armsTake_cons .string (by cases v <;> decide +kernel) (armTakes (takes_simple rfl) (by has_set) (by has_keep)) <|
      armsTake_cons .decimal (by cases v <;> decide +kernel) (armTakes (takes_f32 H rfl) (by has_set) (by has_keep)) <|
      armsTake_cons .string (by cases v <;> decide +kernel) (armTakes (takes_simple rfl) (by has_set) (by has_keep)) <|
      armsTake_nil)
    rfl (by cases v <;> decide +kernel)
    (fun el p st h => by
      have g0 := seen_one (v := v) (t := .method) (st := st) (Has := fun m (s : Method.Vars) => (m = "technique" → s.technique.isSome = true) ∧ (m = "confidence" → s.confidence.isSome = true)) "technique" (by cases v <;> decide +kernel) h
      obtain ⟨x0, e0⟩ := Option.isSome_iff_exists.mp (g0.1 rfl)
      have g1 := seen_one (v := v) (t := .method) (st := st) (Has := fun m (s : Method.Vars) => (m = "technique" → s.technique.isSome = true) ∧ (m = "confidence" → s.confidence.isSome = true)) "confidence" (by cases v <;> decide +kernel) h
      obtain ⟨x1, e1⟩ := Option.isSome_iff_exists.mp (g1.2 rfl)
      simp [Cdx.required, e0, e1, bind, Except.bind])

theorem Attachment.takes (H : DecimalsParse) : Takes v d Attachment.readXml .attachment := 
  takes_with (fun _ _ _ => ⟨_, rfl⟩) (takes_attachment)

end Cdx
