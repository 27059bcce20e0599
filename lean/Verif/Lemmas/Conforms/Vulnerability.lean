import Verif.Lemmas.Conforms.Metadata

/-!
# Vulnerabilities and annotations conform to the JSON schema
-/

namespace Cdx

open Spec

set_option linter.unusedVariables false
set_option linter.unusedSimpArgs false
set_option maxRecDepth 8000

variable {F : Formats} {v : SpecVersion}

@[schema_fits]
theorem Severity.fits {x : Severity} (h : (Elem.severity x).Sound F v) (hv : v ≠ .v1_3) :
    Fits F v "severity" (.str x.display) := by
  have h := rule_of_sound h
  cases v
  · exact absurd rfl hv
  · refine fits_ref (s := Schema14.severity) rfl ?_
    schema_simp [Schema14.severity]
    cases x <;> simp_all [OneOf, Severity.display, Elem.schemaRule]
  · refine fits_ref (s := Schema15.severity) rfl ?_
    schema_simp [Schema15.severity]
    cases x <;> simp_all [OneOf, Severity.display, Elem.schemaRule]

@[schema_fits]
theorem ScoreMethod.fits {x : ScoreMethod} (h : (Elem.scoreMethod x).Sound F v) (hv : v ≠ .v1_3) :
    Fits F v "scoreMethod" (.str x.display) := by
  have h := rule_of_sound h
  cases v
  · exact absurd rfl hv
  · refine fits_ref (s := Schema14.scoreMethod) rfl ?_
    schema_simp [Schema14.scoreMethod]
    cases x <;> simp_all [OneOf, ScoreMethod.display, Elem.schemaRule, ScoreMethodIn]
  · refine fits_ref (s := Schema15.scoreMethod) rfl ?_
    schema_simp [Schema15.scoreMethod]
    cases x <;> simp_all [OneOf, ScoreMethod.display, Elem.schemaRule, ScoreMethodIn]

@[schema_fits]
theorem ImpactAnalysisState.fits {x : ImpactAnalysisState} (h : (Elem.impactAnalysisState x).Sound F v) (hv : v ≠ .v1_3) :
    Fits F v "impactAnalysisState" (.str x.display) := by
  have h := rule_of_sound h
  cases v
  · exact absurd rfl hv
  · refine fits_ref (s := Schema14.impactAnalysisState) rfl ?_
    schema_simp [Schema14.impactAnalysisState]
    cases x <;> simp_all [OneOf, ImpactAnalysisState.display, Elem.schemaRule]
  · refine fits_ref (s := Schema15.impactAnalysisState) rfl ?_
    schema_simp [Schema15.impactAnalysisState]
    cases x <;> simp_all [OneOf, ImpactAnalysisState.display, Elem.schemaRule]

@[schema_fits]
theorem ImpactAnalysisJustification.fits {x : ImpactAnalysisJustification} (h : (Elem.impactAnalysisJustification x).Sound F v) (hv : v ≠ .v1_3) :
    Fits F v "impactAnalysisJustification" (.str x.display) := by
  have h := rule_of_sound h
  cases v
  · exact absurd rfl hv
  · refine fits_ref (s := Schema14.impactAnalysisJustification) rfl ?_
    schema_simp [Schema14.impactAnalysisJustification]
    cases x <;> simp_all [OneOf, ImpactAnalysisJustification.display, Elem.schemaRule]
  · refine fits_ref (s := Schema15.impactAnalysisJustification) rfl ?_
    schema_simp [Schema15.impactAnalysisJustification]
    cases x <;> simp_all [OneOf, ImpactAnalysisJustification.display, Elem.schemaRule]

@[schema_fits]
theorem Status.fits {x : Status} (h : (Elem.status x).Sound F v) (hv : v ≠ .v1_3) :
    Fits F v "affectedStatus" (.str x.display) := by
  have h := rule_of_sound h
  cases v
  · exact absurd rfl hv
  · refine fits_ref (s := Schema14.affectedStatus) rfl ?_
    schema_simp [Schema14.affectedStatus]
    cases x <;> simp_all [OneOf, Status.display, Elem.schemaRule]
  · refine fits_ref (s := Schema15.affectedStatus) rfl ?_
    schema_simp [Schema15.affectedStatus]
    cases x <;> simp_all [OneOf, Status.display, Elem.schemaRule]

@[schema_fits]
theorem Advisory.fits4 {x : Advisory} (h : (Elem.advisory x).Sound F .v1_4) :
    Fits F .v1_4 "advisory" (Advisory.toJson x) := by
  have h := sound_advisory.mp h
  refine fits_ref (s := Schema14.advisory) rfl ?_
  schema_simp [Schema14.advisory, Advisory.toJson]
  fits_close h

@[schema_fits]
theorem Advisory.fits5 {x : Advisory} (h : (Elem.advisory x).Sound F .v1_5) :
    Fits F .v1_5 "advisory" (Advisory.toJson x) := by
  have h := sound_advisory.mp h
  refine fits_ref (s := Schema15.advisory) rfl ?_
  schema_simp [Schema15.advisory, Advisory.toJson]
  fits_close h

@[schema_fits]
theorem VulnerabilitySource.fits4 {x : VulnerabilitySource} (h : (Elem.vulnerabilitySource x).Sound F .v1_4) :
    Fits F .v1_4 "vulnerabilitySource" (VulnerabilitySource.toJson x) := by
  have h := sound_vulnerabilitySource.mp h
  refine fits_ref (s := Schema14.vulnerabilitySource) rfl ?_
  schema_simp [Schema14.vulnerabilitySource, VulnerabilitySource.toJson]
  fits_close h

@[schema_fits]
theorem VulnerabilitySource.fits5 {x : VulnerabilitySource} (h : (Elem.vulnerabilitySource x).Sound F .v1_5) :
    Fits F .v1_5 "vulnerabilitySource" (VulnerabilitySource.toJson x) := by
  have h := sound_vulnerabilitySource.mp h
  refine fits_ref (s := Schema15.vulnerabilitySource) rfl ?_
  schema_simp [Schema15.vulnerabilitySource, VulnerabilitySource.toJson]
  fits_close h

@[schema_fits]
theorem score_number {s : F32} (h : s.isFinite = true) : (Keyword.type .number).Holds F (Json.ofF32 s) := by
  rw [Json.ofF32, if_pos h]
  trivial

@[schema_fits]
theorem cwe_fits {n : Nat} (h : 1 ≤ n) (hv : v ≠ .v1_3) : Fits F v "cwe" (.nat n) := by
  cases v
  · exact absurd rfl hv
  · refine fits_ref (s := Schema14.cwe) rfl ?_
    schema_simp [Schema14.cwe]
    exact h
  · refine fits_ref (s := Schema15.cwe) rfl ?_
    schema_simp [Schema15.cwe]
    exact h

theorem version_fits {s : String} (h : s ≠ "" ∧ s.length ≤ 1024) (hv : v ≠ .v1_3) :
    Fits F v "version" (.str s) := by
  have h1 : 1 ≤ s.length := refOk_length fun _ => h.1
  cases v
  · exact absurd rfl hv
  · refine fits_ref (s := Schema14.version) rfl ?_
    schema_simp [Schema14.version]
    exact ⟨h1, h.2⟩
  · refine fits_ref (s := Schema15.version) rfl ?_
    schema_simp [Schema15.version]
    exact ⟨h1, h.2⟩

theorem range_fits {s : String} (h : s ≠ "" ∧ s.length ≤ 1024) (hv : v ≠ .v1_3) :
    Fits F v "range" (.str s) := by
  have h1 : 1 ≤ s.length := refOk_length fun _ => h.1
  cases v
  · exact absurd rfl hv
  · refine fits_ref (s := Schema14.range) rfl ?_
    schema_simp [Schema14.range]
    exact ⟨h1, h.2⟩
  · refine fits_ref (s := Schema15.range) rfl ?_
    schema_simp [Schema15.range]
    exact ⟨h1, h.2⟩

theorem TargetVersion.sound_version {r : VersionRange} {st : Status}
    (h : (Elem.targetVersion ⟨r, st⟩).Sound F v) :
    (Elem.status st).Sound F v ∧
      ((∃ s, r = .version s ∧ s ≠ "" ∧ s.length ≤ 1024) ∨ ∃ s, r = .range s ∧ s ≠ "" ∧ s.length ≤ 1024) := by
  have h := (sound_targetVersion.mp h).2
  sound_simp at h
  refine ⟨h.2, ?_⟩
  have h := rule_of_sound h.1
  cases r with
  | version s => exact .inl ⟨s, rfl, h⟩
  | range s => exact .inr ⟨s, rfl, h⟩
  | undefinedVersionRange s => exact False.elim h

@[schema_fits]
theorem TargetVersion.valid14 {x : TargetVersion} (h : (Elem.targetVersion x).Sound F .v1_4) :
    Valid (schemaContext F .v1_4) (.allOf [.kw (.closed ["version", "range", "status"]),
            .properties [("version", .ref "version"),
            ("range", .ref "range"),
            ("status", .ref "affectedStatus")],
            .oneOf [.kw (.required ["version"]),
            .kw (.required ["range"])]]) x.toJson := by
  obtain ⟨r, st⟩ := x
  obtain ⟨h1, ⟨s, rfl, h2⟩ | ⟨s, rfl, h2⟩⟩ := TargetVersion.sound_version h
  · schema_simp [TargetVersion.toJson, VersionRange.toFields, valid_oneOf_two, invalid_kw]
    exact ⟨version_fits h2 (by simp), Status.fits h1 (by simp)⟩
  · schema_simp [TargetVersion.toJson, VersionRange.toFields, valid_oneOf_two, invalid_kw]
    exact ⟨range_fits h2 (by simp), Status.fits h1 (by simp)⟩

@[schema_fits]
theorem TargetVersion.valid15 {x : TargetVersion} (h : (Elem.targetVersion x).Sound F .v1_5) :
    Valid (schemaContext F .v1_5) (.allOf [.kw (.type .object), .kw (.closed ["version", "range", "status"]),
            .properties [("version", .ref "version"),
            ("range", .ref "range"),
            ("status", .ref "affectedStatus")],
            .oneOf [.kw (.required ["version"]),
            .kw (.required ["range"])]]) x.toJson := by
  obtain ⟨r, st⟩ := x
  obtain ⟨h1, ⟨s, rfl, h2⟩ | ⟨s, rfl, h2⟩⟩ := TargetVersion.sound_version h
  · schema_simp [TargetVersion.toJson, VersionRange.toFields, valid_oneOf_two, invalid_kw]
    exact ⟨version_fits h2 (by simp), Status.fits h1 (by simp)⟩
  · schema_simp [TargetVersion.toJson, VersionRange.toFields, valid_oneOf_two, invalid_kw]
    exact ⟨range_fits h2 (by simp), Status.fits h1 (by simp)⟩

@[schema_fits]
theorem VulnerabilityRating.fits4 {x : VulnerabilityRating} (h : (Elem.vulnerabilityRating x).Sound F .v1_4) :
    Fits F .v1_4 "rating" (VulnerabilityRating.toJson x) := by
  have h := sound_vulnerabilityRating.mp h
  refine fits_ref (s := Schema14.rating) rfl ?_
  schema_simp [Schema14.rating, VulnerabilityRating.toJson]
  fits_close h

@[schema_fits]
theorem VulnerabilityRating.fits5 {x : VulnerabilityRating} (h : (Elem.vulnerabilityRating x).Sound F .v1_5) :
    Fits F .v1_5 "rating" (VulnerabilityRating.toJson x) := by
  have h := sound_vulnerabilityRating.mp h
  refine fits_ref (s := Schema15.rating) rfl ?_
  schema_simp [Schema15.rating, VulnerabilityRating.toJson]
  fits_close h

set_option maxHeartbeats 1000000 in
@[schema_fits]
theorem Vulnerability.fits4 {x : Vulnerability} (h : (Elem.vulnerability x).Sound F .v1_4) :
    Fits F .v1_4 "vulnerability" (Vulnerability.toJson .v1_4 x) := by
  have h := sound_vulnerability.mp h
  sound_all [sound_vulnerabilityReference, sound_vulnerabilityCredits, sound_vulnerabilityAnalysis,
    sound_vulnerabilityTarget] at h
  have hr : ∀ y, x.vulnerabilityAnalysis = some y → y.responses = none := by casesm* _ ∧ _; assumption
  have hv : ∀ l, x.vulnerabilityTargets = some l → ∀ t ∈ l, ∀ m, t.versions = some m → ∀ y ∈ m,
      Valid (schemaContext F .v1_4) (.allOf [.kw (.closed ["version", "range", "status"]),
            .properties [("version", .ref "version"),
            ("range", .ref "range"),
            ("status", .ref "affectedStatus")],
            .oneOf [.kw (.required ["version"]),
            .kw (.required ["range"])]]) y.toJson := by
    casesm* _ ∧ _
    intros
    solve_by_elim (maxDepth := 10) using schema_fits
  schema_simp [] at hv
  refine fits_ref (s := Schema14.vulnerability) rfl ?_
  schema_simp [Schema14.vulnerability, Vulnerability.toJson, VulnerabilityReference.toJson,
    VulnerabilityCredits.toJson, VulnerabilityAnalysis.toJson, VulnerabilityTarget.toJson,
    VulnerabilityProofOfConcept.toJson]
  fits_close h

set_option maxHeartbeats 1000000 in
@[schema_fits]
theorem Vulnerability.fits5 {x : Vulnerability} (h : (Elem.vulnerability x).Sound F .v1_5) :
    Fits F .v1_5 "vulnerability" (Vulnerability.toJson .v1_5 x) := by
  have h := sound_vulnerability.mp h
  sound_all [sound_vulnerabilityReference, sound_vulnerabilityCredits, sound_vulnerabilityAnalysis,
    sound_vulnerabilityTarget] at h
  have hr : ∀ y, x.vulnerabilityAnalysis = some y → y.responses = none := by casesm* _ ∧ _; assumption
  have hv : ∀ l, x.vulnerabilityTargets = some l → ∀ t ∈ l, ∀ m, t.versions = some m → ∀ y ∈ m,
      Valid (schemaContext F .v1_5) (.allOf [.kw (.type .object), .kw (.closed ["version", "range", "status"]),
            .properties [("version", .ref "version"),
            ("range", .ref "range"),
            ("status", .ref "affectedStatus")],
            .oneOf [.kw (.required ["version"]),
            .kw (.required ["range"])]]) y.toJson := by
    casesm* _ ∧ _
    intros
    solve_by_elim (maxDepth := 10) using schema_fits
  schema_simp [] at hv
  refine fits_ref (s := Schema15.vulnerability) rfl ?_
  schema_simp [Schema15.vulnerability, Vulnerability.toJson, VulnerabilityReference.toJson,
    VulnerabilityCredits.toJson, VulnerabilityAnalysis.toJson, VulnerabilityTarget.toJson,
    VulnerabilityProofOfConcept.toJson]
  fits_close h

end Cdx
