import Verif.Lemmas.JsonOnly
import Verif.Lemmas.Format.Document

set_option linter.unusedSectionVars false
set_option linter.unusedSimpArgs false
set_option linter.unusedVariables false

/-!
# What is read back from JSON satisfies the conditions: licenses, signatures, parts of components
-/

namespace Cdx

variable [F32Format]

theorem AttachedText.json_only {x : AttachedText}
    (h : AttachedText.ofJson (AttachedText.toJson x) = .ok x) :
    AttachedText.JsonOk x := by
  have hn : ["contentType", "encoding", "content"].Nodup := by decide
  have h := bindWith (Json.fields_mk _) h
  obtain ⟨_, _, h⟩ := bindInv h
  obtain ⟨_, e1, h⟩ := bindInv h
  obtain ⟨_, _, h⟩ := bindInv h
  have h := Except.ok.inj h
  exact ⟨fun y2 hy2 => Json.enum_inv ((Json.opt_inv_id e1 hn (.tail _ (.head _)) (congrArg AttachedText.encoding h)) y2 hy2)⟩

theorem Hash.json_only {x : Hash}
    (h : Hash.ofJson (Hash.toJson x) = .ok x) :
    Hash.JsonOk x := by
  have hn : ["alg", "content"].Nodup := by decide
  have h := bindWith (Json.fields_mk _) h
  obtain ⟨_, e1, h⟩ := bindInv h
  obtain ⟨_, _, h⟩ := bindInv h
  have h := Except.ok.inj h
  exact ⟨Json.enum_inv (Json.req_inv e1 hn (.head _) (congrArg Hash.alg h))⟩

theorem ExternalReference.json_only {x : ExternalReference}
    (h : ExternalReference.ofJson (ExternalReference.toJson x) = .ok x) :
    ExternalReference.JsonOk x := by
  have hn : ["type", "url", "comment", "hashes"].Nodup := by decide
  have h := bindWith (Json.fields_mk _) h
  obtain ⟨_, e1, h⟩ := bindInv h
  obtain ⟨_, e2, h⟩ := bindInv h
  obtain ⟨_, _, h⟩ := bindInv h
  obtain ⟨_, e3, h⟩ := bindInv h
  have h := Except.ok.inj h
  exact ⟨Json.enum_inv (Json.req_inv e1 hn (.head _) (congrArg ExternalReference.externalReferenceType h)),
    Json.enum_inv (Json.req_inv e2 hn (.tail _ (.head _)) (congrArg ExternalReference.url h)),
    fun y33 hy33 => fun y34 hy34 => Hash.json_only ((Json.array_inv_id ((Json.opt_inv_id e3 hn (.tail _ (.tail _ (.tail _ (.head _)))) (congrArg ExternalReference.hashes h)) y33 hy33)) y34 hy34)⟩

theorem Licensing.json_only {x : Licensing}
    (h : Licensing.ofJson (Licensing.toJson x) = .ok x) :
    Licensing.JsonOk x := by
  have hn : ["altIds", "licensor", "licensee", "purchaser", "purchaseOrder", "licenseTypes", "lastRenewal", "expiration"].Nodup := by decide
  have h := bindWith (Json.fields_mk _) h
  obtain ⟨_, _, h⟩ := bindInv h
  obtain ⟨_, _, h⟩ := bindInv h
  obtain ⟨_, _, h⟩ := bindInv h
  obtain ⟨_, _, h⟩ := bindInv h
  obtain ⟨_, _, h⟩ := bindInv h
  obtain ⟨_, e1, h⟩ := bindInv h
  obtain ⟨_, _, h⟩ := bindInv h
  obtain ⟨_, _, h⟩ := bindInv h
  have h := Except.ok.inj h
  exact ⟨fun y70 hy70 => fun y71 hy71 => Json.enum_inv ((Json.array_inv_id ((Json.null_inv_id e1 hn (.tail _ (.tail _ (.tail _ (.tail _ (.tail _ (.head _)))))) (congrArg Licensing.licenseTypes h)) y70 hy70)) y71 hy71)⟩

theorem License.json_only (v : SpecVersion) {x : License}
    (h : License.ofJson v (License.toJson v x) = .ok (x.at v)) :
    License.JsonOk v x := by
  cases v with
  | v1_3 =>
    obtain ⟨bomRef, licenseIdentifier, text, url, licensing, properties⟩ := x
    cases licenseIdentifier with
    | spdxId z =>
      have hn : ["id", "text", "url"].Nodup := by decide
      have h := bindWith (Json.fields_mk _) h
      obtain ⟨_, _, h⟩ := bindInv h
      obtain ⟨_, _, h⟩ := bindInv h
      obtain ⟨_, e1, h⟩ := bindInv h
      obtain ⟨_, _, h⟩ := bindInv h
      obtain ⟨_, _, h⟩ := bindInv h
      obtain ⟨_, _, h⟩ := bindInv h
      have h := Except.ok.inj h
      exact ⟨fun y96 hy96 => AttachedText.json_only ((Json.opt_inv_id e1 hn (.tail _ (.head _)) (congrArg License.text h)) y96 hy96),
        fun hv => (nomatch hv)⟩
    | name z =>
      have hn : ["name", "text", "url"].Nodup := by decide
      have h := bindWith (Json.fields_mk _) h
      obtain ⟨_, _, h⟩ := bindInv h
      obtain ⟨_, _, h⟩ := bindInv h
      obtain ⟨_, e1, h⟩ := bindInv h
      obtain ⟨_, _, h⟩ := bindInv h
      obtain ⟨_, _, h⟩ := bindInv h
      obtain ⟨_, _, h⟩ := bindInv h
      have h := Except.ok.inj h
      exact ⟨fun y98 hy98 => AttachedText.json_only ((Json.opt_inv_id e1 hn (.tail _ (.head _)) (congrArg License.text h)) y98 hy98),
        fun hv => (nomatch hv)⟩
  | v1_4 =>
    obtain ⟨bomRef, licenseIdentifier, text, url, licensing, properties⟩ := x
    cases licenseIdentifier with
    | spdxId z =>
      have hn : ["id", "text", "url"].Nodup := by decide
      have h := bindWith (Json.fields_mk _) h
      obtain ⟨_, _, h⟩ := bindInv h
      obtain ⟨_, _, h⟩ := bindInv h
      obtain ⟨_, e1, h⟩ := bindInv h
      obtain ⟨_, _, h⟩ := bindInv h
      obtain ⟨_, _, h⟩ := bindInv h
      obtain ⟨_, _, h⟩ := bindInv h
      have h := Except.ok.inj h
      exact ⟨fun y100 hy100 => AttachedText.json_only ((Json.opt_inv_id e1 hn (.tail _ (.head _)) (congrArg License.text h)) y100 hy100),
        fun hv => (nomatch hv)⟩
    | name z =>
      have hn : ["name", "text", "url"].Nodup := by decide
      have h := bindWith (Json.fields_mk _) h
      obtain ⟨_, _, h⟩ := bindInv h
      obtain ⟨_, _, h⟩ := bindInv h
      obtain ⟨_, e1, h⟩ := bindInv h
      obtain ⟨_, _, h⟩ := bindInv h
      obtain ⟨_, _, h⟩ := bindInv h
      obtain ⟨_, _, h⟩ := bindInv h
      have h := Except.ok.inj h
      exact ⟨fun y102 hy102 => AttachedText.json_only ((Json.opt_inv_id e1 hn (.tail _ (.head _)) (congrArg License.text h)) y102 hy102),
        fun hv => (nomatch hv)⟩
  | v1_5 =>
    obtain ⟨bomRef, licenseIdentifier, text, url, licensing, properties⟩ := x
    cases licenseIdentifier with
    | spdxId z =>
      have hn : ["id", "text", "url", "bomRef", "licensing", "properties"].Nodup := by decide
      have h := bindWith (Json.fields_mk _) h
      obtain ⟨_, _, h⟩ := bindInv h
      obtain ⟨_, _, h⟩ := bindInv h
      obtain ⟨_, e1, h⟩ := bindInv h
      obtain ⟨_, _, h⟩ := bindInv h
      obtain ⟨_, e2, h⟩ := bindInv h
      obtain ⟨_, _, h⟩ := bindInv h
      have h := Except.ok.inj h
      exact ⟨fun y105 hy105 => AttachedText.json_only ((Json.opt_inv_id e1 hn (.tail _ (.head _)) (congrArg License.text h)) y105 hy105),
        fun _ => fun y107 hy107 => Licensing.json_only ((Json.opt_inv_id e2 hn (.tail _ (.tail _ (.tail _ (.tail _ (.head _))))) (congrArg License.licensing h)) y107 hy107)⟩
    | name z =>
      have hn : ["name", "text", "url", "bomRef", "licensing", "properties"].Nodup := by decide
      have h := bindWith (Json.fields_mk _) h
      obtain ⟨_, _, h⟩ := bindInv h
      obtain ⟨_, _, h⟩ := bindInv h
      obtain ⟨_, e1, h⟩ := bindInv h
      obtain ⟨_, _, h⟩ := bindInv h
      obtain ⟨_, e2, h⟩ := bindInv h
      obtain ⟨_, _, h⟩ := bindInv h
      have h := Except.ok.inj h
      exact ⟨fun y111 hy111 => AttachedText.json_only ((Json.opt_inv_id e1 hn (.tail _ (.head _)) (congrArg License.text h)) y111 hy111),
        fun _ => fun y113 hy113 => Licensing.json_only ((Json.opt_inv_id e2 hn (.tail _ (.tail _ (.tail _ (.tail _ (.head _))))) (congrArg License.licensing h)) y113 hy113)⟩

theorem LicenseChoice.json_only (v : SpecVersion) {x : LicenseChoice}
    (h : LicenseChoice.ofJson v (LicenseChoice.toJson v x) = .ok (x.at v)) :
    LicenseChoice.JsonOk v x := by
  cases x with
  | license l =>
    rw [LicenseChoice.ofJson] at h
    cases hl : Json.tagged [("license", fun j => (License.ofJson v j).map LicenseChoice.license)]
        (LicenseChoice.toJson v (.license l)) with
    | ok y =>
      rw [hl] at h
      obtain ⟨z, hz, e⟩ := Json.map_inv (m := License.ofJson v (License.toJson v l)) hl
      subst e
      cases h
      exact License.json_only v hz
    | error e =>
      rw [hl] at h
      obtain ⟨_, _, h⟩ := Json.map_inv (m := SpdxExpression.ofJson _) h
      cases h
  | expression e => trivial

theorem Licenses.json_only (v : SpecVersion) {x : Licenses}
    (h : Licenses.ofJson v (Licenses.toJson v x) = .ok (x.at v)) : Licenses.JsonOk v x :=
  fun y hy => LicenseChoice.json_only v (Json.array_inv h y hy)

theorem Algorithm.json_only {a : Algorithm} (h : Algorithm.ofJson (Algorithm.toJson a) = .ok a) :
    Stable Algorithm.display Algorithm.new a := by
  rw [Algorithm.toJson] at h
  cases hb : Algorithm.new a.display with
  | unknown s =>
    rw [hb] at h
    have e : Algorithm.ofJson (.obj [("Unknown", .str s)]) =
        .ok (Algorithm.new (Algorithm.unknown s).display) := rfl
    have h := Except.ok.inj (e.symm.trans h)
    subst h
    rfl
  | _ =>
    rw [hb] at h
    have h := Except.ok.inj h
    subst h
    rfl

theorem Signer.json_only {x : Signer}
    (h : Signer.ofJson (Signer.toJson x) = .ok x) :
    Signer.JsonOk x := by
  have hn : ["algorithm", "value"].Nodup := by decide
  have h := bindWith (Json.fields_mk _) h
  obtain ⟨_, e1, h⟩ := bindInv h
  obtain ⟨_, _, h⟩ := bindInv h
  have h := Except.ok.inj h
  exact ⟨Algorithm.json_only (Json.req_inv e1 hn (.head _) (congrArg Signer.algorithm h))⟩

theorem Signature.json_only {x : Signature} (h : Signature.ofJson (Signature.toJson x) = .ok x) :
    Signature.JsonOk x := by
  unfold Signature.ofJson at h
  cases x with
  | signers l =>
    cases hl : Json.array Signer.ofJson (Signature.toJson (.signers l)) with
    | ok l' =>
      rw [hl] at h
      cases h
      exact fun y hy => Signer.json_only (Json.array_inv_id hl y hy)
    | error e =>
      rw [hl] at h
      obtain ⟨_, _, h⟩ := Json.map_inv h
      cases h
  | chain l =>
    cases hl : Json.array Signer.ofJson (Signature.toJson (.chain l)) with
    | ok l' =>
      rw [hl] at h
      cases h
    | error e =>
      rw [hl] at h
      obtain ⟨_, _, h⟩ := Json.map_inv h
      cases h
  | single s =>
    obtain ⟨_, h, e⟩ := Json.map_inv h
    cases e
    exact Signer.json_only h

theorem Composition.json_only (v : SpecVersion) {x : Composition}
    (h : Composition.ofJson v (Composition.toJson v x) = .ok (x.at v)) :
    Composition.JsonOk v x := by
  cases v with
  | v1_3 =>
    have hn : ["aggregate", "assemblies", "dependencies"].Nodup := by decide
    have h := bindWith (Json.fields_mk _) h
    obtain ⟨_, _, h⟩ := bindInv h
    obtain ⟨_, e1, h⟩ := bindInv h
    obtain ⟨_, _, h⟩ := bindInv h
    obtain ⟨_, _, h⟩ := bindInv h
    obtain ⟨_, _, h⟩ := bindInv h
    obtain ⟨_, _, h⟩ := bindInv h
    have h := Except.ok.inj h
    exact ⟨Json.enum_inv (Json.req_inv e1 hn (.head _) (congrArg Composition.aggregate h)),
      fun hv => absurd rfl hv⟩
  | v1_4 =>
    have hn : ["aggregate", "assemblies", "dependencies", "signature"].Nodup := by decide
    have h := bindWith (Json.fields_mk _) h
    obtain ⟨_, _, h⟩ := bindInv h
    obtain ⟨_, e1, h⟩ := bindInv h
    obtain ⟨_, _, h⟩ := bindInv h
    obtain ⟨_, _, h⟩ := bindInv h
    obtain ⟨_, _, h⟩ := bindInv h
    obtain ⟨_, e2, h⟩ := bindInv h
    have h := Except.ok.inj h
    exact ⟨Json.enum_inv (Json.req_inv e1 hn (.head _) (congrArg Composition.aggregate h)),
      fun _ => fun y150 hy150 => Signature.json_only ((Json.opt_inv_id e2 hn (.tail _ (.tail _ (.tail _ (.head _)))) (congrArg Composition.signature h)) y150 hy150)⟩
  | v1_5 =>
    have hn : ["aggregate", "assemblies", "dependencies", "signature", "bomRef", "vulnerabilities"].Nodup := by decide
    have h := bindWith (Json.fields_mk _) h
    obtain ⟨_, _, h⟩ := bindInv h
    obtain ⟨_, e1, h⟩ := bindInv h
    obtain ⟨_, _, h⟩ := bindInv h
    obtain ⟨_, _, h⟩ := bindInv h
    obtain ⟨_, _, h⟩ := bindInv h
    obtain ⟨_, e2, h⟩ := bindInv h
    have h := Except.ok.inj h
    exact ⟨Json.enum_inv (Json.req_inv e1 hn (.head _) (congrArg Composition.aggregate h)),
      fun _ => fun y158 hy158 => Signature.json_only ((Json.opt_inv_id e2 hn (.tail _ (.tail _ (.tail _ (.head _)))) (congrArg Composition.signature h)) y158 hy158)⟩

theorem Diff.json_only {x : Diff}
    (h : Diff.ofJson (Diff.toJson x) = .ok x) :
    Diff.JsonOk x := by
  have hn : ["text", "url"].Nodup := by decide
  have h := bindWith (Json.fields_mk _) h
  obtain ⟨_, e1, h⟩ := bindInv h
  obtain ⟨_, _, h⟩ := bindInv h
  have h := Except.ok.inj h
  exact ⟨fun y201 hy201 => AttachedText.json_only ((Json.opt_inv_id e1 hn (.head _) (congrArg Diff.text h)) y201 hy201)⟩

theorem Issue.json_only {x : Issue}
    (h : Issue.ofJson (Issue.toJson x) = .ok x) :
    Issue.JsonOk x := by
  have hn : ["type", "id", "name", "description", "source", "references"].Nodup := by decide
  have h := bindWith (Json.fields_mk _) h
  obtain ⟨_, e1, h⟩ := bindInv h
  obtain ⟨_, _, h⟩ := bindInv h
  obtain ⟨_, _, h⟩ := bindInv h
  obtain ⟨_, _, h⟩ := bindInv h
  obtain ⟨_, _, h⟩ := bindInv h
  obtain ⟨_, _, h⟩ := bindInv h
  have h := Except.ok.inj h
  exact ⟨Json.enum_inv (Json.req_inv e1 hn (.head _) (congrArg Issue.issueType h))⟩

theorem Patch.json_only {x : Patch}
    (h : Patch.ofJson (Patch.toJson x) = .ok x) :
    Patch.JsonOk x := by
  have hn : ["type", "diff", "resolves"].Nodup := by decide
  have h := bindWith (Json.fields_mk _) h
  obtain ⟨_, e1, h⟩ := bindInv h
  obtain ⟨_, e2, h⟩ := bindInv h
  obtain ⟨_, e3, h⟩ := bindInv h
  have h := Except.ok.inj h
  exact ⟨Json.enum_inv (Json.req_inv e1 hn (.head _) (congrArg Patch.patchType h)),
    fun y234 hy234 => Diff.json_only ((Json.opt_inv_id e2 hn (.tail _ (.head _)) (congrArg Patch.diff h)) y234 hy234),
    fun y235 hy235 => fun y236 hy236 => Issue.json_only ((Json.array_inv_id ((Json.opt_inv_id e3 hn (.tail _ (.tail _ (.head _))) (congrArg Patch.resolves h)) y235 hy235)) y236 hy236)⟩

theorem VulnerabilityAnalysis.json_only (v : SpecVersion) {x : VulnerabilityAnalysis}
    (h : VulnerabilityAnalysis.ofJson v (VulnerabilityAnalysis.toJson v x) = .ok (x.at v)) :
    VulnerabilityAnalysis.JsonOk x := by
  cases v with
  | v1_3 =>
    have hn : ["state", "justification", "responses", "detail"].Nodup := by decide
    have h := bindWith (Json.fields_mk _) h
    obtain ⟨_, e1, h⟩ := bindInv h
    obtain ⟨_, e2, h⟩ := bindInv h
    obtain ⟨_, e3, h⟩ := bindInv h
    obtain ⟨_, _, h⟩ := bindInv h
    obtain ⟨_, _, h⟩ := bindInv h
    obtain ⟨_, _, h⟩ := bindInv h
    have h := Except.ok.inj h
    exact ⟨fun y248 hy248 => Json.enum_inv ((Json.opt_inv_id e1 hn (.head _) (congrArg VulnerabilityAnalysis.state h)) y248 hy248),
      fun y249 hy249 => Json.enum_inv ((Json.opt_inv_id e2 hn (.tail _ (.head _)) (congrArg VulnerabilityAnalysis.justification h)) y249 hy249),
      fun y250 hy250 => fun y251 hy251 => Json.enum_inv ((Json.array_inv_id ((Json.opt_inv_id e3 hn (.tail _ (.tail _ (.head _))) (congrArg VulnerabilityAnalysis.responses h)) y250 hy250)) y251 hy251)⟩
  | v1_4 =>
    have hn : ["state", "justification", "responses", "detail"].Nodup := by decide
    have h := bindWith (Json.fields_mk _) h
    obtain ⟨_, e1, h⟩ := bindInv h
    obtain ⟨_, e2, h⟩ := bindInv h
    obtain ⟨_, e3, h⟩ := bindInv h
    obtain ⟨_, _, h⟩ := bindInv h
    obtain ⟨_, _, h⟩ := bindInv h
    obtain ⟨_, _, h⟩ := bindInv h
    have h := Except.ok.inj h
    exact ⟨fun y253 hy253 => Json.enum_inv ((Json.opt_inv_id e1 hn (.head _) (congrArg VulnerabilityAnalysis.state h)) y253 hy253),
      fun y254 hy254 => Json.enum_inv ((Json.opt_inv_id e2 hn (.tail _ (.head _)) (congrArg VulnerabilityAnalysis.justification h)) y254 hy254),
      fun y255 hy255 => fun y256 hy256 => Json.enum_inv ((Json.array_inv_id ((Json.opt_inv_id e3 hn (.tail _ (.tail _ (.head _))) (congrArg VulnerabilityAnalysis.responses h)) y255 hy255)) y256 hy256)⟩
  | v1_5 =>
    have hn : ["state", "justification", "responses", "detail", "firstIssued", "lastUpdated"].Nodup := by decide
    have h := bindWith (Json.fields_mk _) h
    obtain ⟨_, e1, h⟩ := bindInv h
    obtain ⟨_, e2, h⟩ := bindInv h
    obtain ⟨_, e3, h⟩ := bindInv h
    obtain ⟨_, _, h⟩ := bindInv h
    obtain ⟨_, _, h⟩ := bindInv h
    obtain ⟨_, _, h⟩ := bindInv h
    have h := Except.ok.inj h
    exact ⟨fun y258 hy258 => Json.enum_inv ((Json.opt_inv_id e1 hn (.head _) (congrArg VulnerabilityAnalysis.state h)) y258 hy258),
      fun y259 hy259 => Json.enum_inv ((Json.opt_inv_id e2 hn (.tail _ (.head _)) (congrArg VulnerabilityAnalysis.justification h)) y259 hy259),
      fun y260 hy260 => fun y261 hy261 => Json.enum_inv ((Json.array_inv_id ((Json.opt_inv_id e3 hn (.tail _ (.tail _ (.head _))) (congrArg VulnerabilityAnalysis.responses h)) y260 hy260)) y261 hy261)⟩

theorem TargetVersion.json_only {x : TargetVersion}
    (h : TargetVersion.ofJson (TargetVersion.toJson x) = .ok x) : TargetVersion.JsonOk x := by
  obtain ⟨versionRange, status⟩ := x
  cases versionRange with
  | version z =>
    have hn : ["version", "status"].Nodup := by decide
    have h := bindWith (Json.fields_mk _) h
    obtain ⟨_, _, h⟩ := bindInv h
    obtain ⟨_, e, h⟩ := bindInv h
    have h := Except.ok.inj h
    exact ⟨Json.enum_inv (Json.req_inv e hn (.tail _ (.head _)) (congrArg TargetVersion.status h))⟩
  | range z =>
    have hn : ["range", "status"].Nodup := by decide
    have h := bindWith (Json.fields_mk _) h
    obtain ⟨_, _, h⟩ := bindInv h
    obtain ⟨_, e, h⟩ := bindInv h
    have h := Except.ok.inj h
    exact ⟨Json.enum_inv (Json.req_inv e hn (.tail _ (.head _)) (congrArg TargetVersion.status h))⟩
  | undefinedVersionRange z =>
    have hn : ["undefinedVersionRange", "status"].Nodup := by decide
    have h := bindWith (Json.fields_mk _) h
    obtain ⟨_, _, h⟩ := bindInv h
    obtain ⟨_, e, h⟩ := bindInv h
    have h := Except.ok.inj h
    exact ⟨Json.enum_inv (Json.req_inv e hn (.tail _ (.head _)) (congrArg TargetVersion.status h))⟩

theorem VulnerabilityTarget.json_only {x : VulnerabilityTarget}
    (h : VulnerabilityTarget.ofJson (VulnerabilityTarget.toJson x) = .ok x) :
    VulnerabilityTarget.JsonOk x := by
  have hn : ["ref", "versions"].Nodup := by decide
  have h := bindWith (Json.fields_mk _) h
  obtain ⟨_, _, h⟩ := bindInv h
  obtain ⟨_, e1, h⟩ := bindInv h
  have h := Except.ok.inj h
  exact ⟨fun y291 hy291 => fun y292 hy292 => TargetVersion.json_only ((Json.array_inv_id ((Json.opt_inv_id e1 hn (.tail _ (.head _)) (congrArg VulnerabilityTarget.versions h)) y291 hy291)) y292 hy292)⟩

theorem ComponentData.json_only {x : ComponentData}
    (h : ComponentData.ofJson (ComponentData.toJson x) = .ok x) :
    ComponentData.JsonOk x := by
  have hn : ["bomRef", "type", "name", "contents", "classification", "sensitiveData", "graphics", "description", "governance"].Nodup := by decide
  have h := bindWith (Json.fields_mk _) h
  obtain ⟨_, _, h⟩ := bindInv h
  obtain ⟨_, e1, h⟩ := bindInv h
  obtain ⟨_, _, h⟩ := bindInv h
  obtain ⟨_, _, h⟩ := bindInv h
  obtain ⟨_, _, h⟩ := bindInv h
  obtain ⟨_, _, h⟩ := bindInv h
  obtain ⟨_, _, h⟩ := bindInv h
  obtain ⟨_, _, h⟩ := bindInv h
  obtain ⟨_, _, h⟩ := bindInv h
  have h := Except.ok.inj h
  exact ⟨Json.enum_inv (Json.req_inv e1 hn (.tail _ (.head _)) (congrArg ComponentData.dataType h))⟩

theorem ModelParametersApproach.json_only {x : ModelParametersApproach}
    (h : ModelParametersApproach.ofJson (ModelParametersApproach.toJson x) = .ok x) :
    ModelParametersApproach.JsonOk x := by
  have hn : ["type"].Nodup := by decide
  have h := bindWith (Json.fields_mk _) h
  obtain ⟨_, e1, h⟩ := bindInv h
  have h := Except.ok.inj h
  exact ⟨fun y367 hy367 => Json.enum_inv ((Json.opt_inv_id e1 hn (.head _) (congrArg ModelParametersApproach.approachType h)) y367 hy367)⟩

theorem Dataset.json_only {x : Dataset} (h : Dataset.ofJson (Dataset.toJson x) = .ok x) :
    Dataset.JsonOk x := by
  unfold Dataset.ofJson at h
  cases x with
  | component y =>
    cases hl : ComponentData.ofJson (Dataset.toJson (.component y)) with
    | ok y' =>
      rw [hl] at h
      cases h
      exact ComponentData.json_only hl
    | error e =>
      rw [hl] at h
      obtain ⟨_, _, h⟩ := Json.map_inv h
      cases h
  | reference r => trivial

theorem ModelParameters.json_only {x : ModelParameters}
    (h : ModelParameters.ofJson (ModelParameters.toJson x) = .ok x) :
    ModelParameters.JsonOk x := by
  have hn : ["approach", "task", "architectureFamily", "modelArchitecture", "datasets", "inputs", "outputs"].Nodup := by decide
  have h := bindWith (Json.fields_mk _) h
  obtain ⟨_, e1, h⟩ := bindInv h
  obtain ⟨_, _, h⟩ := bindInv h
  obtain ⟨_, _, h⟩ := bindInv h
  obtain ⟨_, _, h⟩ := bindInv h
  obtain ⟨_, e2, h⟩ := bindInv h
  obtain ⟨_, _, h⟩ := bindInv h
  obtain ⟨_, _, h⟩ := bindInv h
  have h := Except.ok.inj h
  exact ⟨fun y376 hy376 => ModelParametersApproach.json_only ((Json.opt_inv_id e1 hn (.head _) (congrArg ModelParameters.approach h)) y376 hy376),
    fun y380 hy380 => fun y381 hy381 => Dataset.json_only ((Json.array_inv_id ((Json.opt_inv_id e2 hn (.tail _ (.tail _ (.tail _ (.tail _ (.head _))))) (congrArg ModelParameters.datasets h)) y380 hy380)) y381 hy381)⟩

theorem ModelCard.json_only {x : ModelCard}
    (h : ModelCard.ofJson (ModelCard.toJson x) = .ok x) :
    ModelCard.JsonOk x := by
  have hn : ["bomRef", "modelParameters", "quantitativeAnalysis", "considerations", "properties"].Nodup := by decide
  have h := bindWith (Json.fields_mk _) h
  obtain ⟨_, _, h⟩ := bindInv h
  obtain ⟨_, e1, h⟩ := bindInv h
  obtain ⟨_, _, h⟩ := bindInv h
  obtain ⟨_, _, h⟩ := bindInv h
  obtain ⟨_, _, h⟩ := bindInv h
  have h := Except.ok.inj h
  exact ⟨fun y435 hy435 => ModelParameters.json_only ((Json.opt_inv_id e1 hn (.tail _ (.head _)) (congrArg ModelCard.modelParameters h)) y435 hy435)⟩

theorem DataClassification.json_only {x : DataClassification}
    (h : DataClassification.ofJson (DataClassification.toJson x) = .ok x) :
    DataClassification.JsonOk x := by
  have hn : ["flow", "classification"].Nodup := by decide
  have h := bindWith (Json.fields_mk _) h
  obtain ⟨_, e1, h⟩ := bindInv h
  obtain ⟨_, _, h⟩ := bindInv h
  have h := Except.ok.inj h
  exact ⟨Json.enum_inv (Json.req_inv e1 hn (.head _) (congrArg DataClassification.flow h))⟩

theorem ServiceData.classified (x : ServiceData) :
    ∃ y, DataClassification.ofJson (ServiceData.toJson x) = .ok y := by
  have hn : ["name", "description", "flow", "classification", "governance", "source",
    "destination"].Nodup := by decide
  refine ⟨⟨DataFlowType.new (DataFlowType.display x.classification.flow),
    x.classification.classification⟩, ?_⟩
  refine bindOk (Json.fields_mk _) ?_
  refine bindOk (Json.req_mk hn (.tail _ (.tail _ (.head _))) rfl) ?_
  refine bindOk (Json.req_mk hn (.tail _ (.tail _ (.tail _ (.head _)))) rfl) ?_
  rfl

theorem ServiceData.allClassified : ∀ l : List ServiceData,
    ∃ y, (l.map ServiceData.toJson).mapM DataClassification.ofJson = .ok y
  | [] => ⟨[], rfl⟩
  | x :: l => by
    obtain ⟨y, hy⟩ := ServiceData.classified x
    obtain ⟨ys, hys⟩ := ServiceData.allClassified l
    exact ⟨y :: ys, by rw [List.map_cons, List.mapM_cons, hy, hys]; rfl⟩

theorem ServiceDataChoice.json_only (v : SpecVersion) {x : ServiceDataChoice}
    (h : ServiceDataChoice.ofJson v (ServiceDataChoice.toJson v x) = .ok (x.at v)) :
    ServiceDataChoice.JsonOk v x := by
  have main : ∀ l : List DataClassification,
      ServiceDataChoice.ofJson v (Json.ofList DataClassification.toJson l) =
        .ok (.classification l) → ∀ x ∈ l, DataClassification.JsonOk x := by
    intro l h
    rw [ServiceDataChoice.ofJson] at h
    cases hl : Json.array DataClassification.ofJson (Json.ofList DataClassification.toJson l) with
    | ok l' =>
      rw [hl] at h
      cases h
      exact fun y hy => DataClassification.json_only (Json.array_inv_id hl y hy)
    | error e =>
      rw [hl] at h
      cases v with
      | v1_5 =>
        obtain ⟨_, _, h⟩ := Json.map_inv (m := Json.array ServiceData.ofJson _) h
        cases h
      | _ => exact nomatch h
  cases x with
  | classification l => exact main l h
  | serviceData l =>
    cases v with
    | v1_5 =>
      obtain ⟨y, hy⟩ := ServiceData.allClassified l
      have hy : Json.array DataClassification.ofJson
          (ServiceDataChoice.toJson .v1_5 (.serviceData l)) = .ok y := hy
      rw [ServiceDataChoice.ofJson, hy] at h
      cases h
    | _ => exact ⟨nofun, fun x hx => main _ h _ (List.mem_map_of_mem hx)⟩

theorem Swid.json_only {x : Swid}
    (h : Swid.ofJson (Swid.toJson x) = .ok x) :
    Swid.JsonOk x := by
  have hn : ["tagId", "name", "version", "tagVersion", "patch", "text", "url"].Nodup := by decide
  have h := bindWith (Json.fields_mk _) h
  obtain ⟨_, _, h⟩ := bindInv h
  obtain ⟨_, _, h⟩ := bindInv h
  obtain ⟨_, _, h⟩ := bindInv h
  obtain ⟨_, e1, h⟩ := bindInv h
  obtain ⟨_, _, h⟩ := bindInv h
  obtain ⟨_, e2, h⟩ := bindInv h
  obtain ⟨_, _, h⟩ := bindInv h
  have h := Except.ok.inj h
  exact ⟨fun y459 hy459 => Json.u32_inv ((Json.opt_inv_id e1 hn (.tail _ (.tail _ (.tail _ (.head _)))) (congrArg Swid.tagVersion h)) y459 hy459),
    fun y461 hy461 => AttachedText.json_only ((Json.opt_inv_id e2 hn (.tail _ (.tail _ (.tail _ (.tail _ (.tail _ (.head _)))))) (congrArg Swid.text h)) y461 hy461)⟩

theorem Lifecycle.json_only {x : Lifecycle} (h : Lifecycle.ofJson (Lifecycle.toJson x) = .ok x) :
    Lifecycle.JsonOk x := by
  cases x with
  | phase p => exact Lifecycle.phase.inj (Except.ok.inj h)
  | description d => trivial

end Cdx
