import Verif.Props.Elements
import Verif.Props.Formats
import Verif.Model.Constructors

/-!
# Elements built with the constructors (C84)

For each public constructor: exactly when what it builds passes validation, and that the texts
it is given are the texts of the element.
-/

namespace Cdx.Props

open Spec

section

variable {E : VEnv} {v : SpecVersion}

private theorem leaf (e : Elem) (h : e.checked = []) : e.Passes E v ↔ e.rule E v := by
  rw [Elem.passes_iff, h]
  simp

private theorem pNormalized (x : NormalizedString) :
    (Elem.normalizedString x).Passes E v ↔ NoBreaks x := leaf _ rfl

private theorem pUri (x : Uri) : (Elem.uri x).Passes E v ↔ E.uriOk x = true := leaf _ rfl

private theorem pDateTime (x : DateTime) :
    (Elem.dateTime x).Passes E v ↔ E.dateTimeOk x = true := leaf _ rfl

private theorem pSpdxId (x : String) : (Elem.spdxId x).Passes E v ↔ E.spdxIdOk x = true :=
  leaf _ rfl

private theorem pExpression (x : SpdxExpression) :
    (Elem.spdxExpression x).Passes E v ↔ E.spdxExprOk x.expression = true := leaf _ rfl

private theorem pClassification (x : Classification) :
    (Elem.classification x).Passes E v ↔ ClassificationIn v x := leaf _ rfl

private theorem pReferenceType (x : ExternalReferenceType) :
    (Elem.externalReferenceType x).Passes E v ↔ ∀ s, x ≠ .unknownExternalReferenceType s :=
  leaf _ rfl

private theorem pAlgorithm (x : Algorithm) :
    (Elem.algorithm x).Passes E v ↔ ∀ s, x ≠ .unknown s := leaf _ rfl

private theorem pSeverity (x : Severity) :
    (Elem.severity x).Passes E v ↔ ∀ s, x ≠ .undefinedSeverity s := leaf _ rfl

private theorem pScoreMethod (x : ScoreMethod) :
    (Elem.scoreMethod x).Passes E v ↔ ScoreMethodIn v x := leaf _ rfl

private theorem pState (x : ImpactAnalysisState) : (Elem.impactAnalysisState x).Passes E v ↔
    ∀ s, x ≠ .undefinedImpactAnalysisState s := leaf _ rfl

private theorem pJustification (x : ImpactAnalysisJustification) :
    (Elem.impactAnalysisJustification x).Passes E v ↔
      ∀ s, x ≠ .undefinedImpactAnalysisJustification s := leaf _ rfl

private theorem pResponse (x : ImpactAnalysisResponse) :
    (Elem.impactAnalysisResponse x).Passes E v ↔ ∀ s, x ≠ .undefinedResponse s := leaf _ rfl

private theorem pStatus (x : Status) :
    (Elem.status x).Passes E v ↔ ∀ s, x ≠ .undefinedStatus s := leaf _ rfl

private theorem pRange (x : VersionRange) :
    (Elem.versionRange x).Passes E v ↔ ∀ s, x ≠ .undefinedVersionRange s := leaf _ rfl

private theorem pApproach (x : ApproachType) :
    (Elem.approachType x).Passes E v ↔ ∀ s, x ≠ .unknown s := leaf _ rfl

private theorem pSerial (x : String) :
    (Elem.serialNumber x).Passes E v ↔ IsUrnUuid x := leaf _ rfl

private theorem normalized (s : String) : NoBreaks (normalizedString s) :=
  (C30_rejects _).mp (C30_validates s)

private theorem pReference (x : String) :
    (Elem.refUri (.ofUrl x)).Passes E v ↔
      ((∃ r, x = "urn:cdx" ++ r) → v = .v1_5 ∧ IsBomLink x) ∧
      (¬ (∃ r, x = "urn:cdx" ++ r) → E.uriOk x = true) := by
  rw [leaf _ rfl, ← startsWith_iff, RefUri.ofUrl]
  by_cases h : startsWith x "urn:cdx" = true <;> simp [h, Elem.rule]

private theorem one (e p : Elem) (h : e.checked = [p]) (hr : e.rule E v) :
    e.Passes E v ↔ p.Passes E v := by
  rw [Elem.passes_iff, h]
  simp [hr]

end

/-! ## Parts -/

/-- A component built with `new` passes validation iff its type is one of the version,
whatever its name, version and `bom-ref` are. -/
theorem C84_component (E : VEnv) (v : SpecVersion) (t : Classification) (name version : String)
    (bomRef : Option String) :
    Component.validate E v (Component.new t name version bomRef) = .ok [] ↔
      ClassificationIn v t := by
  rw [← passes_component, Elem.passes_iff, checked_component]
  simp [Component.new, opt, many, pClassification, pNormalized, normalized, Elem.rule]

/-- A service built with `new` passes validation iff its name has no line break and no tab. -/
theorem C84_service (E : VEnv) (v : SpecVersion) (name : String) (bomRef : Option String) :
    Service.validate E v (Service.new name bomRef) = .ok [] ↔ NoBreaks name := by
  rw [← passes_service, Elem.passes_iff, checked_service]
  simp [Service.new, opt, many, pNormalized, Elem.rule]

/-- An organization built with `new` passes validation iff its name has no line break and no
tab. -/
theorem C84_organization (E : VEnv) (v : SpecVersion) (name : String) :
    OrganizationalEntity.validate E v (OrganizationalEntity.new name) = .ok [] ↔
      NoBreaks name := by
  rw [← passes_organizationalEntity, Elem.passes_iff, checked_organizationalEntity]
  simp [OrganizationalEntity.new, opt, many, pNormalized, Elem.rule]

/-- What the following constructors build passes validation in every version whatever they are
given: `OrganizationalContact::new`, `Property::new`, `Tool::new`, `License::named_license`,
`LicenseChoice::license`, `Vulnerability::new`, `VulnerabilityTarget::new`, `Occurrence::new`,
`MLParameter::new`. -/
theorem C84_always (E : VEnv) (v : SpecVersion) (a b c : String) (o : Option String) :
    OrganizationalContact.validate E v (OrganizationalContact.new a o) = .ok [] ∧
    Property.validate E v (Property.new a b) = .ok [] ∧
    Tool.validate E v (Tool.new a b c) = .ok [] ∧
    License.validate E v (License.named a) = .ok [] ∧
    LicenseChoice.validate E v (LicenseChoice.newLicense a) = .ok [] ∧
    Vulnerability.validate E v (Vulnerability.new o) = .ok [] ∧
    VulnerabilityTarget.validate E v (VulnerabilityTarget.new a) = .ok [] ∧
    Occurrence.validate E v (Occurrence.new a) = .ok [] ∧
    validateMlParameter (MLParameter.new a) = .ok () := by
  have hl : License.validate E v (License.named a) = .ok [] := by
    rw [← passes_license, Elem.passes_iff, checked_license]
    simp only [License.named, opt, many, Elem.rule, Option.toList, Option.getD, List.map_nil,
      List.append_nil, List.mem_singleton, forall_eq, true_and]
    rw [one (.licenseIdentifier (.name _)) (.normalizedString _) rfl trivial, pNormalized]
    exact normalized a
  refine ⟨?_, ?_, ?_, hl, ?_, ?_, ?_, ?_, rfl⟩
  · rw [← passes_organizationalContact, Elem.passes_iff, checked_organizationalContact]
    cases o <;> simp [OrganizationalContact.new, opt, pNormalized, normalized, Elem.rule]
  · rw [← passes_property, Elem.passes_iff, checked_property]
    simp [Property.new, pNormalized, normalized, Elem.rule]
  · rw [← passes_tool, Elem.passes_iff, checked_tool]
    simp [Tool.new, opt, many, pNormalized, normalized, Elem.rule]
  · exact (one (.licenseChoice (.license (License.named a))) (.license (License.named a)) rfl
      trivial).mpr hl
  · rw [← passes_vulnerability, Elem.passes_iff, checked_vulnerability]
    simp [Vulnerability.new, opt, many, Elem.rule]
  · rw [← passes_vulnerabilityTarget, Elem.passes_iff, checked_vulnerabilityTarget]
    simp [VulnerabilityTarget.new, opt, many, Elem.rule]
  · rw [← passes_occurrence, Elem.passes_iff, checked_occurrence]
    simp [Occurrence.new, opt, Elem.rule]

/-- A license built with an identifier, and one built with an expression, passes validation iff
the `spdx` crate knows the identifier or accepts the expression. -/
theorem C84_license (E : VEnv) (v : SpecVersion) (s : String) :
    (License.validate E v (License.licenseId s) = .ok [] ↔ E.spdxIdOk s = true) ∧
    (LicenseChoice.validate E v (LicenseChoice.newExpression s) = .ok [] ↔
      E.spdxExprOk s = true) := by
  constructor
  · rw [← passes_license, Elem.passes_iff, checked_license]
    simp only [License.licenseId, opt, many, Elem.rule, Option.toList, Option.getD, List.map_nil,
      List.append_nil, List.mem_singleton, forall_eq, true_and]
    rw [one (.licenseIdentifier (.spdxId s)) (.spdxId s) rfl trivial, pSpdxId]
  · exact (one (v := v) (.licenseChoice (.expression (SpdxExpression.new s)))
      (.spdxExpression (SpdxExpression.new s)) rfl trivial).trans (pExpression _)

/-- An external reference built with `new` passes validation iff its type is known and: if its
address begins with `urn:cdx`, the version is 1.5 and the address is a BOM-Link; else, the
address is a URI. -/
theorem C84_reference (E : VEnv) (v : SpecVersion) (t : ExternalReferenceType) (u : String) :
    ExternalReference.validate E v (ExternalReference.new t u) = .ok [] ↔
      (∀ s, t ≠ .unknownExternalReferenceType s) ∧
      ((∃ r, u = "urn:cdx" ++ r) → v = .v1_5 ∧ IsBomLink u) ∧
      (¬ (∃ r, u = "urn:cdx" ++ r) → E.uriOk u = true) := by
  rw [← passes_externalReference, Elem.passes_iff, checked_externalReference]
  simp [ExternalReference.new, many, Elem.rule, pReferenceType, -not_exists]
  intro _
  simpa [-not_exists] using pReference u

/-- The metadata made by `new` passes validation in every version if the time that the `time`
crate printed is one that it reads. -/
theorem C84_metadata (E : VEnv) (v : SpecVersion) (now : Option DateTime) :
    (Metadata.new now = none ↔ now = none) ∧
    ∀ m, Metadata.new now = some m → m.timestamp = now ∧
      (Metadata.validate E v m = .ok [] ↔ ∀ d, now = some d → E.dateTimeOk d = true) := by
  cases now with
  | none => simp [Metadata.new]
  | some d =>
    refine ⟨by simp [Metadata.new], ?_⟩
    rintro m ⟨⟩
    refine ⟨rfl, ?_⟩
    rw [← passes_metadata, Elem.passes_iff, checked_metadata]
    simp [opt, many, pDateTime, Elem.rule]

/-- A source of a vulnerability passes iff its address is a URI; a reference to it as well. -/
theorem C84_vulnerability_source (E : VEnv) (v : SpecVersion) (name : Option String)
    (url : Option Uri) (id : String) :
    (VulnerabilitySource.validate E v (VulnerabilitySource.new name url) = .ok [] ↔
      ∀ u, url = some u → E.uriOk u = true) ∧
    (VulnerabilityReference.validate E v
        (VulnerabilityReference.new id (VulnerabilitySource.new name url)) = .ok [] ↔
      ∀ u, url = some u → E.uriOk u = true) := by
  have h : VulnerabilitySource.validate E v (VulnerabilitySource.new name url) = .ok [] ↔
      ∀ u, url = some u → E.uriOk u = true := by
    rw [← passes_vulnerabilitySource, Elem.passes_iff, checked_vulnerabilitySource]
    cases name <;>
      simp [VulnerabilitySource.new, opt, pNormalized, normalized, pUri, Elem.rule]
  refine ⟨h, ?_⟩
  rw [← passes_vulnerabilityReference, Elem.passes_iff, checked_vulnerabilityReference]
  simp [VulnerabilityReference.new, pNormalized, normalized, Elem.rule,
    passes_vulnerabilitySource, h]

/-- A rating passes iff its severity is known and its method is one of the version; the score
does not matter. -/
theorem C84_rating (E : VEnv) (v : SpecVersion) (score : Option F32) (severity : Option Severity)
    (method : Option ScoreMethod) :
    VulnerabilityRating.validate E v (VulnerabilityRating.new score severity method) = .ok [] ↔
      (∀ x, severity = some x → ∀ s, x ≠ .undefinedSeverity s) ∧
      ∀ m, method = some m → ScoreMethodIn v m := by
  rw [← passes_vulnerabilityRating, Elem.passes_iff, checked_vulnerabilityRating]
  cases severity <;> cases method <;>
    simp [VulnerabilityRating.new, opt, pSeverity, pScoreMethod, Elem.rule]

/-- An analysis passes iff its state, justification and responses are known. -/
theorem C84_analysis (E : VEnv) (v : SpecVersion) (state : Option ImpactAnalysisState)
    (justification : Option ImpactAnalysisJustification)
    (responses : Option (List ImpactAnalysisResponse)) :
    VulnerabilityAnalysis.validate E v
        (VulnerabilityAnalysis.new state justification responses) = .ok [] ↔
      (∀ x, state = some x → ∀ s, x ≠ .undefinedImpactAnalysisState s) ∧
      (∀ x, justification = some x → ∀ s, x ≠ .undefinedImpactAnalysisJustification s) ∧
      ∀ l, responses = some l → ∀ x ∈ l, ∀ s, x ≠ .undefinedResponse s := by
  rw [← passes_vulnerabilityAnalysis, Elem.passes_iff, checked_vulnerabilityAnalysis]
  simp only [List.forall_mem_append, forall_opt, forall_many]
  cases state <;> cases justification <;> cases responses <;>
    simp [VulnerabilityAnalysis.new, pState, pJustification, pResponse, Elem.rule, and_assoc]

/-- An affected version passes iff its status is one of the three that exist; the text of the
version does not matter. -/
theorem C84_affected (E : VEnv) (v : SpecVersion) (version status : String) :
    TargetVersion.validate E v (TargetVersion.new version status) = .ok [] ↔
      status = "affected" ∨ status = "unaffected" ∨ status = "unknown" := by
  rw [← passes_targetVersion, Elem.passes_iff, checked_targetVersion]
  have hr : ∀ s, versionRangeNew version ≠ .undefinedVersionRange s := by
    intro s; unfold versionRangeNew; split <;> simp
  simp [TargetVersion.new, pRange, pStatus, Elem.rule, hr]
  unfold Status.new
  split <;> simp_all

/-- An advisory passes iff its address is a URI. -/
theorem C84_advisory (E : VEnv) (v : SpecVersion) (url : Uri) :
    Advisory.validate E v (Advisory.new url) = .ok [] ↔ E.uriOk url = true := by
  rw [← passes_advisory, Elem.passes_iff, checked_advisory]
  simp [Advisory.new, opt, pUri, Elem.rule]

/-- An approach passes iff it is one of the five that exist. -/
theorem C84_approach (E : VEnv) (v : SpecVersion) (s : String) :
    ModelParametersApproach.validate E v (ModelParametersApproach.new s) = .ok [] ↔
      s ∈ ["supervised", "unsupervised", "reinforcement-learning", "semi-supervised",
        "self-supervised"] := by
  rw [← passes_modelParametersApproach, Elem.passes_iff, checked_modelParametersApproach]
  simp [ModelParametersApproach.new, opt, pApproach, Elem.rule]
  unfold ApproachType.new
  split <;> simp_all

/-- A signature passes iff its algorithms are known. -/
theorem C84_signature (E : VEnv) (v : SpecVersion) (a : Algorithm) (value : String)
    (l : List (Algorithm × String)) :
    (Signature.validate E v (Signature.newSingle a value) = .ok [] ↔ ∀ s, a ≠ .unknown s) ∧
    (Signature.validate E v (Signature.newChain l) = .ok [] ↔ ∀ p ∈ l, ∀ s, p.1 ≠ .unknown s) ∧
    (Signature.validate E v (Signature.newSigners l) = .ok [] ↔
      ∀ p ∈ l, ∀ s, p.1 ≠ .unknown s) := by
  have hs : ∀ (a : Algorithm) (value : String),
      (Elem.signer (Signer.new a value)).Passes E v ↔ ∀ s, a ≠ .unknown s := by
    intro a value
    rw [Elem.passes_iff, checked_signer]
    simp [Signer.new, pAlgorithm, Elem.rule]
  have hl : (∀ p ∈ (l.map fun p => Signer.new p.1 p.2).map Elem.signer, p.Passes E v) ↔
      ∀ p ∈ l, ∀ s, p.1 ≠ .unknown s := by
    simp only [List.map_map, List.forall_mem_map, Function.comp, hs]
  refine ⟨?_, ?_, ?_⟩
  · exact (one (.signature (Signature.newSingle a value)) (.signer (Signer.new a value)) rfl
      trivial).trans (hs a value)
  · refine Iff.trans (Elem.passes_iff E v (.signature (Signature.newChain l))) ?_
    exact ⟨fun h => hl.mp h.2, fun h => ⟨trivial, hl.mpr h⟩⟩
  · refine Iff.trans (Elem.passes_iff E v (.signature (Signature.newSigners l))) ?_
    exact ⟨fun h => hl.mp h.2, fun h => ⟨trivial, hl.mpr h⟩⟩

/-! ## Checked conversions -/

/-- The checked conversions of texts to timestamps, URIs, license identifiers and serial numbers
succeed iff validation accepts the text, and what they give has the same text. -/
theorem C84_conversions (E : VEnv) (s t : String) :
    (dateTimeTryFrom E s = some t ↔ validateDateTime E s = .ok () ∧ t = s) ∧
    (uriTryFrom E s = .ok t ↔ validateUri E s = .ok () ∧ t = s) ∧
    (spdxIdentifierTryFrom E s = .ok t ↔ validateSpdxIdentifier E s = .ok () ∧ t = s) ∧
    (urnUuidNew s = .ok t ↔ validateUrnUuid s = .ok () ∧ t = s) := by
  refine ⟨?_, ?_, ?_, ?_⟩
  · cases h : E.dateTimeOk s <;>
      simp [dateTimeTryFrom, validateDateTime, Check.require, h, eq_comm]
  · cases h : E.uriOk s <;> simp [uriTryFrom, validateUri, Check.require, h, eq_comm]
  · cases h : E.spdxIdOk s <;>
      simp [spdxIdentifierTryFrom, validateSpdxIdentifier, Check.require, h, eq_comm]
  · cases h : patUrnUuid.isMatch s <;> simp [urnUuidNew, validateUrnUuid, Check.require, h, eq_comm]

/-- The lenient conversion to a license identifier gives an identifier that validation accepts,
if the `spdx` crate finds the names of its own licenses. -/
theorem C84_imprecise (E : VEnv) (find : String → Option String)
    (own : ∀ s name, find s = some name → E.spdxIdOk name = true) (s t : String)
    (h : spdxIdentifierImprecise find s = .ok t) : validateSpdxIdentifier E t = .ok () := by
  unfold spdxIdentifierImprecise at h
  split at h
  · next name hf =>
    cases h
    simp [validateSpdxIdentifier, Check.require, own s _ hf]
  · cases h

/-- Conversion to a URI does not make an external reference valid: `urn:cdx:x` may be a URI, but
as the address of an external reference it is rejected in every version. -/
theorem C84_uri_reference_refuted :
    ¬ ∀ (E : VEnv) (v : SpecVersion) (s u : String), uriTryFrom E s = .ok u →
      ExternalReference.validate E v (ExternalReference.new .website u) = .ok [] := by
  intro h
  have h1 := (C84_reference laxEnv .v1_4 .website "urn:cdx:x").mp (h laxEnv .v1_4 "urn:cdx:x" _ rfl)
  exact absurd (h1.2.1 ⟨":x", by decide⟩).1 (by decide)

/-! ## Texts -/

/-- The texts that the constructors are given are those of the elements, up to line breaks and
tabs, which most of them replace. -/
theorem C84_texts (t : Classification) (a b c : String) (o p : Option String)
    (src : VulnerabilitySource) :
    (let x := Component.new t a b o
     x.componentType = t ∧ Normalizes a.toList x.name.toList ∧
       (∃ w, x.version = some w ∧ Normalizes b.toList w.toList) ∧ x.bomRef = o) ∧
    (let x := Service.new a o
     x.name = a ∧ x.bomRef = o) ∧
    (OrganizationalEntity.new a).name = some a ∧
    (∃ n, (OrganizationalContact.new a o).name = some n ∧ Normalizes a.toList n.toList) ∧
    (∀ m, o = some m → ∃ n, (OrganizationalContact.new a o).email = some n ∧
      Normalizes m.toList n.toList) ∧
    (let x := Property.new a b
     x.name = a ∧ Normalizes b.toList x.value.toList) ∧
    (∃ n, (License.named a).licenseIdentifier = .name n ∧ Normalizes a.toList n.toList) ∧
    (License.licenseId a).licenseIdentifier = .spdxId a ∧
    (∃ k l m, Tool.new a b c = { vendor := some k, name := some l, version := some m } ∧
      Normalizes a.toList k.toList ∧ Normalizes b.toList l.toList ∧
      Normalizes c.toList m.toList) ∧
    (∀ m, o = some m → ∃ n, VulnerabilitySource.new o p = { name := some n, url := p } ∧
      Normalizes m.toList n.toList) ∧
    (let x := VulnerabilityReference.new a src
     Normalizes a.toList x.id.toList ∧ x.vulnerabilitySource = src) ∧
    (VulnerabilityTarget.new a).bomRef = a ∧ (Vulnerability.new o).bomRef = o ∧
    (Occurrence.new a).location = a ∧ (Advisory.new a).url = a := by
  have hn := fun s => (C30_normalizes s _).mp rfl
  refine ⟨⟨rfl, hn a, ⟨_, rfl, hn b⟩, rfl⟩, ⟨rfl, rfl⟩, rfl, ⟨_, rfl, hn a⟩, ?_, ⟨rfl, hn b⟩,
    ⟨_, rfl, hn a⟩, rfl, ⟨_, _, _, rfl, hn a, hn b, hn c⟩, ?_, ⟨hn a, rfl⟩, rfl, rfl, rfl, rfl⟩
  · rintro m rfl
    exact ⟨_, rfl, hn m⟩
  · rintro m rfl
    exact ⟨_, rfl, hn m⟩

/-- Ratings, analyses, signatures, approaches, parameters and call stacks have the values given, in
the order given, and nothing else; a chain of signatures is a chain and not a list of signers. -/
theorem C84_values (score : Option F32) (severity : Option Severity) (method : Option ScoreMethod)
    (state : Option ImpactAnalysisState) (justification : Option ImpactAnalysisJustification)
    (responses : Option (List ImpactAnalysisResponse)) (a : Algorithm) (s : String)
    (l : List (Algorithm × String)) (frames : List Frame) :
    (let x := VulnerabilityRating.new score severity method
     x.score = score ∧ x.severity = severity ∧ x.scoreMethod = method ∧
       x.vector = none ∧ x.justification = none ∧ x.vulnerabilitySource = none) ∧
    (let x := VulnerabilityAnalysis.new state justification responses
     x.state = state ∧ x.justification = justification ∧ x.responses = responses ∧
       x.detail = none ∧ x.firstIssued = none ∧ x.lastUpdated = none) ∧
    (∃ g, Signature.newSingle a s = .single g ∧ g.algorithm = a ∧ g.value = s) ∧
    (∃ gs, Signature.newChain l = .chain gs ∧ gs.map (fun g => (g.algorithm, g.value)) = l) ∧
    (∃ gs, Signature.newSigners l = .signers gs ∧
      gs.map (fun g => (g.algorithm, g.value)) = l) ∧
    (MLParameter.new s).format = some s ∧ (Callstack.new frames).frames = frames ∧
    (LicenseChoice.newExpression s = .expression (SpdxExpression.new s) ∧
      (SpdxExpression.new s).expression = s) ∧
    (∃ n, LicenseChoice.newLicense s = .license n ∧ n = License.named s) := by
  have h : (l.map fun p => Signer.new p.1 p.2).map (fun g => (g.algorithm, g.value)) = l := by
    rw [List.map_map]
    exact List.map_id'' (fun _ => rfl) l
  exact ⟨⟨rfl, rfl, rfl, rfl, rfl, rfl⟩, ⟨rfl, rfl, rfl, rfl, rfl, rfl⟩, ⟨_, rfl, rfl, rfl⟩, ⟨_, rfl, h⟩,
    ⟨_, rfl, h⟩, rfl, rfl, ⟨rfl, rfl⟩, ⟨_, rfl, rfl⟩⟩

/-- A URI says that it is a BOM-Link iff it begins with `urn:cdx`, and an external reference built
from it is a BOM-Link just then; its text is kept in both cases. -/
theorem C84_bomlink (t : ExternalReferenceType) (u : Uri) :
    (isBomlink u = true ↔ ∃ r, u = "urn:cdx" ++ r) ∧
    (isBomlink u = true → (ExternalReference.new t u).url = .bomLink u) ∧
    (isBomlink u = false → (ExternalReference.new t u).url = .url u) := by
  refine ⟨startsWith_iff, fun h => ?_, fun h => ?_⟩ <;>
    simp_all [isBomlink, ExternalReference.new, RefUri.ofUrl]

/-- A link to another document, and a web address. -/
example : isBomlink "urn:cdx:f08a6ccd-4dce-4759-bd84-c626675d60a7/1" = true ∧
    isBomlink "https://example.org" = false := by decide +kernel

/-- The version of an affected version is a range iff it begins with `vers:` and has no line feed
after that. -/
theorem C84_range (version status : String) :
    (∃ r, (TargetVersion.new version status).versionRange = .range r) ↔
      ∃ r, version.toList = "vers:".toList ++ r ∧ '\n' ∉ r := by
  rw [← patVers_iff, TargetVersion.new, versionRangeNew]
  cases h : patVers.isMatch version <;> simp

/-- The names are not treated alike: of the constructors that take a name, those of services and
organizations keep line breaks, and what they build is then rejected. -/
theorem C84_names_refuted :
    ¬ ∀ (E : VEnv) (v : SpecVersion) (name : String),
      Service.validate E v (Service.new name none) = .ok [] := by
  intro h
  exact absurd ((C84_service laxEnv .v1_5 "a\nb" none).mp (h _ _ _)).2.1 (by decide)

/-! ## Documents -/

/-- A document made of the default document with components, services, vulnerabilities and
external references built with their constructors passes validation iff the types of the
components are those of the version, no service has a line break in its name, the external
references are right, and no `bom-ref` is used twice. -/
theorem C84_document (E : VEnv) (v : SpecVersion) (uuid : Vector UInt8 16)
    (components : List (Classification × String × String × Option String))
    (services : List (String × Option String)) (vulnerabilities : List (Option String))
    (references : List (ExternalReferenceType × String)) :
    Bom.validateVersion E v { Bom.default uuid with
        components := some (components.map fun c => Component.new c.1 c.2.1 c.2.2.1 c.2.2.2)
        services := some (services.map fun s => Service.new s.1 s.2)
        vulnerabilities := some (vulnerabilities.map Vulnerability.new)
        externalReferences := some (references.map fun r => ExternalReference.new r.1 r.2) } =
        .ok [] ↔
      (∀ c ∈ components, ClassificationIn v c.1) ∧ (∀ s ∈ services, NoBreaks s.1) ∧
      (∀ r ∈ references, (∀ s, r.1 ≠ .unknownExternalReferenceType s) ∧
        ((∃ l, r.2 = "urn:cdx" ++ l) → v = .v1_5 ∧ IsBomLink r.2) ∧
        (¬ (∃ l, r.2 = "urn:cdx" ++ l) → E.uriOk r.2 = true)) ∧
      (components.filterMap (·.2.2.2) ++ services.filterMap (·.2) ++
        vulnerabilities.filterMap id).Nodup := by
  have hc : ∀ l : List (Classification × String × String × Option String),
      Component.refsList (l.map fun c => Component.new c.1 c.2.1 c.2.2.1 c.2.2.2) =
        l.filterMap (·.2.2.2) := by
    intro l
    induction l with
    | nil => simp [Component.refsList]
    | cons c l ih =>
      have hr : (Component.new c.1 c.2.1 c.2.2.1 c.2.2.2).refs = c.2.2.2.toList := by
        simp [Component.new, Component.refs, Component.refsOption]
      rw [List.map_cons, Component.refsList, ih, hr, List.filterMap_cons]
      cases c.2.2.2 <;> simp
  have hs : ∀ l : List (String × Option String),
      Service.refsList (l.map fun s => Service.new s.1 s.2) = l.filterMap (·.2) := by
    intro l
    induction l with
    | nil => simp [Service.refsList]
    | cons s l ih =>
      have hr : (Service.new s.1 s.2).refs = s.2.toList := by
        simp [Service.new, Service.refs, Service.refsOption]
      rw [List.map_cons, Service.refsList, ih, hr, List.filterMap_cons]
      cases s.2 <;> simp
  have hv : ∀ l : List (Option String),
      (l.map Vulnerability.new).flatMap (·.bomRef.toList) = l.filterMap id := by
    intro l
    induction l with
    | nil => rfl
    | cons o l ih =>
      rw [List.map_cons, List.flatMap_cons, ih, List.filterMap_cons]
      cases o <;> simp [Vulnerability.new]
  rw [← passes_bom, Elem.passes_iff, rule_bom, checked_bom]
  simp only [Bom.refs, Bom.default, Component.refsOption, Service.refsOption, hc, hs, hv,
    Option.getD_some, Option.getD_none, Option.bind_none, Option.toList_none, List.flatMap_nil,
    List.nil_append, List.not_mem_nil, false_implies, implies_true, and_true,
    List.forall_mem_append, forall_opt, forall_many, Option.some.injEq, forall_eq',
    List.forall_mem_map, passes_component, passes_service, passes_vulnerability,
    passes_externalReference, C84_component, C84_service, C84_reference,
    (C84_always E v "" "" "" _).2.2.2.2.2.1, reduceCtorEq, true_and, pSerial]
  have hu : IsUrnUuid (urnUuidGenerate uuid) :=
    ⟨uuidDisplay uuid, uuidDisplay_isUuid _, String.toList_ofList⟩
  simp only [hu, true_and]
  constructor
  · rintro ⟨h1, ⟨h2, h3⟩, h4⟩
    exact ⟨h2, h3, h4, h1⟩
  · rintro ⟨h2, h3, h4, h1⟩
    exact ⟨h1, ⟨h2, h3⟩, h4⟩

/-- A document with a library, a driver and two services is right in 1.5 and not in 1.4. -/
example (uuid : Vector UInt8 16) (v : SpecVersion) :
    Bom.validateVersion laxEnv v { Bom.default uuid with
        components := some ([(Classification.library, "a\nb", "1", some "r1"),
          (.deviceDriver, "c", "2", none)].map fun c => Component.new c.1 c.2.1 c.2.2.1 c.2.2.2)
        services := some ([("s", some "r2"), ("t", none)].map fun s => Service.new s.1 s.2)
        vulnerabilities := some ([some "r3", none].map Vulnerability.new)
        externalReferences := some ([(ExternalReferenceType.website, "https://example.org")].map
          fun r => ExternalReference.new r.1 r.2) } = .ok [] ↔ v = .v1_5 := by
  rw [C84_document]
  have h1 : ¬ ∃ l, "https://example.org" = "urn:cdx" ++ l := by
    rw [← startsWith_iff]; decide
  have h2 : laxEnv.uriOk "https://example.org" = true := rfl
  simp [ClassificationIn, NoBreaks, h2, -not_exists]
  exact fun _ l h => absurd ⟨l, h⟩ h1

end Cdx.Props
