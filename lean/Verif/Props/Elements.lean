import Verif.Props.Validation

/-!
# Properties of validation, continued (C36, C37, C38, C45)
-/

namespace Cdx.Props

open Spec

/-- An environment in which the external crates accept everything that is not empty. -/
def laxEnv : VEnv where
  uriOk := fun s => s != ""
  dateTimeOk := fun s => s != ""
  purlErr := fun s => if s = "" then some "empty" else none
  spdxIdOk := fun s => s != ""
  spdxExprOk := fun s => s != ""

/-! ## C36: enumerations grow with the version -/

/-- A component type is accepted iff it is one of the eight of 1.3 and 1.4, or the version is 1.5
and it is one of the four added there; unknown types never are. -/
theorem C36_classification (E : VEnv) (v : SpecVersion) (c : Classification) :
    (Elem.classification c).Passes E v ↔
      c ∈ [.application, .framework, .library, .container, .operatingSystem, .device, .firmware,
        .file] ∨
      v = .v1_5 ∧ c ∈ [.platform, .deviceDriver, .machineLearningModel, .data] := by
  rw [passes_classification, classification_iff]
  exact Iff.rfl

/-- A component with a type of 1.5 is rejected in 1.3 and 1.4. -/
theorem C36_component_rejected (E : VEnv) (v : SpecVersion) (c : Component)
    (h : c.componentType ∈ [.platform, .deviceDriver, .machineLearningModel, .data])
    (hv : v ≠ .v1_5) : ∃ r, Component.validate E v c = .ok r ∧ r.hasErrors = true := by
  obtain ⟨r, hr⟩ := (Elem.good E v (.component c)).1
  refine ⟨r, hr, ?_⟩
  cases hn : r with
  | cons p r => rfl
  | nil =>
    have hp : (Elem.component c).Passes E v := hr.trans (by rw [hn])
    have hi : Elem.classification c.componentType ∈ (Elem.component c).checked := by
      rw [checked_component]
      simp
    have := ((Elem.passes_iff E v _).mp hp).2 _ hi
    rw [C36_classification] at this
    rcases this with h1 | h1
    · simp only [List.mem_cons, List.not_mem_nil, or_false] at h h1
      rcases h with h | h | h | h <;> rw [h] at h1 <;> simp at h1
    · exact absurd h1.1 hv

/-- The score methods: four up to 1.4, two more in 1.5. -/
theorem C36_scoreMethod (E : VEnv) (v : SpecVersion) (m : ScoreMethod) :
    (Elem.scoreMethod m).Passes E v ↔
      m ∈ [.cvssv2, .cvssv3, .cvssv31, .owasp] ∨ v = .v1_5 ∧ m ∈ [.cvssv4, .ssvc] := by
  rw [passes_scoreMethod, scoreMethod_iff]
  exact Iff.rfl

/-- The aggregate types of the 1.3 and 1.4 schemas. -/
def aggregates14 : List AggregateType :=
  [.complete, .incomplete, .incompleteFirstPartyOnly, .incompleteThirdPartyOnly, .unknown,
    .notSpecified]

/-- The aggregate types added by the 1.5 schema. -/
def aggregates15 : List AggregateType :=
  [.incompleteFirstPartyProprietaryOnly, .incompleteFirstPartyOpensourceOnly,
    .incompleteThirdPartyProprietaryOnly, .incompleteThirdPartyOpensourceOnly]

/-- The full statement about aggregate types fails: one of the types of 1.5 is accepted in 1.3
and 1.4 too. -/
theorem C36_aggregate_refuted :
    ¬ ∀ (E : VEnv) (v : SpecVersion) (a : AggregateType),
      (Elem.aggregateType a).Passes E v ↔ a ∈ aggregates14 ∨ v = .v1_5 ∧ a ∈ aggregates15 := by
  intro h
  have h1 := (h laxEnv .v1_3 .incompleteFirstPartyProprietaryOnly).mp rfl
  revert h1
  simp [aggregates14, aggregates15]

/-- What holds of aggregate types: the statement for all types but that one, which is accepted
in every version. Missing: its rejection before 1.5. -/
theorem C36_aggregate_partial (E : VEnv) (v : SpecVersion) (a : AggregateType) :
    (Elem.aggregateType a).Passes E v ↔
      a ∈ aggregates14 ∨ a = .incompleteFirstPartyProprietaryOnly ∨ v = .v1_5 ∧ a ∈ aggregates15 := by
  rw [passes_aggregateType, aggregateType_iff]
  unfold AggregateIn aggregates14 aggregates15
  constructor
  · rintro (h | h | ⟨h1, h2⟩)
    · exact .inl h
    · exact .inr (.inl h)
    · exact .inr (.inr ⟨h1, by simp only [List.mem_cons] at h2 ⊢; exact .inr h2⟩)
  · rintro (h | h | ⟨h1, h2⟩)
    · exact .inl h
    · exact .inr (.inl h)
    · simp only [List.mem_cons] at h2
      rcases h2 with h2 | h2
      · exact .inr (.inl h2)
      · exact .inr (.inr ⟨h1, by simp only [List.mem_cons]; exact h2⟩)

example : (Elem.classification .data).Passes laxEnv .v1_5 ∧
    ¬ (Elem.classification .data).Passes laxEnv .v1_4 ∧
    ¬ (Elem.classification (.unknownClassification "data?")).Passes laxEnv .v1_5 ∧
    ¬ (Elem.scoreMethod .ssvc).Passes laxEnv .v1_4 ∧
    ¬ (Elem.aggregateType .incompleteThirdPartyOpensourceOnly).Passes laxEnv .v1_4 := by
  simp only [C36_classification, C36_scoreMethod, C36_aggregate_partial, aggregates14, aggregates15]
  simp

/-! ## C37: the licenses rule of 1.5 -/

theorem licenses_shape (l : Licenses) :
    ((∀ c ∈ l, ∃ x, c = .license x) ∨ l.length ≤ 1) ↔
      (∀ c ∈ l, ∃ x, c = .license x) ∨ ∃ e, l = [.expression e] := by
  constructor
  · rintro (h | h)
    · exact .inl h
    · cases l with
      | nil => exact .inl (fun c hc => absurd hc List.not_mem_nil)
      | cons c l =>
        obtain rfl : l = [] := List.eq_nil_of_length_eq_zero (by
          rw [List.length_cons] at h; omega)
        cases c with
        | license x => exact .inl (fun c hc => ⟨x, List.mem_singleton.mp hc⟩)
        | expression e => exact .inr ⟨e, rfl⟩
  · rintro (h | ⟨e, rfl⟩)
    · exact .inl h
    · exact .inr (Nat.le_refl 1)

/-- In 1.5 a list of licenses passes iff its entries do and it consists of licenses only or is a
single expression. -/
theorem C37_licenses_1_5 (E : VEnv) (l : Licenses) :
    Licenses.validate E .v1_5 l = .ok [] ↔
      (∀ c ∈ l, LicenseChoice.validate E .v1_5 c = .ok []) ∧
      ((∀ c ∈ l, ∃ x, c = .license x) ∨ ∃ e, l = [.expression e]) := by
  have h := Elem.passes_iff E .v1_5 (.licenses l)
  rw [show (Elem.licenses l).Passes E .v1_5 ↔ Licenses.validate E .v1_5 l = .ok [] from Iff.rfl] at h
  rw [h, show (Elem.licenses l).checked = l.map Elem.licenseChoice from rfl, rule_licenses,
    List.forall_mem_map, and_comm]
  simp only [passes_licenseChoice]
  refine and_congr Iff.rfl ⟨fun h => ?_, fun h _ => ?_⟩
  · exact (licenses_shape l).mp (h trivial)
  · exact (licenses_shape l).mpr h

/-- In earlier versions it passes iff its entries do: mixtures are accepted. -/
theorem C37_licenses_before_1_5 (E : VEnv) (v : SpecVersion) (hv : v ≠ .v1_5) (l : Licenses) :
    Licenses.validate E v l = .ok [] ↔ ∀ c ∈ l, LicenseChoice.validate E v c = .ok [] := by
  have h := Elem.passes_iff E v (.licenses l)
  rw [show (Elem.licenses l).Passes E v ↔ Licenses.validate E v l = .ok [] from Iff.rfl] at h
  rw [h, show (Elem.licenses l).checked = l.map Elem.licenseChoice from rfl, rule_licenses,
    List.forall_mem_map]
  simp only [hv, false_implies, true_and, passes_licenseChoice]

/-- Non-vacuity: a mixture whose entries pass. -/
example :
    let mix : Licenses := [.license { licenseIdentifier := .spdxId "MIT" }, .expression { expression := "MIT" }]
    Licenses.validate laxEnv .v1_4 mix = .ok [] ∧ Licenses.validate laxEnv .v1_5 mix ≠ .ok [] := by
  refine ⟨rfl, ?_⟩
  rw [Ne, C37_licenses_1_5]
  simp

/-! ## C38: validation reaches every nested element -/

/-- The full statement: an invalid element anywhere in the BOM makes the BOM invalid. It fails:
the algorithm of the BOM's signature is not looked at (see below for all such places). -/
theorem C38_reaches_everything_refuted :
    ¬ ∀ (E : VEnv) (v : SpecVersion) (b : Bom) (e : Elem),
      Inside Elem.parts (.bom b) e → ¬ e.Passes E v → b.validateVersion E v ≠ .ok [] := by
  intro h
  let s : Signature := .single { algorithm := .unknown "x", value := "" }
  let b : Bom := { version := 1, specVersion := .v1_5, signature := some s }
  refine h laxEnv .v1_5 b (.signature s) (.step ?_ (.refl _)) ?_ rfl
  · show Elem.signature s ∈ Elem.parts (.bom b)
    unfold Elem.parts
    exact List.mem_append_right _ (List.mem_cons_self ..)
  · intro hp
    exact absurd (congrArg (fun r => match r with | .ok [] => true | _ => false) hp) (by decide)

/-- What holds: an invalid element makes the BOM invalid if it is reached through the parts that
validation looks at (`Elem.checked`). Missing: the parts in `Elem.unchecked`. -/
theorem C38_reaches_checked_partial (E : VEnv) (v : SpecVersion) (b : Bom) (e : Elem)
    (hi : Inside Elem.checked (.bom b) e) (he : ¬ e.Passes E v) :
    ∃ r, b.validateVersion E v = .ok r ∧ r.hasErrors = true := by
  obtain ⟨r, hr⟩ := C25_bom_validation_never_panics E v b
  refine ⟨r, hr, ?_⟩
  cases hn : r with
  | cons p r => rfl
  | nil => exact absurd (Elem.passes_inside (a := .bom b) (hr.trans (by rw [hn])) hi) he

/-- Exactly: a BOM passes iff every element reached in this way satisfies the rule for its kind. -/
theorem C38_passes_iff_rules_partial (E : VEnv) (v : SpecVersion) (b : Bom) :
    b.validateVersion E v = .ok [] ↔ ∀ e, Inside Elem.checked (.bom b) e → e.rule E v :=
  Elem.passes_iff_rules E v (.bom b)

/-- The same for every kind of element on its own. -/
theorem C38_element_passes_iff_rules_partial (E : VEnv) (v : SpecVersion) (e : Elem) :
    e.outcome E v = .ok [] ↔ ∀ p, Inside Elem.checked e p → p.rule E v :=
  Elem.passes_iff_rules E v e

/-- A component with a bad hash. -/
def badHash : Component where
  componentType := .file
  name := "y"
  version := some "1"
  hashes := some [{ alg := .sha256, content := "zz" }]

/-- A component with `badHash` in its pedigree. -/
def descendant : Component where
  componentType := .file
  name := "x"
  version := some "1"
  pedigree := some { ancestors := some [badHash] }

/-- A component with `descendant` nested in it. -/
def outer : Component where
  componentType := .library
  name := "root"
  version := some "1"
  components := some [descendant]

/-- Metadata with that component. -/
def outerMetadata : Metadata where
  component := some outer

/-- A BOM with that metadata. -/
def deepHash : Bom where
  version := 1
  specVersion := .v1_4
  metadata := some outerMetadata

/-- Non-vacuity: a hash in the pedigree of a component nested in the metadata component. -/
example : Inside Elem.checked (.bom deepHash) (.hashValue "zz") ∧
    ¬ (Elem.hashValue "zz").Passes laxEnv .v1_4 := by
  constructor
  · refine .step (b := .metadata outerMetadata) (by rw [checked_bom]; simp [opt, deepHash]) ?_
    refine .step (b := .component outer) (by rw [checked_metadata]; simp [opt, outerMetadata]) ?_
    refine .step (b := .component descendant) (by rw [checked_component]; simp [many, outer]) ?_
    refine .step (b := .pedigree { ancestors := some [badHash] })
      (by rw [checked_component]; simp [opt, descendant]) ?_
    refine .step (b := .component badHash) (by rw [checked_pedigree]; simp [many]) ?_
    refine .step (b := .hash { alg := .sha256, content := "zz" })
      (by rw [checked_component]; simp [many, badHash]) ?_
    exact .step (b := .hashValue "zz") (by rw [checked_hash]; simp) (.refl _)
  · rw [passes_hashValue, show validateHashValue "zz" = .error _ from rfl]
    simp

/-! ### Parts that are not looked at -/

theorem C38_ignores_bom_parts (E : VEnv) (v : SpecVersion) (b : Bom) (s : Option Signature)
    (a : Option (List Annotation)) (f : Option (List Formula)) :
    ({ b with signature := s, annotations := a, formulation := f }).validateVersion E v =
      b.validateVersion E v := rfl

theorem C38_ignores_component_parts (E : VEnv) (v : SpecVersion) (c : Component)
    (s : Option Signature) (m : Option ModelCard) (d : Option ComponentData) :
    Component.validate E v { c with signature := s, modelCard := m, data := d } =
      Component.validate E v c := by
  rw [Component.validate_eq, Component.validate_eq]

theorem C38_ignores_service_signature (E : VEnv) (v : SpecVersion) (x : Service)
    (s : Option Signature) : Service.validate E v { x with signature := s } = Service.validate E v x := by
  rw [Service.validate_eq, Service.validate_eq]

theorem C38_ignores_lifecycles (E : VEnv) (v : SpecVersion) (m : Metadata)
    (l : Option (List Lifecycle)) :
    Metadata.validate E v { m with lifecycles := l } = Metadata.validate E v m := rfl

theorem C38_ignores_identity_methods (E : VEnv) (v : SpecVersion) (i : Identity)
    (m : Option (List Method)) :
    Identity.validate E v { i with methods := m } = Identity.validate E v i := rfl

theorem C38_ignores_last_updated (E : VEnv) (v : SpecVersion) (x : VulnerabilityAnalysis)
    (d : Option DateTime) :
    VulnerabilityAnalysis.validate E v { x with lastUpdated := d } =
      VulnerabilityAnalysis.validate E v x := rfl

theorem C38_ignores_vulnerability_parts (E : VEnv) (v : SpecVersion) (x : Vulnerability)
    (r : Option DateTime) (p : Option VulnerabilityProofOfConcept) :
    Vulnerability.validate E v { x with rejected := r, proofOfConcept := p } =
      Vulnerability.validate E v x := rfl

/-! ## C45: attached texts -/

/-- The text made from any bytes is marked as base64, is the base64 form of the bytes, decodes to
them, and validates in every version if the content type does. -/
theorem C45_attached_text (E : VEnv) (v : SpecVersion) (contentType : Option NormalizedString)
    (bytes : List UInt8) :
    let t := attachedText contentType bytes
    t.encoding = some .base64 ∧ t.contentType = contentType ∧
    IsBase64 bytes t.content.toList ∧
    b64Decode t.content.toList = some bytes ∧
    (AttachedText.validate E v t = .ok [] ↔ ∀ c, contentType = some c → NoBreaks c) := by
  intro t
  have hd : b64Decode t.content.toList = some bytes := by
    show b64Decode (String.ofList (b64Encode bytes)).toList = _
    rw [String.toList_ofList]
    exact b64_roundtrip bytes
  have hb := (b64Decode_iff _ _).mp hd
  refine ⟨rfl, rfl, hb, hd, ?_⟩
  have h := Elem.passes_iff E v (.attachedText t)
  rw [passes_attachedText, rule_attachedText, checked_attachedText, forall_opt] at h
  rw [h]
  constructor
  · rintro ⟨-, h2⟩ c hc
    have := h2 c hc
    rw [passes_normalizedString, validateNormalizedString_iff] at this
    exact this
  · intro hc
    refine ⟨fun e he => ?_, fun c hct => ?_⟩
    · exact ⟨(Option.some.inj he).symm, bytes, hb⟩
    · rw [passes_normalizedString, validateNormalizedString_iff]
      exact hc c hct

/-- A text with undecodable content or an unknown encoding is rejected, one without encoding is
not looked into. -/
theorem C45_validates_iff (E : VEnv) (v : SpecVersion) (t : AttachedText) :
    AttachedText.validate E v t = .ok [] ↔
      (∀ c, t.contentType = some c → NoBreaks c) ∧
      ∀ e, t.encoding = some e → e = .base64 ∧ ∃ bytes, IsBase64 bytes t.content.toList := by
  have h := Elem.passes_iff E v (.attachedText t)
  rw [passes_attachedText, rule_attachedText, checked_attachedText, forall_opt] at h
  rw [h, and_comm]
  refine and_congr ?_ Iff.rfl
  simp only [passes_normalizedString, validateNormalizedString_iff]

example : (attachedText (some "text/plain") [77, 97, 110, 33]).content = "TWFuIQ==" := by decide

example : ¬ ∃ bytes, IsBase64 bytes "A===".toList := by
  rintro ⟨bytes, h⟩
  exact absurd ((b64Decode_iff _ _).mpr h) (by
    rw [show b64Decode "A===".toList = none by decide]
    simp)

end Cdx.Props
