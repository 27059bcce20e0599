import Verif.Lemmas.Formats
import Verif.Lemmas.BomPasses
import Verif.Spec.Formats
import Verif.Props.Config

/-!
# C30, C32–C34, C47, C54–C56: text formats, merging of configurations
-/

namespace Cdx.Props

open Cdx.Spec

/-! ## C30 -/

/-- C30: `NormalizedString::new` replaces CR LF by one space, every other CR, LF and TAB by a
space, and nothing else. -/
theorem C30_normalizes (s t : String) :
    normalizedString s = t ↔ Normalizes s.toList t.toList := by
  have h : Normalizes s.toList (normalizedString s).toList := by
    simpa [normalizedString] using replace_normalizes s.toList
  constructor
  · rintro rfl; exact h
  · intro h'
    have := Normalizes.unique h h'
    exact String.toList_inj.mp this

/-- C30: the result validates. -/
theorem C30_validates (s : String) : validateNormalizedString (normalizedString s) = .ok () :=
  (validateNormalizedString_iff _).mpr (Normalizes.clean ((C30_normalizes s _).mp rfl))

/-- C30: a string that validates is left unchanged. -/
theorem C30_unchanged (s : String) (h : validateNormalizedString s = .ok ()) :
    normalizedString s = s :=
  (C30_normalizes s s).mpr (Normalizes.refl ((validateNormalizedString_iff s).mp h))

/-- C30: normalizing twice is normalizing once. -/
theorem C30_idempotent (s : String) :
    normalizedString (normalizedString s) = normalizedString s :=
  C30_unchanged _ (C30_validates s)

/-- Validation rejects exactly the strings with a CR, LF or TAB. -/
theorem C30_rejects (s : String) : validateNormalizedString s = .ok () ↔
    '\r' ∉ s.toList ∧ '\n' ∉ s.toList ∧ '\t' ∉ s.toList := validateNormalizedString_iff s

/-- Non-vacuity: the documented example. -/
example : normalizedString "A\r\nstring\rwith\ninvalid\tcharacters" =
    "A string with invalid characters" := by decide
example : validateNormalizedString "a\nb" ≠ .ok () ∧ validateNormalizedString "a b" = .ok () := by
  decide

/-! ## C32 -/

/-- C32 refuted: a text that is no hash passes, because the anchors of the regular expression
belong to its first and last alternative only. -/
theorem C32_hash_refuted :
    validateHashValue "00000000000000000000000000000000 is not a hash" = .ok () ∧
    ¬ IsHash "00000000000000000000000000000000 is not a hash" ∧
    validateHashValue "neither is 0000000000000000000000000000000000000000" = .ok () ∧
    ¬ IsHash "neither is 0000000000000000000000000000000000000000" := by
  refine ⟨by decide +kernel, ?_, by decide +kernel, ?_⟩ <;>
    exact fun h => absurd h.2 (by decide)

/-- C32 (partial): the hash values that pass are exactly the texts that start with 32
hexadecimal digits or contain 40 in a row; so every well-formed hash passes. Missing: the
converse (`C32_hash_refuted`). -/
theorem C32_hash_partial (s : String) :
    (validateHashValue s = .ok () ↔ StartsOrContainsHex s) ∧
      (IsHash s → validateHashValue s = .ok ()) := by
  have h1 : validateHashValue s = .ok () ↔ StartsOrContainsHex s := by
    rw [validateHashValue, require_ok, patHash_iff]
  refine ⟨h1, fun ⟨hx, hl⟩ => h1.mpr ?_⟩
  have hlen : 32 ≤ s.toList.length := by
    simp only [List.mem_cons, List.not_mem_nil, or_false] at hl
    omega
  exact .inl ⟨s.toList.take 32, s.toList.drop 32,
    ⟨by simp only [List.length_take]; omega, fun c hc => hx c (List.mem_of_mem_take hc)⟩,
    by simp⟩

/-- Non-vacuity: a hash, and a text that is rejected. -/
example : IsHash "d41d8cd98f00b204e9800998ecf8427e" ∧ validateHashValue "d41d8cd98f00" ≠ .ok () := by
  refine ⟨⟨?_, by decide⟩, by decide +kernel⟩
  unfold Hex; decide

/-! ## C33 -/

/-- C33 refuted: the confidence 2.0 passes, and so does "not a number". -/
theorem C33_confidence_refuted :
    f32Value 0x40000000 = some (2 * f32One) ∧ validateConfidence 0x40000000 = .ok () ∧
    f32Value 0x7fc00000 = none ∧ validateConfidence 0x7fc00000 = .ok () := by
  refine ⟨by decide +kernel, by decide, by decide, by decide⟩

/-- C33 (partial): exactly the values that are not negative pass, so everything between 0 and 1
does. Missing: values above 1 and NaN pass too (`C33_confidence_refuted`). -/
theorem C33_confidence_partial (c : F32) :
    (validateConfidence c = .ok () ↔ ¬ Negative c) ∧
    (∀ x, f32Value c = some x → 0 ≤ x → x ≤ f32One → validateConfidence c = .ok ()) := by
  refine ⟨confidence_iff c, fun x hx h0 _ => (confidence_iff c).mpr ?_⟩
  rintro (⟨y, hy, hlt⟩ | rfl)
  · rw [hx] at hy
    cases hy
    omega
  · simp [f32Value] at hx

/-- Non-vacuity: 0.5 is a value between 0 and 1; -0.5 is rejected. -/
example : f32Value 0x3f000000 = some (2 ^ 148) ∧ validateConfidence 0xbf000000 ≠ .ok () := by
  refine ⟨by decide +kernel, by decide⟩

/-! ## C34 -/

/-- C34: `UrnUuid::new` succeeds exactly on `urn:uuid:` followed by a lower-case UUID, keeps the
text, and what it accepts is what validation accepts. -/
theorem C34_urn_uuid (s : String) :
    ((∃ u, urnUuidNew s = .ok u) ↔ IsUrnUuid s) ∧ (∀ u, urnUuidNew s = .ok u → u = s) ∧
    (validateUrnUuid s = .ok () ↔ IsUrnUuid s) := by
  rw [validateUrnUuid, require_ok, ← patUrnUuid_iff, urnUuidNew]
  cases patUrnUuid.isMatch s <;> simp [eq_comm]

/-- Non-vacuity: an accepted and a rejected serial number. -/
example : urnUuidNew "urn:uuid:3e671687-395b-41f5-a30f-a58921a69b79" =
      .ok "urn:uuid:3e671687-395b-41f5-a30f-a58921a69b79" ∧
    (∀ u, urnUuidNew "urn:uuid:3E671687-395B-41F5-A30F-A58921A69B79" ≠ .ok u) := by
  refine ⟨by decide +kernel, fun u => ?_⟩
  have : patUrnUuid.isMatch "urn:uuid:3E671687-395B-41F5-A30F-A58921A69B79" = false := by
    decide +kernel
  simp [urnUuidNew, this]

/-! ## C47 -/

/-- C47: a URL becomes a BOM-Link exactly if it starts with `urn:cdx`, and its text is kept
either way. -/
theorem C47_classified (u : Uri) :
    ((∃ l, RefUri.ofUrl u = .bomLink l) ↔ ∃ r, u.toList = "urn:cdx".toList ++ r) ∧
      (RefUri.ofUrl u).display = u := by
  have h : startsWith u "urn:cdx" = true ↔ ∃ r, u.toList = "urn:cdx".toList ++ r := by
    rw [startsWith, Option.isSome_iff_exists]
    simp only [stripPrefixChars_iff]
  rw [← h, RefUri.ofUrl]
  cases startsWith u "urn:cdx" <;> simp [RefUri.display]

/-- C47: a BOM-Link validates exactly in version 1.5 and if it is
`urn:cdx:<uuid>/<version>[#<ref>]`. -/
theorem C47_validates (E : VEnv) (v : SpecVersion) (l : String) :
    validateReferenceUri E v (.bomLink l) = .ok () ↔ v = .v1_5 ∧ IsBomLink l := by
  simp only [validateReferenceUri, validateBomLink]
  cases v
  · simp [SpecVersion.le, SpecVersion.ord]
  · simp [SpecVersion.le, SpecVersion.ord]
  · simp [SpecVersion.le, SpecVersion.ord, require_ok, patBomLink_iff]

/-- Any other URL validates exactly if it conforms to RFC 3986, in every version. -/
theorem C47_other_urls (E : VEnv) (v : SpecVersion) (u : Uri) :
    validateReferenceUri E v (.url u) = .ok () ↔ E.uriOk u = true := by
  simp only [validateReferenceUri, validateUri, require_ok]

/-- Non-vacuity: a BOM-Link with a reference. -/
example : RefUri.ofUrl "urn:cdx:f08a6ccd-4dce-4759-bd84-c626675d60a7/1#a" =
      .bomLink "urn:cdx:f08a6ccd-4dce-4759-bd84-c626675d60a7/1#a" ∧
    patBomLink.isMatch "urn:cdx:f08a6ccd-4dce-4759-bd84-c626675d60a7/1#a" = true ∧
    RefUri.ofUrl "https://example.org" = .url "https://example.org" := by
  refine ⟨by decide, by decide +kernel, by decide⟩

/-! ## C54 -/

/-- C54: merging two configurations takes each setting from the second one if it has it and from
the first one otherwise; of the licence options, the mode is the one of the second configuration
and the accepted names of both are put together. -/
theorem C54_merge (a b : SbomConfig) :
    (a.merge b).format = b.format.or a.format ∧
    (a.merge b).includedDependencies = b.includedDependencies.or a.includedDependencies ∧
    (a.merge b).outputOptions = b.outputOptions.or a.outputOptions ∧
    (a.merge b).features = b.features.or a.features ∧
    (a.merge b).target = b.target.or a.target ∧
    (a.merge b).describe = b.describe.or a.describe ∧
    (a.merge b).specVersion = b.specVersion.or a.specVersion ∧
    (a.merge b).onlyNormalDeps = b.onlyNormalDeps.or a.onlyNormalDeps ∧
    ((a.merge b).licenseParser = none ↔ a.licenseParser = none ∧ b.licenseParser = none) ∧
    (∀ l, b.licenseParser = some l → ∃ m, (a.merge b).licenseParser = some m ∧ m.mode = l.mode ∧
      ∀ n, n ∈ m.acceptNamed ↔ n ∈ l.acceptNamed ∨
        ∃ k, a.licenseParser = some k ∧ n ∈ k.acceptNamed) ∧
    (b.licenseParser = none → (a.merge b).licenseParser = a.licenseParser) := by
  refine ⟨rfl, rfl, rfl, rfl, rfl, rfl, rfl, rfl, ?_, ?_, ?_⟩
  · cases ha : a.licenseParser <;> cases hb : b.licenseParser <;> simp [SbomConfig.merge, ha, hb]
  · intro l hl
    refine ⟨(a.licenseParser.getD {}).merge l, by simp [SbomConfig.merge, hl], rfl, fun n => ?_⟩
    simp only [LicenseParserOptions.merge, List.mem_append]
    cases ha : a.licenseParser <;> simp [or_comm]
  · intro hl; simp [SbomConfig.merge, hl]

/-- Non-vacuity: both configurations have licence options. -/
example : (SbomConfig.merge { licenseParser := some ⟨.strict, ["A"]⟩, format := some .xml }
      { licenseParser := some ⟨.lax, ["B"]⟩ }) =
    { licenseParser := some ⟨.lax, ["A", "B"]⟩, format := some .xml } := by decide

/-! ## C55 -/

/-- C55: a media type passes exactly if it is of the form of the schema,
`[-+a-z0-9.]+/[-+a-z0-9.]+`. -/
theorem C55_mime (s : String) : validateMimeType s = .ok () ↔ IsMime s := by
  rw [validateMimeType, require_ok, patMime_iff]

/-- C55 refuted for CPE names: any text with `cpe:/` somewhere in it passes. -/
theorem C55_cpe_refuted (pre post : String) :
    validateCpe (pre ++ "cpe:/" ++ post) = .ok () := by
  rw [validateCpe, require_ok, patCpe_iff]
  refine .inl ⟨pre.toList, "cpe:/".toList, post.toList, ⟨'p', 'e', by decide, by decide, rfl⟩, ?_⟩
  simp

/-- C55 for CPE names (partial): the texts that pass are exactly those in which the start of a
CPE 2.2 URI or a complete CPE 2.3 name occurs somewhere; so every CPE 2.3 name passes. Missing:
texts around the name, and what follows `cpe:/`, are not checked (`C55_cpe_refuted`). -/
theorem C55_cpe_partial (s : String) :
    (validateCpe s = .ok () ↔ Contains s.toList Cpe22Start ∨ Contains s.toList IsCpe23) ∧
      (IsCpe23 s.toList → validateCpe s = .ok ()) := by
  have h : validateCpe s = .ok () ↔
      Contains s.toList Cpe22Start ∨ Contains s.toList IsCpe23 := by
    rw [validateCpe, require_ok, patCpe_iff]
  exact ⟨h, fun hs => h.mpr (.inr ⟨[], s.toList, [], hs, by simp⟩)⟩

/-- Non-vacuity: a CPE 2.3 name passes, one with too few attributes does not. -/
example : validateCpe "cpe:2.3:a:acme:application:9.1.1:*:*:*:*:*:*:*" = .ok () ∧
    validateCpe "cpe:2.3:a:acme:application:9.1.1:*:*:*:*" ≠ .ok () ∧
    validateMimeType "application/json" = .ok () ∧ validateMimeType "text" ≠ .ok () := by
  refine ⟨by decide +kernel, by decide +kernel, by decide +kernel, by decide +kernel⟩

/-! ## C56 -/

variable {env : Env} {md : CargoMetadata} {config : SbomConfig} {sboms : List GeneratedSbom}
  {nodes : List Node} {s : GeneratedSbom}

/-- C56: a generated serial number is `urn:uuid:` and a UUID, hence valid. -/
theorem C56_serial_valid (hmd : Spec.MetadataOk md nodes)
    (h : createSboms env md config = .ok sboms) (i : Nat) (hs : sboms[i]? = some s)
    (u : String) (hu : s.bom.serialNumber = some u) :
    IsUrnUuid u ∧ validateUrnUuid u = .ok () := by
  have h1 := C10_serial_and_time hmd h i hs
  have h2 : u = urnUuidGenerate (env.uuid i) := by
    cases he : env.sourceDateEpoch with
    | none => rw [(h1.2 he).1] at hu; exact (Option.some.inj hu).symm
    | some e => rw [(h1.1 e he).1] at hu; exact nomatch hu
  have h3 : IsUrnUuid u := by
    subst h2
    exact ⟨uuidDisplay (env.uuid i), uuidDisplay_isUuid _, String.toList_ofList⟩
  exact ⟨h3, (C34_urn_uuid u).2.2.mpr h3⟩

/-- C56: different UUIDs give different serial numbers. -/
theorem C56_serial_distinct (a b : Vector UInt8 16) (h : urnUuidGenerate a = urnUuidGenerate b) :
    a = b := urnUuidGenerate_injective a b h

/-- C56: `SOURCE_DATE_EPOCH` is read as a signed decimal number of 64 bits; its instant is the
timestamp, and if it is anything else there is no SBOM. -/
theorem C56_source_date_epoch (hmd : Spec.MetadataOk md nodes)
    (h : createSboms env md config = .ok sboms) (i : Nat) (hs : sboms[i]? = some s) (e : String)
    (he : env.sourceDateEpoch = some e) :
    ∃ t, SignedDecimal e.toList t ∧ -(2 ^ 63) ≤ t ∧ t < 2 ^ 63 ∧
      ∃ m, s.bom.metadata = some m ∧ m.timestamp = env.formatUnix t := by
  obtain ⟨_, t, ht, hm, _⟩ := (C10_serial_and_time hmd h i hs).1 e he
  obtain ⟨h1, h2, h3⟩ := (parseI64_iff e t).mp ht
  exact ⟨t, h1, h2, h3, hm⟩

/-- Non-vacuity: numbers that are read and numbers that are not. -/
example : parseI64 "-0012" = some (-12) ∧ parseI64 "+1700000000" = some 1700000000 ∧
    parseI64 "12a" = none ∧ parseI64 "-" = none ∧ parseI64 "9223372036854775808" = none ∧
    parseI64 "-9223372036854775808" = some (-9223372036854775808) := by decide +kernel

end Cdx.Props
