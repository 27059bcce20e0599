import Verif.Model.Types
import Verif.Model.Strings
import Verif.Model.Regex
import Verif.Model.Validation

/-!
# Checks of single values

The `validate_*` functions of `cyclonedx-bom/src/models` and `src/external_models`: one value
in, `Ok(())` or an error message out.
-/

namespace Cdx

set_option linter.unusedVariables false

/-- What the external crates decide about a string. -/
structure VEnv where
  /-- `fluent_uri::UriRef::parse` accepts (`external_models/uri.rs` 68). -/
  uriOk : String → Bool
  /-- `OffsetDateTime::parse(_, Iso8601::DEFAULT)` accepts (`external_models/date_time.rs` 45). -/
  dateTimeOk : String → Bool
  /-- `GenericPurl::<String>::from_str`: `none` if it accepts, else the text of its error
  (`external_models/uri.rs` 28-31). -/
  purlErr : String → Option String
  /-- `spdx::license_id` finds the identifier (`external_models/spdx.rs` 67). -/
  spdxIdOk : String → Bool
  /-- `spdx::Expression::parse_mode`, strict but with deprecated identifiers, accepts
  (`external_models/spdx.rs` 195-202). -/
  spdxExprOk : String → Bool

/-- Succeeds iff the condition holds. -/
def Check.require (ok : Bool) (msg : String) : Check := if ok then .ok () else .error msg

/-- The derived `PartialOrd` of `SpecVersion` (`models/bom.rs` 48): `a <= b`. -/
def SpecVersion.le (a b : SpecVersion) : Bool := a.ord ≤ b.ord

/-- `SpecVersion`'s `Display` (`models/bom.rs` 50, 53, 56). -/
def SpecVersion.display : SpecVersion → String
  | .v1_3 => "1.3"
  | .v1_4 => "1.4"
  | .v1_5 => "1.5"

/-- `validate_normalized_string` (`external_models/normalized_string.rs` 87-101). -/
def validateNormalizedString (s : NormalizedString) : Check :=
  .require (!s.toList.any isCrLfTab)
    "NormalizedString contains invalid characters \\r \\n \\t or \\r\\n"

/-- `validate_uri` (`external_models/uri.rs` 67-72), imported as `validate_url` in
`models/component.rs`, `models/service.rs` and `models/external_reference.rs`. -/
def validateUri (E : VEnv) (u : Uri) : Check :=
  .require (E.uriOk u) "Uri does not conform to RFC 3986"

/-- `validate_date_time` (`external_models/date_time.rs` 44-49). -/
def validateDateTime (E : VEnv) (d : DateTime) : Check :=
  .require (E.dateTimeOk d) "DateTime does not conform to ISO 8601"

/-- `validate_purl` (`external_models/uri.rs` 27-32). -/
def validatePurl (E : VEnv) (p : Purl) : Check :=
  match E.purlErr p with
  | none => .ok ()
  | some e => .error ("Purl does not conform to Package URL spec: " ++ e)

/-- `validate_spdx_identifier` (`external_models/spdx.rs` 83-88). -/
def validateSpdxIdentifier (E : VEnv) (s : String) : Check :=
  .require (E.spdxIdOk s) "SPDX identifier is not valid"

/-- `validate_spdx_expression` (`external_models/spdx.rs` 194-210). -/
def validateSpdxExpression (E : VEnv) (x : SpdxExpression) : Check :=
  .require (E.spdxExprOk x.expression) ("SPDX expression `" ++ x.expression ++ "` is not valid")

/-- `validate_bom_ref` (`models/bom.rs` 80-88). -/
def validateBomRef (v : SpecVersion) (_ : BomReference) : Check :=
  .require (!v.le .v1_4) "Attribute 'bom-ref' not supported in this format version"

/-- `validate_urn_uuid` (`models/bom.rs` 602-607). -/
def validateUrnUuid (s : String) : Check :=
  .require (patUrnUuid.isMatch s) "UrnUuid does not match regular expression"

/-- `UrnUuid::new` (`models/bom.rs` 575-582). -/
def urnUuidNew (s : String) : Except String String :=
  if patUrnUuid.isMatch s then .ok s else .error "UrnUuid does not match regular expression"

/-- `validate_classification` (`models/component.rs` 179-193). -/
def validateClassification (v : SpecVersion) (c : Classification) : Check :=
  if SpecVersion.le .v1_3 v && v.le .v1_4 then
    .require (!(Classification.rank .file < c.rank)) "Unknown classification"
  else if SpecVersion.le .v1_5 v && c.fallback?.isSome then .error "Unknown classification"
  else .ok ()

/-- `validate_scope` (`models/component.rs` 240-245). -/
def validateScope (s : Scope) : Check := .require s.fallback?.isNone "Unknown scope"

/-- `validate_mime_type` (`models/component.rs` 270-281). -/
def validateMimeType (m : String) : Check :=
  .require (patMime.isMatch m) "MimeType does not match regular expression"

/-- `validate_cpe` (`models/component.rs` 306-320). -/
def validateCpe (c : String) : Check :=
  .require (patCpe.isMatch c) "Cpe does not match regular expression"

/-- Whether a 32-bit float is NaN (IEEE 754 binary32). -/
def F32.isNaN (x : F32) : Bool := 0x7f800000 < (x.toNat % 2 ^ 31)

/-- Position of a number on the float line: sign and magnitude bits (IEEE 754 binary32);
strictly monotone in the value, with both zeros at 0. -/
def F32.key (x : F32) : Int :=
  if x.toNat < 2 ^ 31 then (x.toNat : Int) else -((x.toNat - 2 ^ 31 : Nat) : Int)

/-- `<` on `f32`. -/
def F32.lt (a b : F32) : Bool := !a.isNaN && !b.isNaN && a.key < b.key

/-- `0.0_f32`. -/
def F32.zero : F32 := 0

/-- `1.0_f32`. -/
def F32.one : F32 := 0x3f800000

/-- `validate_confidence` (`models/component.rs` 492-497). -/
def validateConfidence (c : F32) : Check :=
  .require (!(c.lt F32.zero && c.lt F32.one))
    "Confidence score outside range 0.0 - 1.0"

/-- `validate_identity_field` (`models/component.rs` 512-517). -/
def validateIdentityField (f : IdentityField) : Check :=
  match f.fallback? with
  | none => .ok ()
  | some unknown => .error ("Unknown identity found '" ++ unknown ++ "' given")

/-- `validate_copyright` (`models/component.rs` 606-608). -/
def validateCopyright (_ : String) : Check := .ok ()

/-- `validate_encoding` of attached texts (`models/attached_text.rs` 77-82). -/
def validateEncoding (e : Encoding) : Check := .require e.fallback?.isNone "Unknown encoding"

/-- `validate_encoding` of attachments (`models/attachment.rs` 41-46). -/
def validateAttachmentEncoding (e : String) : Check :=
  .require (e == "base64") "Unsupported encoding found."

/-- `validate_issue_classification` (`models/code.rs` 126-136). -/
def validateIssueClassification (c : IssueClassification) : Check :=
  .require c.fallback?.isNone "Unknown issue classification"

/-- `validate_patch_classification` (`models/code.rs` 194-204). -/
def validatePatchClassification (c : PatchClassification) : Check :=
  .require c.fallback?.isNone "Unknown patch classification"

/-- `validate_datatype` (`models/component_data.rs` 57-62). -/
def validateDatatype (d : ComponentDataType) : Check :=
  .require d.fallback?.isNone "Unknown component data type found"

/-- `validate_aggregate_type` (`models/composition.rs` 61-75). -/
def validateAggregateType (v : SpecVersion) (a : AggregateType) : Check :=
  if v.le .v1_4 then
    .require (!(AggregateType.rank .incompleteFirstPartyProprietaryOnly < a.rank))
      "Unknown aggregate type"
  else if v.le .v1_5 && a.fallback?.isSome then .error "Unknown aggregate type"
  else .ok ()

/-- `validate_external_reference_type` (`models/external_reference.rs` 87-97). -/
def validateExternalReferenceType (t : ExternalReferenceType) : Check :=
  .require t.fallback?.isNone "Unknown external reference type"

/-- `validate_bom_link` (`models/external_reference.rs` 231-245). -/
def validateBomLink (v : SpecVersion) (l : String) : Check :=
  if !SpecVersion.le .v1_5 v then .error "BOM-Link not supported before version 1.5"
  else .require (patBomLink.isMatch l) "Invalid BOM-Link"

/-- `Display` of the `Uri` of external references (`models/external_reference.rs` 218-226). -/
def RefUri.display : RefUri → String
  | .url u => u
  | .bomLink s => s

/-- `validate_reference_uri` (`models/external_reference.rs` 201-206). -/
def validateReferenceUri (E : VEnv) (v : SpecVersion) : RefUri → Check
  | .url u => validateUri E u
  | .bomLink l => validateBomLink v l

/-- `validate_hash_algorithm` (`models/hash.rs` 55-60). -/
def validateHashAlgorithm (a : HashAlgorithm) : Check :=
  .require a.fallback?.isNone "Unknown HashAlgorithm"

/-- `validate_hash_value` (`models/hash.rs` 109-123). -/
def validateHashValue (s : String) : Check :=
  .require (patHash.isMatch s) "HashValue does not match regular expression"

/-- `validate_license_type` (`models/license.rs` 255-261). -/
def validateLicenseType (t : LicenseType) : Check :=
  match t.fallback? with
  | none => .ok ()
  | some unknown => .error ("Unknown license type '" ++ unknown ++ "'")

/-- `validate_approach_type` (`models/modelcard.rs` 104-109). -/
def validateApproachType (t : ApproachType) : Check :=
  match t.fallback? with
  | none => .ok ()
  | some unknown => .error ("Unknown approach type '" ++ unknown ++ "'")

/-- `validate_mlparameter` (`models/modelcard.rs` 200-202). -/
def validateMlParameter (_ : MLParameter) : Check := .ok ()

/-- `validate_data_flow_type` (`models/service.rs` 176-181). -/
def validateDataFlowType (t : DataFlowType) : Check :=
  .require t.fallback?.isNone "Unknown data flow type"

/-- `validate_algorithm` (`models/signature.rs` 125-130). -/
def validateAlgorithm (a : Algorithm) : Check :=
  match a.fallback? with
  | none => .ok ()
  | some unknown => .error ("Unknown algorithm '" ++ unknown ++ "'")

/-- `validate_impact_analysis_state` (`models/vulnerability_analysis.rs` 95-100). -/
def validateImpactAnalysisState (s : ImpactAnalysisState) : Check :=
  .require s.fallback?.isNone "Undefined impact analysis state"

/-- `validate_impact_analysis_justification` (`models/vulnerability_analysis.rs` 133-143). -/
def validateImpactAnalysisJustification (j : ImpactAnalysisJustification) : Check :=
  .require j.fallback?.isNone "Undefined impact analysis justification"

/-- `validate_impact_analysis_response` (`models/vulnerability_analysis.rs` 182-189). -/
def validateImpactAnalysisResponse (r : ImpactAnalysisResponse) : Check :=
  .require r.fallback?.isNone "Undefined response"

/-- `validate_severity` (`models/vulnerability_rating.rs` 128-133). -/
def validateSeverity (s : Severity) : Check := .require s.fallback?.isNone "Undefined severity"

/-- `validate_score_method` (`models/vulnerability_rating.rs` 168-182). -/
def validateScoreMethod (v : SpecVersion) (m : ScoreMethod) : Check :=
  if v.le .v1_4 then
    .require (!(ScoreMethod.rank .owasp < m.rank)) ("Unknown score method '" ++ m.display ++ "'")
  else if v.le .v1_5 then
    match m.fallback? with
    | some unknown => .error ("Unknown score method '" ++ unknown ++ "'")
    | none => .ok ()
  else .ok ()

/-- `VersionRange::new` (`models/vulnerability_target.rs` 134-139) with the pattern of 142-147. -/
def versionRangeNew (s : String) : VersionRange :=
  if patVers.isMatch s then .range (normalizedString s) else .version (normalizedString s)

/-- `validate_version_range` (`models/vulnerability_target.rs` 111-116). -/
def validateVersionRange : VersionRange → Check
  | .undefinedVersionRange _ => .error "Undefined version range"
  | _ => .ok ()

/-- `validate_status` (`models/vulnerability_target.rs` 149-154). -/
def validateStatus (s : Status) : Check := .require s.fallback?.isNone "Undefined status"

/-- `TaskType::validate_version` before conversion (`models/formulation/workflow/mod.rs`
177-188). -/
def validateTaskType (t : TaskType) : Check := .require t.fallback?.isNone "unknown task type"

/-- `Type::validate_version` of outputs before conversion
(`models/formulation/workflow/output.rs` 78-89). -/
def validateOutputType (t : OutputType) : Check :=
  .require t.fallback?.isNone "unknown output type"

/-- `Type::validate_version` of triggers before conversion
(`models/formulation/workflow/trigger.rs` 89-100). -/
def validateTriggerType (t : TriggerType) : Check :=
  .require t.fallback?.isNone "unknown trigger type"

/-- `validate_access_mode` (`models/formulation/workflow/workspace.rs` 68-73). -/
def validateAccessMode (m : AccessMode) : Check :=
  .require m.fallback?.isNone "Unknown access mode"

/-- `validate_mode` (`models/formulation/workflow/workspace.rs` 116-121). -/
def validateVolumeMode (m : VolumeMode) : Check := .require m.fallback?.isNone "Unknown mode"

end Cdx
