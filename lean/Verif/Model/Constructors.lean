import Verif.Model.Generator
import Verif.Model.Checks

/-!
# Constructors of the library

The public functions with which a program builds elements of a document, apart from those that
the generator uses (`Model/Generator.lean`: `Component::new`, `ExternalReference::new`,
`License::named_license`, `OrganizationalContact::new`, `Property::new`, `Tool::new`,
`Bom::default`; `Model/Strings.lean`: `AttachedText::new`; `Model/Checks.lean`:
`VersionRange::new`, `UrnUuid::new`).
-/

namespace Cdx

set_option linter.unusedVariables false

/-- `DateTime::try_from(String)` (`external_models/date_time.rs` 61-73). The text of the error,
which holds the reason given by the `time` crate, is left out. -/
def dateTimeTryFrom (E : VEnv) (s : String) : Option DateTime :=
  if E.dateTimeOk s then some s else none

/-- `Uri::try_from(String)` (`external_models/uri.rs` 87-98). -/
def uriTryFrom (E : VEnv) (s : String) : Except String Uri :=
  if E.uriOk s then .ok s else .error "Uri does not conform to RFC 3986"

/-- `Uri::is_bomlink` (`external_models/uri.rs` 82-84). -/
def isBomlink (u : Uri) : Bool := startsWith u "urn:cdx"

/-- `SpdxIdentifier::try_from(String)` (`external_models/spdx.rs` 63-75). -/
def spdxIdentifierTryFrom (E : VEnv) (s : String) : Except String String :=
  if E.spdxIdOk s then .ok s else .error ("Not a valid identifier: " ++ s)

/-- `SpdxIdentifier::imprecise` (`external_models/spdx.rs` 52-60). `find` is
`spdx::imprecise_license_id` followed by taking the name of the license that it found. -/
def spdxIdentifierImprecise (find : String → Option String) (s : String) : Except String String :=
  match find s with
  | some name => .ok name
  | none => .error ("Not a valid identifier: " ++ s)

/-- `SpdxExpression::new` (`external_models/spdx.rs` 121-126). -/
def SpdxExpression.new (s : String) : SpdxExpression := { expression := s }

/-- `License::license_id` (`models/license.rs` 118-128). -/
def License.licenseId (s : String) : License := { licenseIdentifier := .spdxId s }

/-- `LicenseChoice::license` (`models/license.rs` 54-56). -/
def LicenseChoice.newLicense (s : String) : LicenseChoice := .license (License.named s)

/-- `LicenseChoice::expression` (`models/license.rs` 59-61). -/
def LicenseChoice.newExpression (s : String) : LicenseChoice := .expression (SpdxExpression.new s)

/-- `Metadata::new` (`models/metadata.rs` 61-69); `now` is the outcome of `DateTime::now`
(`external_models/date_time.rs` 52-58). -/
def Metadata.new (now : Option DateTime) : Option Metadata :=
  match now with
  | some timestamp => some { timestamp := some timestamp }
  | none => none

/-- `OrganizationalEntity::new` (`models/organization.rs` 82-89): the name is taken as it is
(`NormalizedString::new_unchecked`). -/
def OrganizationalEntity.new (name : String) : OrganizationalEntity := { name := some name }

/-- `Service::new` (`models/service.rs` 64-83): the name is taken as it is. -/
def Service.new (name : String) (bomRef : Option String) : Service :=
  { name := name, bomRef := bomRef }

/-- `Vulnerability::new` (`models/vulnerability.rs` 71-95). -/
def Vulnerability.new (bomRef : Option String) : Vulnerability := { bomRef := bomRef }

/-- `VulnerabilitySource::new` (`models/vulnerability_source.rs` 46-54). -/
def VulnerabilitySource.new (name : Option String) (url : Option Uri) : VulnerabilitySource :=
  match name with
  | none => { name := none, url := url }
  | some name => { name := some (normalizedString name), url := url }

/-- `VulnerabilityReference::new` (`models/vulnerability_reference.rs` 48-53). -/
def VulnerabilityReference.new (id : String) (source : VulnerabilitySource) :
    VulnerabilityReference :=
  { id := normalizedString id, vulnerabilitySource := source }

/-- `Score::from_f32` (`models/vulnerability_rating.rs` 107-109). -/
def scoreFromF32 (x : F32) : Option F32 := some x

/-- `VulnerabilityRating::new` (`models/vulnerability_rating.rs` 47-60). -/
def VulnerabilityRating.new (score : Option F32) (severity : Option Severity)
    (scoreMethod : Option ScoreMethod) : VulnerabilityRating :=
  { score := score, severity := severity, scoreMethod := scoreMethod }

/-- `VulnerabilityAnalysis::new` (`models/vulnerability_analysis.rs` 53-66). -/
def VulnerabilityAnalysis.new (state : Option ImpactAnalysisState)
    (justification : Option ImpactAnalysisJustification)
    (responses : Option (List ImpactAnalysisResponse)) : VulnerabilityAnalysis :=
  { state := state, justification := justification, responses := responses }

/-- `VulnerabilityTarget::new` (`models/vulnerability_target.rs` 43-48). -/
def VulnerabilityTarget.new (bomRef : String) : VulnerabilityTarget := { bomRef := bomRef }

/-- `Version::new` (`models/vulnerability_target.rs` 94-99). -/
def TargetVersion.new (version status : String) : TargetVersion :=
  { versionRange := versionRangeNew version, status := Status.new status }

/-- `Advisory::new` (`models/advisory.rs` 46-48). -/
def Advisory.new (url : Uri) : Advisory := { url := url }

/-- `Signer::new` (`models/signature.rs` 62-67). -/
def Signer.new (algorithm : Algorithm) (value : String) : Signer :=
  { algorithm := algorithm, value := value }

/-- `Signature::single` (`models/signature.rs` 80-82). -/
def Signature.newSingle (algorithm : Algorithm) (value : String) : Signature :=
  .single (Signer.new algorithm value)

/-- `Signature::chain` (`models/signature.rs` 85-92). -/
def Signature.newChain (l : List (Algorithm × String)) : Signature :=
  .chain (l.map fun p => Signer.new p.1 p.2)

/-- `Signature::signers` (`models/signature.rs` 95-102). -/
def Signature.newSigners (l : List (Algorithm × String)) : Signature :=
  .signers (l.map fun p => Signer.new p.1 p.2)

/-- `Occurrence::new` (`models/component.rs` 408-413). -/
def Occurrence.new (location : String) : Occurrence := { location := location }

/-- `Callstack::new` (`models/component.rs` 432-434). -/
def Callstack.new (frames : List Frame) : Callstack := { frames := frames }

/-- `ModelParametersApproach::new` (`models/modelcard.rs` 96-100). -/
def ModelParametersApproach.new (approachType : String) : ModelParametersApproach :=
  { approachType := some (ApproachType.new approachType) }

/-- `MLParameter::new` (`models/modelcard.rs` 210-214). -/
def MLParameter.new (format : String) : MLParameter := { format := some format }

end Cdx
