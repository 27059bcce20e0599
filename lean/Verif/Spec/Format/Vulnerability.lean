import Verif.Spec.Xml
import Verif.Model.Format.Vulnerability
import Verif.Spec.Format.Metadata

set_option linter.unusedVariables false

/-!
# What the file formats keep: vulnerabilities
-/

namespace Cdx

variable [F32Format]

variable [ReadLimit]

/-- What version `v` of the format has of a `Vulnerability`. -/
def Vulnerability.at (v : SpecVersion) (x : Vulnerability) : Vulnerability :=
  { x with workaround := since15 v x.workaround none,
           proofOfConcept := since15 v x.proofOfConcept none,
           rejected := since15 v x.rejected none,
           tools := x.tools.map (Tools.at v),
           vulnerabilityAnalysis := x.vulnerabilityAnalysis.map (VulnerabilityAnalysis.at v) }

/-- `Vulnerability`s that JSON keeps: enumeration values are read back from their names, numbers are in
range. -/
structure Vulnerability.JsonOk (v : SpecVersion) (x : Vulnerability) : Prop where
  vulnerabilityRatings : ∀ y, x.vulnerabilityRatings = some y → ∀ z ∈ y, VulnerabilityRating.JsonOk z
  cwes : ∀ y, x.cwes = some y → ∀ z ∈ y, z < 2 ^ 32
  tools : ∀ y, x.tools = some y → Tools.JsonOk v y
  vulnerabilityAnalysis : ∀ y, x.vulnerabilityAnalysis = some y → VulnerabilityAnalysis.JsonOk y
  vulnerabilityTargets : ∀ y, x.vulnerabilityTargets = some y → ∀ z ∈ y, VulnerabilityTarget.JsonOk z

/-- `Vulnerability`s that XML keeps: texts do not begin or end with white space, enumeration values are
read back from their names, numbers are in range, lists of repeated elements are not empty. -/
structure Vulnerability.XmlOk (v : SpecVersion) (x : Vulnerability) : Prop where
  proofOfConcept : v = .v1_5 → x.proofOfConcept = none
  id : ∀ y, x.id = some y → Trimmed y
  vulnerabilitySource : ∀ y, x.vulnerabilitySource = some y → VulnerabilitySource.XmlOk y
  vulnerabilityReferences : ∀ y, x.vulnerabilityReferences = some y → ∀ z ∈ y, VulnerabilityReference.XmlOk z
  vulnerabilityRatings : ∀ y, x.vulnerabilityRatings = some y → ∀ z ∈ y, VulnerabilityRating.XmlOk z
  cwes : ∀ y, x.cwes = some y → ∀ z ∈ y, z < 2 ^ 32
  description : ∀ y, x.description = some y → Trimmed y
  detail : ∀ y, x.detail = some y → Trimmed y ∧ y ≠ ""
  recommendation : ∀ y, x.recommendation = some y → Trimmed y
  advisories : ∀ y, x.advisories = some y → ∀ z ∈ y, Advisory.XmlOk z
  created : ∀ y, x.created = some y → Trimmed y
  published : ∀ y, x.published = some y → Trimmed y
  updated : ∀ y, x.updated = some y → Trimmed y
  rejected : v = .v1_5 → ∀ y, x.rejected = some y → Trimmed y
  vulnerabilityCredits : ∀ y, x.vulnerabilityCredits = some y → VulnerabilityCredits.XmlOk y
  tools : ∀ y, x.tools = some y → Tools.XmlOk v y
  vulnerabilityAnalysis : ∀ y, x.vulnerabilityAnalysis = some y → VulnerabilityAnalysis.XmlOk v y
  vulnerabilityTargets : ∀ y, x.vulnerabilityTargets = some y → ∀ z ∈ y, VulnerabilityTarget.XmlOk z
  properties : ∀ y, x.properties = some y → ∀ z ∈ y, Property.XmlOk z
  workaround : v = .v1_5 → ∀ y, x.workaround = some y → Trimmed y

end Cdx
