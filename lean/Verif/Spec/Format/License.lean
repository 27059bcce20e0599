import Verif.Spec.Xml
import Verif.Model.Format.License
import Verif.Spec.Format.Basic

set_option linter.unusedVariables false

/-!
# What the file formats keep: licenses
-/

namespace Cdx

/-- `LicenseContact`s that XML keeps. -/
def LicenseContact.XmlOk : LicenseContact → Prop
  | .organization y => OrganizationalEntity.XmlOk y
  | .contact y => OrganizationalContact.XmlOk y

/-- `Licensing`s that JSON keeps: enumeration values are read back from their names, numbers are in
range. -/
structure Licensing.JsonOk (x : Licensing) : Prop where
  licenseTypes : ∀ y, x.licenseTypes = some y → ∀ z ∈ y, Stable LicenseType.display LicenseType.new z

/-- `Licensing`s that XML keeps: texts do not begin or end with white space, enumeration values are
read back from their names, numbers are in range, lists of repeated elements are not empty. -/
structure Licensing.XmlOk (x : Licensing) : Prop where
  altIds : ∀ y, x.altIds = some y → ∀ z ∈ y, Trimmed z
  licensor : ∀ y, x.licensor = some y → LicenseContact.XmlOk y
  licensee : ∀ y, x.licensee = some y → LicenseContact.XmlOk y
  purchaser : ∀ y, x.purchaser = some y → LicenseContact.XmlOk y
  purchaseOrder : ∀ y, x.purchaseOrder = some y → Trimmed y
  licenseTypes : ∀ y, x.licenseTypes = some y → ∀ z ∈ y, Stable LicenseType.display LicenseType.new z ∧ Trimmed (LicenseType.display z)
  lastRenewal : ∀ y, x.lastRenewal = some y → Trimmed y
  expiration : ∀ y, x.expiration = some y → Trimmed y

/-- `LicenseIdentifier`s that XML keeps. -/
def LicenseIdentifier.XmlOk : LicenseIdentifier → Prop
  | .spdxId x => Trimmed x ∧ x ≠ ""
  | .name x => Trimmed x ∧ x ≠ ""

/-- What version `v` of the format has of a `License`. -/
def License.at (v : SpecVersion) (x : License) : License :=
  { x with bomRef := since15 v x.bomRef none,
           licensing := since15 v x.licensing none,
           properties := since15 v x.properties none }

/-- `License`s that JSON keeps: enumeration values are read back from their names, numbers are in
range. -/
structure License.JsonOk (v : SpecVersion) (x : License) : Prop where
  text : ∀ y, x.text = some y → AttachedText.JsonOk y
  licensing : v = .v1_5 → ∀ y, x.licensing = some y → Licensing.JsonOk y

/-- `License`s that XML keeps: texts do not begin or end with white space, enumeration values are
read back from their names, numbers are in range, lists of repeated elements are not empty. -/
structure License.XmlOk (v : SpecVersion) (x : License) : Prop where
  licensing : v = .v1_5 → x.licensing = none
  licenseIdentifier : LicenseIdentifier.XmlOk x.licenseIdentifier
  text : ∀ y, x.text = some y → AttachedText.XmlOk y
  url : ∀ y, x.url = some y → Trimmed y
  properties : v = .v1_5 → ∀ y, x.properties = some y → ∀ z ∈ y, Property.XmlOk z

/-- `SpdxExpression`s that XML keeps. -/
structure SpdxExpression.XmlOk (x : SpdxExpression) : Prop where
  expression : Trimmed x.expression

/-- What version `v` of the format has of a `LicenseChoice`. -/
def LicenseChoice.at (v : SpecVersion) : LicenseChoice → LicenseChoice
  | .license l => .license (l.at v)
  | .expression e => .expression e

/-- `LicenseChoice`s that JSON keeps. -/
def LicenseChoice.JsonOk (v : SpecVersion) : LicenseChoice → Prop
  | .license l => l.JsonOk v
  | .expression _ => True

/-- `LicenseChoice`s that XML keeps. -/
def LicenseChoice.XmlOk (v : SpecVersion) : LicenseChoice → Prop
  | .license l => l.XmlOk v
  | .expression e => e.XmlOk

/-- What version `v` of the format has of `Licenses`. -/
def Licenses.at (v : SpecVersion) (l : Licenses) : Licenses := l.map (LicenseChoice.at v)

/-- `Licenses` that JSON keeps. -/
def Licenses.JsonOk (v : SpecVersion) (l : Licenses) : Prop := ∀ x ∈ l, LicenseChoice.JsonOk v x

/-- `Licenses` that XML keeps. -/
def Licenses.XmlOk (v : SpecVersion) (l : Licenses) : Prop := ∀ x ∈ l, LicenseChoice.XmlOk v x

end Cdx
