import Verif.Spec.Xml
import Verif.Model.Format.Basic

set_option linter.unusedVariables false

/-!
# What the file formats keep: texts, hashes, properties, organizations, references
-/

namespace Cdx

/-- `AttachedText`s that JSON keeps: enumeration values are read back from their names, numbers are in
range. -/
structure AttachedText.JsonOk (x : AttachedText) : Prop where
  encoding : ∀ y, x.encoding = some y → Stable Encoding.display Encoding.new y

/-- `AttachedText`s that XML keeps. -/
structure AttachedText.XmlOk (x : AttachedText) : Prop where
  encoding : ∀ y, x.encoding = some y → Stable Encoding.display Encoding.new y
  content : Trimmed x.content ∧ x.content ≠ ""

/-- `Property`s that XML keeps. -/
structure Property.XmlOk (x : Property) : Prop where
  value : Trimmed x.value

/-- `Hash`s that JSON keeps: enumeration values are read back from their names, numbers are in
range. -/
structure Hash.JsonOk (x : Hash) : Prop where
  alg : Stable HashAlgorithm.display HashAlgorithm.new x.alg

/-- `Hash`s that XML keeps. -/
structure Hash.XmlOk (x : Hash) : Prop where
  alg : Stable HashAlgorithm.display HashAlgorithm.new x.alg
  content : Trimmed x.content

/-- `OrganizationalContact`s that XML keeps: texts do not begin or end with white space, enumeration values are
read back from their names, numbers are in range, lists of repeated elements are not empty. -/
structure OrganizationalContact.XmlOk (x : OrganizationalContact) : Prop where
  name : ∀ y, x.name = some y → Trimmed y
  email : ∀ y, x.email = some y → Trimmed y
  phone : ∀ y, x.phone = some y → Trimmed y

/-- `OrganizationalEntity`s that XML keeps: texts do not begin or end with white space, enumeration values are
read back from their names, numbers are in range, lists of repeated elements are not empty. -/
structure OrganizationalEntity.XmlOk (x : OrganizationalEntity) : Prop where
  name : ∀ y, x.name = some y → Trimmed y
  url : ∀ y, x.url = some y → ∀ z ∈ y, Trimmed z
  url_ne : x.url ≠ some []
  contact : ∀ y, x.contact = some y → ∀ z ∈ y, OrganizationalContact.XmlOk z ∧ OrganizationalContact.willWrite z = true
  contact_ne : x.contact ≠ some []

/-- `ExternalReference`s that JSON keeps: enumeration values are read back from their names, numbers are in
range. -/
structure ExternalReference.JsonOk (x : ExternalReference) : Prop where
  externalReferenceType : Stable ExternalReferenceType.display ExternalReferenceType.new x.externalReferenceType
  url : Stable RefUri.display RefUri.ofUrl x.url
  hashes : ∀ y, x.hashes = some y → ∀ z ∈ y, Hash.JsonOk z

/-- `ExternalReference`s that XML keeps: texts do not begin or end with white space, enumeration values are
read back from their names, numbers are in range, lists of repeated elements are not empty. -/
structure ExternalReference.XmlOk (x : ExternalReference) : Prop where
  externalReferenceType : Stable ExternalReferenceType.display ExternalReferenceType.new x.externalReferenceType
  url : Stable RefUri.display RefUri.ofUrl x.url ∧ Trimmed (RefUri.display x.url)
  comment : ∀ y, x.comment = some y → Trimmed y
  hashes : ∀ y, x.hashes = some y → ∀ z ∈ y, Hash.XmlOk z

/-- `VulnerabilitySource`s that XML keeps: texts do not begin or end with white space, enumeration values are
read back from their names, numbers are in range, lists of repeated elements are not empty. -/
structure VulnerabilitySource.XmlOk (x : VulnerabilitySource) : Prop where
  name : ∀ y, x.name = some y → Trimmed y
  url : ∀ y, x.url = some y → Trimmed y

/-- `VulnerabilityReference`s that XML keeps: texts do not begin or end with white space, enumeration values are
read back from their names, numbers are in range, lists of repeated elements are not empty. -/
structure VulnerabilityReference.XmlOk (x : VulnerabilityReference) : Prop where
  id : Trimmed x.id
  vulnerabilitySource : VulnerabilitySource.XmlOk x.vulnerabilitySource

/-- `Advisory`s that XML keeps: texts do not begin or end with white space, enumeration values are
read back from their names, numbers are in range, lists of repeated elements are not empty. -/
structure Advisory.XmlOk (x : Advisory) : Prop where
  title : ∀ y, x.title = some y → Trimmed y
  url : Trimmed x.url

/-- `VulnerabilityCredits`s that XML keeps: texts do not begin or end with white space, enumeration values are
read back from their names, numbers are in range, lists of repeated elements are not empty. -/
structure VulnerabilityCredits.XmlOk (x : VulnerabilityCredits) : Prop where
  organizations : ∀ y, x.organizations = some y → ∀ z ∈ y, OrganizationalEntity.XmlOk z ∧ OrganizationalEntity.willWrite z = true
  individuals : ∀ y, x.individuals = some y → ∀ z ∈ y, OrganizationalContact.XmlOk z ∧ OrganizationalContact.willWrite z = true

end Cdx
