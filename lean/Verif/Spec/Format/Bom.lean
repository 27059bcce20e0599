import Verif.Spec.Xml
import Verif.Model.Format.Bom
import Verif.Spec.Format.Formulation

set_option linter.unusedVariables false

/-!
# What the file formats keep: documents
-/

namespace Cdx

variable [F32Format]

variable [ReadLimit]

/-- What version `v` of the format has of a `Bom`. -/
def Bom.at (v : SpecVersion) (x : Bom) : Bom :=
  { x with metadata := x.metadata.map (Metadata.at v),
           components := x.components.map (List.map (Component.at v)),
           services := x.services.map (List.map (Service.at v)),
           compositions := x.compositions.map (List.map (Composition.at v)),
           properties := since15 v x.properties none,
           vulnerabilities := since14 v (x.vulnerabilities.map (List.map (Vulnerability.at v))) none,
           signature := since14 v x.signature none,
           annotations := since15 v (x.annotations.map (List.map (Annotation.at v))) none,
           formulation := since15 v (x.formulation.map (List.map (Formula.at v))) none,
           specVersion := v }

/-- `Bom`s that JSON keeps: enumeration values are read back from their names, numbers are in
range. -/
structure Bom.JsonOk (v : SpecVersion) (x : Bom) : Prop where
  version : x.version < 2 ^ 32
  metadata : ∀ y, x.metadata = some y → Metadata.JsonOk v y
  components : ∀ y, x.components = some y → ∀ z ∈ y, Component.JsonOk v z
  services : ∀ y, x.services = some y → ∀ z ∈ y, Service.JsonOk v z
  externalReferences : ∀ y, x.externalReferences = some y → ∀ z ∈ y, ExternalReference.JsonOk z
  compositions : ∀ y, x.compositions = some y → ∀ z ∈ y, Composition.JsonOk v z
  vulnerabilities : v ≠ .v1_3 → ∀ y, x.vulnerabilities = some y → ∀ z ∈ y, Vulnerability.JsonOk v z
  signature : v ≠ .v1_3 → ∀ y, x.signature = some y → Signature.JsonOk y
  annotations : v = .v1_5 → ∀ y, x.annotations = some y → ∀ z ∈ y, Annotation.JsonOk v z
  formulation : v = .v1_5 → ∀ y, x.formulation = some y → ∀ z ∈ y, Formula.JsonOk v z

/-- `Bom`s that XML keeps: texts do not begin or end with white space, enumeration values are
read back from their names, numbers are in range, lists of repeated elements are not empty. -/
structure Bom.XmlOk (v : SpecVersion) (x : Bom) : Prop where
  version : x.version < 2 ^ 32
  signature : v ≠ .v1_3 → x.signature = none
  annotations : v = .v1_5 → x.annotations = none
  metadata : ∀ y, x.metadata = some y → Metadata.XmlOk v y
  components : ∀ y, x.components = some y → ∀ z ∈ y, Component.XmlOk v z
  services : ∀ y, x.services = some y → ∀ z ∈ y, Service.XmlOk v z
  externalReferences : ∀ y, x.externalReferences = some y → ∀ z ∈ y, ExternalReference.XmlOk z
  compositions : ∀ y, x.compositions = some y → ∀ z ∈ y, Composition.XmlOk v z
  properties : v = .v1_5 → ∀ y, x.properties = some y → ∀ z ∈ y, Property.XmlOk z
  vulnerabilities : v ≠ .v1_3 → ∀ y, x.vulnerabilities = some y → ∀ z ∈ y, Vulnerability.XmlOk v z
  formulation : v = .v1_5 → ∀ y, x.formulation = some y → ∀ z ∈ y, Formula.XmlOk v z

end Cdx
