import Verif.Spec.Xml
import Verif.Model.Format.Service
import Verif.Spec.Format.Data

set_option linter.unusedVariables false

/-!
# What the file formats keep: services
-/

namespace Cdx

variable [ReadLimit]

mutual

/-- What version `v` of the format has of an optional list of `Service`s. -/
def Service.atOpt (v : SpecVersion) : Option (List Service) → Option (List Service)
  | none => none
  | some l => some (Service.atAll v l)
termination_by structural l => l

/-- What version `v` of the format has of a list of `Service`s. -/
def Service.atAll (v : SpecVersion) : List Service → List Service
  | [] => []
  | x :: l => Service.at v x :: Service.atAll v l
termination_by structural l => l

/-- What version `v` of the format has of a `Service`. -/
def Service.at (v : SpecVersion) : Service → Service
  | ⟨bomRef, provider, group, name, version, description, endpoints, authenticated, xTrustBoundary, data, licenses, externalReferences, properties, services, signature, trustZone⟩ =>
    { bomRef := bomRef,
      provider := provider,
      group := group,
      name := name,
      version := version,
      description := description,
      endpoints := endpoints,
      authenticated := authenticated,
      xTrustBoundary := xTrustBoundary,
      data := data.map (ServiceDataChoice.at v),
      licenses := licenses.map (Licenses.at v),
      externalReferences := externalReferences,
      properties := properties,
      services := Service.atOpt v services,
      signature := since14 v signature none,
      trustZone := since15 v trustZone none }
termination_by structural x => x

end

/-- `Service`s that JSON keeps: enumeration values are read back from their names, numbers are in
range, nested values satisfy `sub`. -/
structure Service.JsonOkWith (sub : Service → Prop) (v : SpecVersion) (x : Service) : Prop where
  data : ∀ y, x.data = some y → ServiceDataChoice.JsonOk v y
  licenses : ∀ y, x.licenses = some y → Licenses.JsonOk v y
  externalReferences : ∀ y, x.externalReferences = some y → ∀ z ∈ y, ExternalReference.JsonOk z
  services : ∀ y, x.services = some y → ∀ z ∈ y, sub z
  signature : v ≠ .v1_3 → ∀ y, x.signature = some y → Signature.JsonOk y

/-- `Service`s that XML keeps: texts do not begin or end with white space, enumeration values are
read back from their names, numbers are in range, lists of repeated elements are not empty, nested values satisfy `sub`. -/
structure Service.XmlOkWith (sub : Service → Prop) (v : SpecVersion) (x : Service) : Prop where
  provider : ∀ y, x.provider = some y → OrganizationalEntity.XmlOk y
  group : ∀ y, x.group = some y → Trimmed y
  name : Trimmed x.name
  version : ∀ y, x.version = some y → Trimmed y
  description : ∀ y, x.description = some y → Trimmed y
  endpoints : ∀ y, x.endpoints = some y → ∀ z ∈ y, Trimmed z
  data : ∀ y, x.data = some y → ServiceDataChoice.XmlOk v y
  licenses : ∀ y, x.licenses = some y → Licenses.XmlOk v y
  externalReferences : ∀ y, x.externalReferences = some y → ∀ z ∈ y, ExternalReference.XmlOk z
  properties : ∀ y, x.properties = some y → ∀ z ∈ y, Property.XmlOk z
  services : ∀ y, x.services = some y → ∀ z ∈ y, sub z
  signature : v ≠ .v1_3 → ∀ y, x.signature = some y → Signature.XmlOk y
  trustZone : v = .v1_5 → ∀ y, x.trustZone = some y → Trimmed y

/-- `Service`s that JSON keeps, with at most `n` levels of nested `Service`s. -/
def Service.JsonOkN (v : SpecVersion) : Nat → Service → Prop
  | 0, _ => False
  | n + 1, x => Service.JsonOkWith (Service.JsonOkN v n) v x

/-- `Service`s that JSON keeps: their parts are kept and they are not nested too deep to be read. -/
def Service.JsonOk (v : SpecVersion) (x : Service) : Prop := Service.JsonOkN v ReadLimit.limit x

/-- `Service`s that XML keeps, with at most `n` levels of nested `Service`s. -/
def Service.XmlOkN (v : SpecVersion) : Nat → Service → Prop
  | 0, _ => False
  | n + 1, x => Service.XmlOkWith (Service.XmlOkN v n) v x

/-- `Service`s that XML keeps: their parts are kept and they are not nested too deep to be read. -/
def Service.XmlOk (v : SpecVersion) (x : Service) : Prop := Service.XmlOkN v ReadLimit.limit x

end Cdx
