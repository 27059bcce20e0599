import Verif.Spec.Xml
import Verif.Model.Format.Metadata
import Verif.Spec.Format.Component

set_option linter.unusedVariables false

/-!
# What the file formats keep: tools and metadata
-/

namespace Cdx

variable [F32Format]

variable [ReadLimit]

/-- What version `v` of the format has of a `Tool`. -/
def Tool.at (v : SpecVersion) (x : Tool) : Tool :=
  { x with externalReferences := since14 v x.externalReferences none }

/-- `Tool`s that JSON keeps: enumeration values are read back from their names, numbers are in
range. -/
structure Tool.JsonOk (v : SpecVersion) (x : Tool) : Prop where
  hashes : ∀ y, x.hashes = some y → ∀ z ∈ y, Hash.JsonOk z
  externalReferences : v ≠ .v1_3 → ∀ y, x.externalReferences = some y → ∀ z ∈ y, ExternalReference.JsonOk z

/-- `Tool`s that XML keeps: texts do not begin or end with white space, enumeration values are
read back from their names, numbers are in range, lists of repeated elements are not empty. -/
structure Tool.XmlOk (v : SpecVersion) (x : Tool) : Prop where
  vendor : ∀ y, x.vendor = some y → Trimmed y
  name : ∀ y, x.name = some y → Trimmed y
  version : ∀ y, x.version = some y → Trimmed y
  hashes : ∀ y, x.hashes = some y → ∀ z ∈ y, Hash.XmlOk z
  externalReferences : v ≠ .v1_3 → ∀ y, x.externalReferences = some y → ∀ z ∈ y, ExternalReference.XmlOk z

/-- What version `v` of the format has of `Tools`. -/
def Tools.at (v : SpecVersion) : Tools → Tools
  | .list l => .list (l.map (Tool.at v))
  | .object s c =>
    since15 v (.object (s.map (List.map (Service.at v))) (c.map (List.map (Component.at v)))) (.list [])

/-- `Tools` that JSON keeps. -/
def Tools.JsonOk (v : SpecVersion) : Tools → Prop
  | .list l => ∀ x ∈ l, Tool.JsonOk v x
  | .object s c => v = .v1_5 →
    (∀ l, s = some l → ∀ x ∈ l, Service.JsonOk v x) ∧ ∀ l, c = some l → ∀ x ∈ l, Component.JsonOk v x

/-- `Tools` that XML keeps: in version 1.5 an empty list of tools is read as the other form. -/
def Tools.XmlOk (v : SpecVersion) : Tools → Prop
  | .list l => (v = .v1_5 → l ≠ []) ∧ ∀ x ∈ l, Tool.XmlOk v x
  | .object s c => v = .v1_5 →
    (∀ l, s = some l → ∀ x ∈ l, Service.XmlOk v x) ∧ ∀ l, c = some l → ∀ x ∈ l, Component.XmlOk v x

/-- What version `v` of the format has of a `Metadata`. -/
def Metadata.at (v : SpecVersion) (x : Metadata) : Metadata :=
  { x with tools := x.tools.map (Tools.at v),
           component := x.component.map (Component.at v),
           licenses := x.licenses.map (Licenses.at v),
           lifecycles := since15 v x.lifecycles none }

/-- `Metadata`s that JSON keeps: enumeration values are read back from their names, numbers are in
range. -/
structure Metadata.JsonOk (v : SpecVersion) (x : Metadata) : Prop where
  tools : ∀ y, x.tools = some y → Tools.JsonOk v y
  component : ∀ y, x.component = some y → Component.JsonOk v y
  licenses : ∀ y, x.licenses = some y → Licenses.JsonOk v y
  lifecycles : v = .v1_5 → ∀ y, x.lifecycles = some y → ∀ z ∈ y, Lifecycle.JsonOk z

/-- `Metadata`s that XML keeps: texts do not begin or end with white space, enumeration values are
read back from their names, numbers are in range, lists of repeated elements are not empty. -/
structure Metadata.XmlOk (v : SpecVersion) (x : Metadata) : Prop where
  timestamp : ∀ y, x.timestamp = some y → Trimmed y
  tools : ∀ y, x.tools = some y → Tools.XmlOk v y
  authors : ∀ y, x.authors = some y → ∀ z ∈ y, OrganizationalContact.XmlOk z ∧ OrganizationalContact.willWrite z = true
  component : ∀ y, x.component = some y → Component.XmlOk v y
  manufacture : ∀ y, x.manufacture = some y → OrganizationalEntity.XmlOk y
  supplier : ∀ y, x.supplier = some y → OrganizationalEntity.XmlOk y
  licenses : ∀ y, x.licenses = some y → Licenses.XmlOk v y
  properties : ∀ y, x.properties = some y → ∀ z ∈ y, Property.XmlOk z
  lifecycles : v = .v1_5 → ∀ y, x.lifecycles = some y → ∀ z ∈ y, Lifecycle.XmlOk z

end Cdx
