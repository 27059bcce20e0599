import Verif.Spec.Schema.V1_3
import Verif.Spec.Schema.V1_4
import Verif.Spec.Schema.V1_5
import Verif.Spec.Schema.Jsf
import Verif.Spec.Schema.Spdx

/-!
# Specification: documents that conform to the JSON schema of their version
-/

namespace Cdx.Spec

/-- The definitions of the schema of a version. -/
def schemaDefs : SpecVersion → List (String × Schema)
  | .v1_3 => Schema13.defs
  | .v1_4 => Schema14.defs
  | .v1_5 => Schema15.defs

/-- The schema of a version, together with the schemas it refers to. -/
def schemaContext (F : Formats) (v : SpecVersion) : Context where
  defs := schemaDefs v ++ SchemaJsf.defs ++ SchemaSpdx.defs
  format := F

/-- The value is accepted by a definition of the schema of the version. -/
abbrev Fits (F : Formats) (v : SpecVersion) (name : String) (j : Json) : Prop :=
  Valid (schemaContext F v) (.ref name) j

/-- The document conforms to the JSON schema of the version. -/
def Conforms (F : Formats) (v : SpecVersion) (j : Json) : Prop := Fits F v "root" j

/-- The document is rejected by the JSON schema of the version. -/
def Rejected (F : Formats) (v : SpecVersion) (j : Json) : Prop :=
  Invalid (schemaContext F v) (.ref "root") j

end Cdx.Spec
