import Verif.Spec.Xml
import Verif.Model.Format.Annotation
import Verif.Spec.Format.Vulnerability

set_option linter.unusedVariables false

/-!
# What the file formats keep: annotations
-/

namespace Cdx

variable [F32Format]

variable [ReadLimit]

/-- What version `v` of the format has of a `Annotator`. -/
def Annotator.at (v : SpecVersion) : Annotator → Annotator
  | .organization y => .organization (y)
  | .individual y => .individual (y)
  | .component y => .component ((Component.at v) y)
  | .service y => .service ((Service.at v) y)

/-- `Annotator`s that JSON keeps. -/
def Annotator.JsonOk (v : SpecVersion) : Annotator → Prop
  | .organization _ => True
  | .individual _ => True
  | .component y => Component.JsonOk v y
  | .service y => Service.JsonOk v y

/-- `Annotator`s that XML keeps. -/
def Annotator.XmlOk (v : SpecVersion) : Annotator → Prop
  | .organization y => OrganizationalEntity.XmlOk y
  | .individual y => OrganizationalContact.XmlOk y
  | .component y => Component.XmlOk v y
  | .service y => Service.XmlOk v y

/-- What version `v` of the format has of a `Annotation`. -/
def Annotation.at (v : SpecVersion) (x : Annotation) : Annotation :=
  { x with annotator := (Annotator.at v) x.annotator }

/-- `Annotation`s that JSON keeps: enumeration values are read back from their names, numbers are in
range. -/
structure Annotation.JsonOk (v : SpecVersion) (x : Annotation) : Prop where
  annotator : Annotator.JsonOk v x.annotator
  signature : ∀ y, x.signature = some y → Signature.JsonOk y

/-- `Annotation`s that XML keeps: texts do not begin or end with white space, enumeration values are
read back from their names, numbers are in range, lists of repeated elements are not empty. -/
structure Annotation.XmlOk (v : SpecVersion) (x : Annotation) : Prop where
  subjects : x.subjects = []
  annotator : Annotator.XmlOk v x.annotator
  timestamp : Trimmed x.timestamp
  text : Trimmed x.text
  signature : ∀ y, x.signature = some y → Signature.XmlOk y

end Cdx
