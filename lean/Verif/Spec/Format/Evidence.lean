import Verif.Spec.Xml
import Verif.Model.Format.Evidence
import Verif.Spec.Format.Service

set_option linter.unusedVariables false

/-!
# What the file formats keep: ratings and evidence
-/

namespace Cdx

variable [F32Format]

/-- `VulnerabilityRating`s that JSON keeps: enumeration values are read back from their names, numbers are in
range. -/
structure VulnerabilityRating.JsonOk (x : VulnerabilityRating) : Prop where
  score : ∀ y, x.score = some y → F32.isFinite y = true
  severity : ∀ y, x.severity = some y → Stable Severity.display Severity.new y
  scoreMethod : ∀ y, x.scoreMethod = some y → Stable ScoreMethod.display ScoreMethod.new y

/-- A number that is read back from its decimal representation. Finite numbers are. -/
def Printed (x : F32) : Prop := F32Format.parse (F32Format.display x) = some x

/-- `VulnerabilityRating`s that XML keeps: texts do not begin or end with white space, enumeration values are
read back from their names, numbers are in range, lists of repeated elements are not empty. -/
structure VulnerabilityRating.XmlOk (x : VulnerabilityRating) : Prop where
  vulnerabilitySource : ∀ y, x.vulnerabilitySource = some y → VulnerabilitySource.XmlOk y
  score : ∀ y, x.score = some y → Printed y
  severity : ∀ y, x.severity = some y → Stable Severity.display Severity.new y ∧ Trimmed (Severity.display y)
  scoreMethod : ∀ y, x.scoreMethod = some y → Stable ScoreMethod.display ScoreMethod.new y ∧ Trimmed (ScoreMethod.display y)
  vector : ∀ y, x.vector = some y → Trimmed y
  justification : ∀ y, x.justification = some y → Trimmed y

/-- A text that can be put into a CDATA section: it does not contain the end of one. -/
def SafeCdata (s : String) : Prop := ¬ [']', ']', '>'] <:+: s.toList

/-- `Occurrence`s that XML keeps: texts do not begin or end with white space, enumeration values are
read back from their names, numbers are in range, lists of repeated elements are not empty. -/
structure Occurrence.XmlOk (x : Occurrence) : Prop where
  location : Trimmed x.location

/-- `Frame`s that JSON keeps: enumeration values are read back from their names, numbers are in
range. -/
structure Frame.JsonOk (x : Frame) : Prop where
  line : ∀ y, x.line = some y → y < 2 ^ 32
  column : ∀ y, x.column = some y → y < 2 ^ 32

/-- `Frame`s that XML keeps: texts do not begin or end with white space, enumeration values are
read back from their names, numbers are in range, lists of repeated elements are not empty. -/
structure Frame.XmlOk (x : Frame) : Prop where
  package : ∀ y, x.package = some y → Trimmed y
  module : Trimmed x.module
  function : ∀ y, x.function = some y → Trimmed y
  parameters : ∀ y, x.parameters = some y → ∀ z ∈ y, Trimmed z
  line : ∀ y, x.line = some y → y < 2 ^ 32
  column : ∀ y, x.column = some y → y < 2 ^ 32
  fullFilename : ∀ y, x.fullFilename = some y → Trimmed y

/-- `Callstack`s that JSON keeps: enumeration values are read back from their names, numbers are in
range. -/
structure Callstack.JsonOk (x : Callstack) : Prop where
  frames : ∀ y ∈ x.frames, Frame.JsonOk y

/-- `Method`s that JSON keeps: enumeration values are read back from their names, numbers are in
range. -/
structure Method.JsonOk (x : Method) : Prop where
  confidence : F32.isFinite x.confidence = true

/-- `Method`s that XML keeps: texts do not begin or end with white space, enumeration values are
read back from their names, numbers are in range, lists of repeated elements are not empty. -/
structure Method.XmlOk (x : Method) : Prop where
  technique : Trimmed x.technique
  confidence : F32.isFinite x.confidence = true
  value : ∀ y, x.value = some y → Trimmed y

/-- `Identity`s that JSON keeps: enumeration values are read back from their names, numbers are in
range. -/
structure Identity.JsonOk (x : Identity) : Prop where
  field : Stable IdentityField.display IdentityField.new x.field
  confidence : ∀ y, x.confidence = some y → F32.isFinite y = true
  methods : ∀ y, x.methods = some y → ∀ z ∈ y, Method.JsonOk z

/-- `Identity`s that XML keeps: texts do not begin or end with white space, enumeration values are
read back from their names, numbers are in range, lists of repeated elements are not empty. -/
structure Identity.XmlOk (x : Identity) : Prop where
  field : Stable IdentityField.display IdentityField.new x.field ∧ Trimmed (IdentityField.display x.field)
  confidence : ∀ y, x.confidence = some y → F32.isFinite y = true
  methods : ∀ y, x.methods = some y → ∀ z ∈ y, Method.XmlOk z

/-- What version `v` of the format has of a `ComponentEvidence`. -/
def ComponentEvidence.at (v : SpecVersion) (x : ComponentEvidence) : ComponentEvidence :=
  { x with licenses := x.licenses.map (Licenses.at v),
           occurrences := since15 v x.occurrences none,
           callstack := since15 v x.callstack none,
           identity := since15 v x.identity none }

/-- `ComponentEvidence`s that JSON keeps: enumeration values are read back from their names, numbers are in
range. -/
structure ComponentEvidence.JsonOk (v : SpecVersion) (x : ComponentEvidence) : Prop where
  licenses : ∀ y, x.licenses = some y → Licenses.JsonOk v y
  callstack : v = .v1_5 → ∀ y, x.callstack = some y → Callstack.JsonOk y
  identity : v = .v1_5 → ∀ y, x.identity = some y → Identity.JsonOk y

/-- `ComponentEvidence`s that XML keeps: texts do not begin or end with white space, enumeration values are
read back from their names, numbers are in range, lists of repeated elements are not empty. -/
structure ComponentEvidence.XmlOk (v : SpecVersion) (x : ComponentEvidence) : Prop where
  occurrences : v = .v1_5 → x.occurrences = none
  callstack : v = .v1_5 → x.callstack = none
  identity : v = .v1_5 → x.identity = none
  licenses : ∀ y, x.licenses = some y → Licenses.XmlOk v y
  copyright : ∀ y, x.copyright = some y → ∀ z ∈ y, SafeCdata z

end Cdx
