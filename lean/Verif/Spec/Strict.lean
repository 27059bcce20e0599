import Verif.Spec.Schema

/-!
# Specification: schemas that allow no other members than those they name

The schema of version 1.3 does not say `additionalProperties: false`, those of the later versions say
it nearly everywhere. `StrictlyConforms` adds it to every object of a schema that has `properties`.
-/

namespace Cdx.Spec

mutual

/-- The schema with `additionalProperties: false` beside all `properties`. -/
def Schema.strict : Schema → Schema
  | .kw c => .kw c
  | .properties l => .allOf [.kw (.closed (l.map (·.1))), .properties (Schema.strictMembers l)]
  | .items s => .items s.strict
  | .itemAt i s => .itemAt i s.strict
  | .allOf l => .allOf (Schema.strictAll l)
  | .anyOf l => .anyOf (Schema.strictAll l)
  | .oneOf l => .oneOf (Schema.strictAll l)
  | .ifThen s t => .ifThen s.strict t.strict
  | .ref n => .ref n

/-- The same for a list of schemas. -/
def Schema.strictAll : List Schema → List Schema
  | [] => []
  | s :: l => s.strict :: Schema.strictAll l

/-- The same for the schemas of members. -/
def Schema.strictMembers : List (String × Schema) → List (String × Schema)
  | [] => []
  | (k, s) :: l => (k, s.strict) :: Schema.strictMembers l

end

/-- The definitions of the schema of a version, without other members than those they name. -/
def strictContext (F : Formats) (v : SpecVersion) : Context where
  defs := Schema.strictMembers (schemaDefs v) ++ SchemaJsf.defs ++ SchemaSpdx.defs
  format := F

/-- The document conforms to the JSON schema of the version and has no members that it does not name. -/
def StrictlyConforms (F : Formats) (v : SpecVersion) (j : Json) : Prop :=
  Valid (strictContext F v) (.ref "root") j

end Cdx.Spec
