/-- An attribute: its name, the type of its value, whether it is required, and since which version it
exists. -/
structure AttributeRule where
  name : String
  type : TextType
  required : Bool
  since : SpecVersion := .v1_3

/-- A part of a sequence of child elements: the elements that can be there, with their types, the least
and the greatest number of them, and the versions that have it. -/
structure Particle where
  items : List (String × ElementType)
  least : Nat
  most : Option Nat
  since : SpecVersion := .v1_3
  last : SpecVersion := .v1_5

/-- The content of an element: a text, or child elements that follow one of several sequences. -/
inductive Content where
  | text (type : TextType)
  | children (choices : List (List Particle))

/-- What the format says about a type of element. -/
structure TypeRule where
  attributes : List AttributeRule
  content : Content

/-- An optional attribute. -/
abbrev has (name : String) (type : TextType) : AttributeRule := ⟨name, type, false, .v1_3⟩

/-- A required attribute. -/
abbrev needs (name : String) (type : TextType) : AttributeRule := ⟨name, type, true, .v1_3⟩

/-- An attribute that exists since a version. -/
abbrev AttributeRule.from (a : AttributeRule) (v : SpecVersion) : AttributeRule := { a with since := v }

/-- An optional element. -/
abbrev mayHave (name : String) (type : ElementType) : Particle := { items := [(name, type)], least := 0, most := some 1 }

/-- An element that is there once. -/
abbrev mustHave (name : String) (type : ElementType) : Particle := { items := [(name, type)], least := 1, most := some 1 }

/-- An element that is there any number of times. -/
abbrev anyNumber (name : String) (type : ElementType) : Particle := { items := [(name, type)], least := 0, most := none }

/-- An element that is there at least once. -/
abbrev atLeastOne (name : String) (type : ElementType) : Particle := { items := [(name, type)], least := 1, most := none }

/-- One of several elements. -/
abbrev oneOf (items : List (String × ElementType)) : Particle := { items, least := 1, most := some 1 }

/-- Any number of several elements, in any order. -/
abbrev anyOf (items : List (String × ElementType)) : Particle := { items, least := 0, most := none }

/-- Something that exists since a version. -/
abbrev Particle.from (p : Particle) (v : SpecVersion) : Particle := { p with since := v }

/-- Something that exists up to a version. -/
abbrev Particle.upTo (p : Particle) (v : SpecVersion) : Particle := { p with last := v }

/-- The number of a version. -/
def minor : SpecVersion → Nat
  | .v1_3 => 3
  | .v1_4 => 4
  | .v1_5 => 5

/-- The types of elements of the format.  Where several types have the same rule, they differ in what
this library accepts. -/
def ElementType.rule : ElementType → TypeRule
