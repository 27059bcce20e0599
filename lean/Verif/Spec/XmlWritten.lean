import Verif.Spec.XmlSchema

/-!
# Specification: written XML documents and the schema of the format

When a written document is valid against the schema, and the places where this library writes something
else.
-/

namespace Cdx.Spec

mutual
/-- What a writer has to emit for a node. -/
def written : XNode → List WEvent
  | .elem n attrs _ content => .start n.localName attrs :: (writtenAll content ++ [.stop])
  | .chars s => [.chars s]
  | .cdata s => [.cdata s]
  | .other => []

/-- What a writer has to emit for the content of an element. -/
def writtenAll : List XNode → List WEvent
  | [] => []
  | x :: l => written x ++ writtenAll l
end

/-- The attributes are attributes of the type of element in this version, and none is there twice. -/
def AttributesListed (v : SpecVersion) (t : ElementType) (attrs : List (String × String)) : Prop :=
  (attrs.map (·.1)).Nodup ∧ ∀ a ∈ attrs, a.1 ∈ (t.attributes v).map (·.name)

/-- An element, without its child elements, is valid: its content and its attributes are as the type
says, and it has no other attributes. -/
def ValidElement (v : SpecVersion) (t : ElementType) (attrs : List (String × String)) (content : List XNode) :
    Prop :=
  LocallyConforms true v t attrs content ∧ AttributesListed v t attrs

/-- There is a child element with the given name. -/
def HasChild (name : String) (content : List XNode) : Prop := ∃ x ∈ content, nameOf x = some name

/-- Finite numbers are displayed as decimal numbers, as the standard library does it. -/
def DecimalsShown [F32Format] : Prop :=
  ∀ x : F32, x.isFinite = true → TextType.decimal.Admits (F32Format.display x)

/-- The elements that this library does not write as the format has them. -/
inductive Departs [F32Format] (v : SpecVersion) :
    ElementType → List (String × String) → List XNode → Prop
  /-- Signatures are written with elements of their own. -/
  | signature {t attrs content} : t ∈ [.component, .service, .composition] → v ≠ .v1_3 →
      HasChild "signature" content → Departs v t attrs content
  /-- The trust zone comes at the end of a service. -/
  | trustZone {attrs content} : v = .v1_5 → HasChild "trustZone" content →
      Departs v .service attrs content
  /-- The lifecycles come at the end of the metadata. -/
  | lifecycles {attrs content} : v = .v1_5 → HasChild "lifecycles" content →
      Departs v .metadata attrs content
  /-- The workaround comes at the end of a vulnerability. -/
  | workaround {attrs content} : v = .v1_5 → HasChild "workaround" content →
      Departs v .vulnerability attrs content
  /-- The services come before the components in the tools. -/
  | tools {attrs content} : v = .v1_5 → HasChild "services" content → HasChild "components" content →
      Departs v .tools attrs content
  /-- Steps have their commands first, and their description before their name. -/
  | step {attrs content} : v = .v1_5 →
      HasChild "commands" content ∨ HasChild "description" content ∧ HasChild "name" content →
      Departs v .step attrs content
  /-- A reference to a dataset is written inside of a dataset. -/
  | dataset {attrs content} : v = .v1_5 → HasChild "ref" content → Departs v .componentData attrs content
  /-- An external reference to a resource has the name of external references elsewhere. -/
  | resource {attrs content} : v = .v1_5 → HasChild "reference" content →
      Departs v .resourceReference attrs content
  /-- The content type of an attachment is written as a second encoding. -/
  | attachment {attrs content} : v = .v1_5 → attrs.map (·.1) = ["encoding", "encoding"] →
      Departs v .attachment attrs content
  /-- The description of a data flow is written as a second name. -/
  | dataflow {attrs content} : v = .v1_5 → attrs.map (·.1) = ["name", "name"] →
      Departs v .dataflow attrs content
  /-- A workflow without types of tasks. -/
  | taskTypes {attrs} : v = .v1_5 → Departs v .taskTypes attrs []
  /-- The types of a task are not written. -/
  | task {attrs content} : v = .v1_5 → ¬ HasChild "taskTypes" content → Departs v .task attrs content
  /-- A license expression beside other licenses. -/
  | licenses {attrs content} : HasChild "expression" content → 2 ≤ content.length →
      Departs v .licenses attrs content
  /-- A reference on something that has none before version 1.5. -/
  | bomRef {t attrs content} : t ∈ [.expression, .organizationalContact, .organizationalEntity] →
      v ≠ .v1_5 → attrs.map (·.1) = ["bom-ref"] → Departs v t attrs content
  /-- A range of versions that the library does not know. -/
  | version {attrs content} : v ≠ .v1_3 → ¬ HasChild "version" content → ¬ HasChild "range" content →
      Departs v .affectedVersion attrs content
  /-- A number that is infinite or not a number. -/
  | number {attrs} {x : F32} : v ≠ .v1_3 → x.isFinite = false →
      Departs v .decimal attrs [.chars (F32Format.display x)]

end Cdx.Spec
