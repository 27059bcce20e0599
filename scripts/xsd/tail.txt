/-- The attributes of a type of element in a version. -/
def ElementType.attributes (v : SpecVersion) (t : ElementType) : List AttributeRule :=
  t.rule.attributes.filter fun a => minor a.since ≤ minor v

/-- What a version has of a sequence. -/
def present (v : SpecVersion) (l : List Particle) : List Particle :=
  l.filter fun p => minor p.since ≤ minor v && minor v ≤ minor p.last

/-- The sequences of child elements of a type of element in a version. -/
def ElementType.choices (v : SpecVersion) (t : ElementType) : List (List Particle) :=
  match t.rule.content with
  | .text _ => []
  | .children l => l.map (present v)

/-- The child elements of a type of element in a version, with their types. -/
def ElementType.items (v : SpecVersion) (t : ElementType) : List (String × ElementType) :=
  (t.choices v).flatten.flatMap (·.items)

/-- The type of the child elements with a given name. -/
def ElementType.child (v : SpecVersion) (t : ElementType) (name : String) : Option ElementType :=
  (t.items v).lookup name

/-- A list of names follows a sequence: it consists of one piece for each part of the sequence, with
as many names as the part allows. -/
def Follows : List Particle → List String → Prop
  | [], names => names = []
  | p :: l, names => ∃ piece rest, names = piece ++ rest ∧
      (∀ n ∈ piece, n ∈ p.items.map (·.1)) ∧ p.least ≤ piece.length ∧
      (∀ m, p.most = some m → piece.length ≤ m) ∧ Follows l rest

/-- The local name of an element. -/
def nameOf : XNode → Option String
  | .elem n _ _ _ => some n.localName
  | _ => none

/-- The text of a node that is no element. -/
def textOf : XNode → Option String
  | .chars s => some s
  | .cdata s => some s
  | _ => none

/-- Not a processing instruction. -/
def isContent : XNode → Bool
  | .other => false
  | _ => true

/-- The attributes of an element have the types that the rules say, and the required ones are there. -/
def AttributesConform (rules : List AttributeRule) (attrs : List (String × String)) : Prop :=
  ∀ a ∈ rules, (a.required = true → ∃ s, attrs.lookup a.name = some s) ∧
    ∀ s, attrs.lookup a.name = some s → a.type.Admits s

/-- The content of an element is as the format says: a text of the right type, or child elements that
follow one of the sequences; unless `ordered`, the child elements may be in any order. -/
def ContentConforms (ordered : Bool) (v : SpecVersion) (t : ElementType) (content : List XNode) : Prop :=
  match t.rule.content with
  | .text type => ∃ texts, content.map textOf = texts.map some ∧ type.Admits (String.join texts)
  | .children _ => ∃ names, content.map nameOf = names.map some ∧ ∃ l ∈ t.choices v,
      if ordered then Follows l names else ∃ names', names'.Perm names ∧ Follows l names'

/-- An element, without its child elements, conforms to its type. -/
def LocallyConforms (ordered : Bool) (v : SpecVersion) (t : ElementType)
    (attrs : List (String × String)) (content : List XNode) : Prop :=
  AttributesConform (t.attributes v) attrs ∧ ContentConforms ordered v t (content.filter isContent)

mutual
/-- Something holds of an element and of all elements in it, each with its type. -/
def Throughout (P : ElementType → List (String × String) → List XNode → Prop) (v : SpecVersion)
    (t : ElementType) : XNode → Prop
  | .elem _ attrs _ content => P t attrs content ∧ ThroughoutAll P v t content
  | .chars _ => True
  | .cdata _ => True
  | .other => True

/-- Something holds of all elements in the content of an element of the given type. -/
def ThroughoutAll (P : ElementType → List (String × String) → List XNode → Prop) (v : SpecVersion)
    (t : ElementType) : List XNode → Prop
  | [] => True
  | x :: l => (∀ n ∈ nameOf x, ∀ t' ∈ t.child v n, Throughout P v t' x) ∧ ThroughoutAll P v t l
end

/-- An element conforms to a type of the format. -/
def ConformsXml (v : SpecVersion) (t : ElementType) (x : XNode) : Prop :=
  Throughout (LocallyConforms true v) v t x

/-- An element conforms to a type of the format, except that child elements may be in any order. -/
def ConformsUnordered (v : SpecVersion) (t : ElementType) (x : XNode) : Prop :=
  Throughout (LocallyConforms false v) v t x

/-- An integer that this library accepts: not negative and less than 2³². -/
def FitsInteger (s : String) : Prop :=
  ∀ digits, s.toList = digits ∨ s.toList = '+' :: digits ∨ s.toList = '-' :: digits → AreDigits digits →
    s.toList ≠ '-' :: digits ∧ Nat.ofDigitChars 10 digits 0 < 2 ^ 32

/-- Integers fit. -/
def TextType.Fits (t : TextType) (s : String) : Prop := t = .integer → FitsInteger s

/-- What this library needs of an element beyond what the format says:

* no processing instructions;
* a text comes in one piece, not as a mixture of text and CDATA sections;
* integers are not negative and less than 2³²;
* the name or identifier of a license, the text of a license, of a patch or of a SWID tag are not
  empty, and neither are attachments, which also must not be in CDATA sections;
* a dependency in a dependency has no dependencies itself;
* inputs of workflows have no parameters, and datasets of models are no references. -/
def Supported (v : SpecVersion) (t : ElementType) (attrs : List (String × String)) (content : List XNode) :
    Prop :=
  (∀ x ∈ content, isContent x = true) ∧
  (∀ a ∈ t.attributes v, ∀ s, attrs.lookup a.name = some s → a.type.Fits s) ∧
  (∀ type, t.rule.content = .text type → content.length ≤ 1 ∧
    ∀ x ∈ content, ∀ s ∈ textOf x, type.Fits s) ∧
  (t ∈ [.licenseId, .licenseName, .attachedText] → content ≠ []) ∧
  (t = .attachment → ∃ s, content = [.chars s]) ∧
  (t = .subDependency → content = []) ∧
  (t = .input → ∀ x ∈ content, nameOf x ≠ some "parameters") ∧
  (t = .datasets → ∀ x ∈ content, nameOf x ≠ some "ref")

/-- How deep elements are nested. -/
def depth : XNode → Nat
  | .elem _ _ _ content => 1 + depthAll content
  | .chars _ => 0
  | .cdata _ => 0
  | .other => 0
where
  /-- How deep elements are nested in some content. -/
  depthAll : List XNode → Nat
  | [] => 0
  | x :: l => max (depth x) (depthAll l)

/-- The events of a document with the given root element. -/
def documentOf (root : XNode) : List XEvent := .startDocument :: (root.events ++ [.endDocument])

/-- The root of a document of a version: an element `bom` in the namespace of the version. -/
def IsRoot (v : SpecVersion) (root : XNode) : Prop :=
  ∃ n attrs content, root = .elem n attrs (some v.namespace) content ∧ n.localName = "bom"

end Cdx.Spec
