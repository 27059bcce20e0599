import Verif.Model.Xml

/-!
# What well-formed XML is

The document tree, independently of the program: an element has a name, attributes and content,
which is a sequence of elements and texts.
-/

namespace Cdx

/-- A node of an XML document. -/
inductive XNode where
  | elem (name : XName) (attrs : List (String × String)) (ns : Option String)
      (children : List XNode)
  | chars (s : String)
  | cdata (s : String)
  | other

mutual
/-- The events of a node: start tag, content, end tag with the same name. -/
def XNode.events : XNode → List XEvent
  | .elem n attrs ns children => .start n attrs ns :: (XNode.eventsAll children ++ [.stop n])
  | .chars s => [.chars s]
  | .cdata s => [.cdata s]
  | .other => [.other]

/-- The events of the content of an element. -/
def XNode.eventsAll : List XNode → List XEvent
  | [] => []
  | n :: l => n.events ++ XNode.eventsAll l
end

/-- The names of the attributes of a start tag are distinct. With `loose`, two start tags that the
program can write with a repeated attribute are let through: an attachment with both content type
and encoding (`specs/v1_5/attachment.rs` 77-86) and a data flow with both name and description
(`specs/v1_5/service_data.rs` 177-186). -/
def GoodKeys (loose : Bool) (tag : String) (keys : List String) : Prop :=
  keys.Nodup ∨ loose = true ∧
    (keys = ["encoding", "encoding"] ∨ tag = "dataflow" ∧ keys = ["name", "name"])

/-- What a writer emits is well formed: texts and elements in sequence, where every start tag is
closed after well-formed content and has no attribute twice. -/
inductive WellFormed (loose : Bool) : List WEvent → Prop
  | nil : WellFormed loose []
  | chars (s) : WellFormed loose [.chars s]
  | cdata (s) : WellFormed loose [.cdata s]
  | elem (tag attrs) {body} : GoodKeys loose tag (attrs.map (·.1)) → WellFormed loose body →
      WellFormed loose (.start tag attrs :: (body ++ [.stop]))
  | append {a b} : WellFormed loose a → WellFormed loose b → WellFormed loose (a ++ b)

/-- What a writer emits is one element with the given tag. -/
def OneElement (loose : Bool) (tag : String) (w : List WEvent) : Prop :=
  ∃ attrs body, GoodKeys loose tag (attrs.map (·.1)) ∧ WellFormed loose body ∧
    w = .start tag attrs :: (body ++ [.stop])

mutual
/-- The local names of all elements in a node. -/
def XNode.names : XNode → List String
  | .elem n _ _ children => n.localName :: XNode.namesAll children
  | .chars _ => []
  | .cdata _ => []
  | .other => []

/-- The local names of all elements in some content. -/
def XNode.namesAll : List XNode → List String
  | [] => []
  | n :: l => n.names ++ XNode.namesAll l
end

/-- Whether a node is an element. -/
def XNode.isElem : XNode → Bool
  | .elem _ _ _ _ => true
  | _ => false

/-- The elements whose readers drop what they do not know, event by event (`Unknown.ignore`). -/
def ignoring : List String :=
  ["evidence", "data", "dataflow", "proofOfConcept", "governance", "contents", "graphics",
   "collection", "graphic", "image", "attachment", "callstack", "frame", "identity", "method",
   "modelCard", "modelParameters", "approach", "quantitativeAnalysis", "performanceMetrics",
   "performanceMetric", "confidenceInterval", "inputs", "outputs", "input", "output", "dataset"]

/-- Content of an element that its reader can find the end of: an element of `ignoring` does not
contain an element of the same name, and a signature contains no text of its own. -/
def TameContent (tag : String) (content : List XNode) : Prop :=
  (tag ∈ ignoring → tag ∉ XNode.namesAll content) ∧
  (tag = "signature" → ∀ x ∈ content, x.isElem = true)

mutual
/-- All elements in a node have tame content. -/
def XNode.Tame : XNode → Prop
  | .elem n _ _ children => TameContent n.localName children ∧ XNode.TameAll children
  | .chars _ => True
  | .cdata _ => True
  | .other => True

/-- All elements in some content have tame content. -/
def XNode.TameAll : List XNode → Prop
  | [] => True
  | n :: l => n.Tame ∧ XNode.TameAll l
end

/-- A reader of elements with the given tag is local: what it returns is a function of the element
alone, and when it succeeds it has consumed exactly the element. -/
def LocalAt {α : Type} (tag : String) (r : XElem α) : Prop :=
  ∀ name attrs content, name.localName = tag → TameContent tag content → XNode.TameAll content →
    ∃ o : Except XErr α, ∀ rest,
      r name attrs (XNode.eventsAll content ++ .stop name :: rest) = o.map fun x => (x, rest)

/-- A reader of elements is lax: an element whose name is not known, with whatever content, can be put
after any of the children and changes nothing. -/
def Lax {α : Type} (known : List String) (r : XElem α) : Prop :=
  ∀ name attrs children foreign fattrs fns content rest,
    XNode.TameAll children → foreign.localName ∉ known →
    r name attrs (XNode.eventsAll children ++ ((XNode.elem foreign fattrs fns content).events ++ rest)) =
      r name attrs (XNode.eventsAll children ++ rest)

/-- A text survives the trimming that the XML library does. -/
def Trimmed (s : String) : Prop := xmlTrim s = s

/-- Writing `x` with `w`, handing the document to the XML library, and reading the element back with
`r` yields `y`, whatever follows in the document. -/
def Reads {α : Type} (ns : Option String) (w : List WEvent) (tag : String) (r : XElem α) (y : α) :
    Prop :=
  ∃ attrs body,
    deliver ns [] w = .start ⟨tag, ns, none⟩ attrs ns :: (body ++ [.stop ⟨tag, ns, none⟩]) ∧
    ∀ rest, r ⟨tag, ns, none⟩ attrs (body ++ .stop ⟨tag, ns, none⟩ :: rest) = .ok (y, rest)

/-- A value of an enumeration is read back from its own name. -/
def Stable {α : Type} (display : α → String) (new : String → α) (x : α) : Prop := new (display x) = x

end Cdx
