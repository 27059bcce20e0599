import Verif.Model.Xml
import Verif.Spec.XmlElements

/-!
# XML documents that differ only in attributes and prefixes

Two documents differ only in what does not matter to a reader of the format if their elements have
the same local names, texts and attributes of the format. Attributes may come in another order, there
may be attributes that the format does not have, and prefixes may be others, as long as names that
were different remain different.
-/

namespace Cdx.Spec

/-- The attributes that elements of a name have in the newest version of the format, which has all
attributes of the older versions. -/
def attributesOf (tag : String) : List String := (formatElement .v1_5 tag).attributes

/-- Two lists of attributes have the same values for the attributes of an element. If an attribute is
there twice, which well-formed documents do not have, the first counts. -/
def SameAttributes (tag : String) (a b : List (String × String)) : Prop :=
  ∀ k ∈ attributesOf tag, a.lookup k = b.lookup k

/-- A correspondence of names that changes namespaces and prefixes only: the same names, also as they
are displayed, are the same on the other side. -/
class Correspondence (R : XName → XName → Prop) : Prop where
  localName : ∀ {a b}, R a b → a.localName = b.localName
  same : ∀ {a b a' b'}, R a b → R a' b' → (a = a' ↔ b = b')
  display : ∀ {a b a' b'}, R a b → R a' b' → (a.display = a'.display ↔ b.display = b'.display)

/-- An event of one document corresponds to one of the other document. -/
inductive SameEvent (R : XName → XName → Prop) : XEvent → XEvent → Prop
  | startDocument : SameEvent R .startDocument .startDocument
  | start {n n' : XName} {a a' : List (String × String)} {ns : Option String} :
      R n n' → SameAttributes n.localName a a' → SameEvent R (.start n a ns) (.start n' a' ns)
  | stop {n n' : XName} : R n n' → SameEvent R (.stop n) (.stop n')
  | chars {s : String} : SameEvent R (.chars s) (.chars s)
  | cdata {s : String} : SameEvent R (.cdata s) (.cdata s)
  | other : SameEvent R .other .other
  | endDocument : SameEvent R .endDocument .endDocument

/-- The events of two documents correspond one by one. -/
inductive SameEvents (R : XName → XName → Prop) : List XEvent → List XEvent → Prop
  | nil : SameEvents R [] []
  | cons {e e' : XEvent} {l l' : List XEvent} :
      SameEvent R e e' → SameEvents R l l' → SameEvents R (e :: l) (e' :: l')

/-- An event without the attributes that the format does not have. -/
def dropUnknown : XEvent → XEvent
  | .start n a ns => .start n (a.filter fun p => (attributesOf n.localName).contains p.1) ns
  | e => e

/-- The same event, except that the attributes, which have different names, come in another order. -/
inductive Permuted : XEvent → XEvent → Prop
  | start {n : XName} {a a' : List (String × String)} {ns : Option String} :
      a.Perm a' → (a.map (·.1)).Nodup → Permuted (.start n a ns) (.start n a' ns)
  | same {e : XEvent} : Permuted e e

/-- The same events, except for the order of the attributes. -/
inductive PermutedEvents : List XEvent → List XEvent → Prop
  | nil : PermutedEvents [] []
  | cons {e e' : XEvent} {l l' : List XEvent} :
      Permuted e e' → PermutedEvents l l' → PermutedEvents (e :: l) (e' :: l')

/-- All elements of the document are in the namespace and have no prefix. -/
def Unprefixed (ns : String) (l : List XEvent) : Prop :=
  (∀ n a d, XEvent.start n a d ∈ l → n.ns = some ns ∧ n.pre = none) ∧
    ∀ n, XEvent.stop n ∈ l → n.ns = some ns ∧ n.pre = none

/-- An event of a document that has a prefix for its namespace in all tags, while the namespace remains
the default. -/
def withPrefix (p : String) : XEvent → XEvent
  | .start n a ns => .start { n with pre := some p } a ns
  | .stop n => .stop { n with pre := some p }
  | e => e

/-- An event of a document that has a prefix for its namespace in all tags and no default namespace. -/
def withPrefixOnly (p : String) : XEvent → XEvent
  | .start n a _ => .start { n with pre := some p } a none
  | .stop n => .stop { n with pre := some p }
  | e => e

end Cdx.Spec
