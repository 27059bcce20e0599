import Verif.Spec.Xml

/-!
# Specification: readers that do not go beyond their element
-/

namespace Cdx

/-- What a signature may contain: elements only, no text of its own. -/
def BareContent (tag : String) (content : List XNode) : Prop :=
  tag = "signature" → ∀ x ∈ content, x.isElem = true

mutual
/-- The signatures in a node have no text of their own. -/
def XNode.Bare : XNode → Prop
  | .elem n _ _ children => BareContent n.localName children ∧ XNode.BareAll children
  | .chars _ => True
  | .cdata _ => True
  | .other => True

/-- The signatures in some content have no text of their own. -/
def XNode.BareAll : List XNode → Prop
  | [] => True
  | n :: l => n.Bare ∧ XNode.BareAll l
end

/-- A reader of elements with the given tag is bounded: when it succeeds, it has consumed at least one
event, and none behind the end tag of the element, whatever is in the element and behind it; and with
anything else behind what it consumed, it returns the same and leaves that. -/
def BoundedAt {α : Type} (tag : String) (r : XElem α) : Prop :=
  ∀ name attrs content rest x left, name.localName = tag → BareContent tag content →
    XNode.BareAll content →
    r name attrs (XNode.eventsAll content ++ .stop name :: rest) = .ok (x, left) →
    ∃ used unread, used ≠ [] ∧ used ++ unread = XNode.eventsAll content ++ [.stop name] ∧
      left = unread ++ rest ∧ ∀ other, r name attrs (used ++ other) = .ok (x, other)

end Cdx
