import Verif.Spec.XmlSchema

/-!
# Documents that differ in the order of child elements

The format prescribes the order of the child elements of an element. This file says when two
documents differ in nothing but this order.
-/

namespace Cdx.Spec

/-- Two names belong to no common part of a sequence of child elements: neither are they the same name,
nor are they the names of a list with different elements or of a choice. -/
def Apart (v : SpecVersion) (t : ElementType) (a b : String) : Prop :=
  ∀ p ∈ (t.choices v).flatten, ¬ (a ∈ p.items.map (·.1) ∧ b ∈ p.items.map (·.1))

/-- The content of an element of the given type becomes another one because two neighbouring child
elements whose names are apart change places, there or further inside. -/
inductive Exchanged (v : SpecVersion) : ElementType → List XNode → List XNode → Prop
  | here {t before after n n' attrs attrs' ns ns' content content'} :
      Apart v t n.localName n'.localName →
      Exchanged v t (before ++ .elem n attrs ns content :: .elem n' attrs' ns' content' :: after)
        (before ++ .elem n' attrs' ns' content' :: .elem n attrs ns content :: after)
  | inside {t before after n attrs ns content content' t'} : t.child v n.localName = some t' →
      Exchanged v t' content content' →
      Exchanged v t (before ++ .elem n attrs ns content :: after)
        (before ++ .elem n attrs ns content' :: after)

/-- Two elements of a type differ by any number of such exchanges. -/
inductive SameButOrder (v : SpecVersion) (t : ElementType) : XNode → XNode → Prop
  | refl {x} : SameButOrder v t x x
  | step {x n attrs ns content content'} : SameButOrder v t x (.elem n attrs ns content) →
      Exchanged v t content content' → SameButOrder v t x (.elem n attrs ns content')

end Cdx.Spec
