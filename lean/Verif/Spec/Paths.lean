import Verif.Spec.Bom

/-!
# Paths in the dependency section of an SBOM (C106)
-/

namespace Cdx.Spec

/-- The dependency section of the document leads from one reference to another, in any number of steps. -/
inductive LeadsTo (b : Bom) (p : String) : String → Prop
  | here : LeadsTo b p p
  | step {q r d} : LeadsTo b p q → d ∈ dependencyEntries b → d.dependencyRef = q → r ∈ d.dependencies → LeadsTo b p r

/-- The reference of the component that the document is about, or of a component in its list. -/
def Described (b : Bom) (r : String) : Prop := topRef b = some r ∨ some r ∈ componentRefs b

end Cdx.Spec
