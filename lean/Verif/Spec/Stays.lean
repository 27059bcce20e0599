import Verif.Spec.Elements

/-!
# Specification: references to other parts of a BOM
-/

namespace Cdx.Spec

/-- A dependency or a composition of the BOM refers to `r`. -/
def Mentions (b : Bom) (r : String) : Prop :=
  (∃ d ∈ b.dependencies.getD [], r = d.dependencyRef ∨ r ∈ d.dependencies) ∨
  ∃ c ∈ b.compositions.getD [], r ∈ c.assemblies.getD [] ∨ r ∈ c.dependencies.getD []

end Cdx.Spec
