import Verif.Model.Types

/-!
# Specification: the references of a BOM

The `bom-ref`s of the metadata component, the components and services with everything nested in
them, and the vulnerabilities, in document order.
-/

namespace Cdx

mutual

/-- The `bom-ref` of a component and of the components nested in it. -/
def Component.refs : Component → List String
  | ⟨_, _, bomRef, _, _, _, _, _, _, _, _, _, _, _, _, _, _, _, _, _, _, components, _, _, _, _⟩ =>
    bomRef.toList ++ Component.refsOption components
termination_by structural c => c

/-- The `bom-ref`s of an optional list of components. -/
def Component.refsOption : Option (List Component) → List String
  | none => []
  | some cs => Component.refsList cs
termination_by structural cs => cs

/-- The `bom-ref`s of a list of components. -/
def Component.refsList : List Component → List String
  | [] => []
  | c :: cs => c.refs ++ Component.refsList cs
termination_by structural cs => cs

end

mutual

/-- The `bom-ref` of a service and of the services nested in it. -/
def Service.refs : Service → List String
  | ⟨bomRef, _, _, _, _, _, _, _, _, _, _, _, _, services, _, _⟩ =>
    bomRef.toList ++ Service.refsOption services
termination_by structural s => s

/-- The `bom-ref`s of an optional list of services. -/
def Service.refsOption : Option (List Service) → List String
  | none => []
  | some ss => Service.refsList ss
termination_by structural ss => ss

/-- The `bom-ref`s of a list of services. -/
def Service.refsList : List Service → List String
  | [] => []
  | s :: ss => s.refs ++ Service.refsList ss
termination_by structural ss => ss

end

/-- The `bom-ref`s of a BOM. -/
def Bom.refs (b : Bom) : List String :=
  (b.metadata.bind (·.component)).toList.flatMap Component.refs ++
  Component.refsOption b.components ++ Service.refsOption b.services ++
  (b.vulnerabilities.getD []).flatMap (·.bomRef.toList)

end Cdx
