import Verif.Spec.Presentation

/-!
# What is left of an SBOM when an option is disregarded
-/

namespace Cdx.Spec

/-- A component without what it says about licenses. -/
def withoutLicenses (c : Component) : Component := { c with licenses := none }

/-- An SBOM without what its components and the component it is about say about licenses. -/
def unlicensed (b : Bom) : Bom :=
  { b with components := b.components.map (List.map withoutLicenses)
           metadata := b.metadata.map fun m => { m with component := m.component.map withoutLicenses } }

/-- What an SBOM says about which package, but for licenses. -/
def unlicensedContent (s : GeneratedSbom) : Bom × FPath × String × TargetKinds :=
  (unlicensed s.bom, s.manifestPath, s.packageName, s.targetKinds)

end Cdx.Spec
