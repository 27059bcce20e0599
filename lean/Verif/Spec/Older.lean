import Verif.Spec.Format.Bom

/-!
# Specification: documents of which the reader of an earlier version can make something

Versions before 1.5 know tools only as a list and data of a service only as classifications, and version
1.3 asks for the version of every component. Everything else that is new in a version is a member that
earlier versions do not look at.
-/

namespace Cdx.Spec

/-- A component that the reader of version `v` accepts, with all components within it. -/
inductive OldComponent (v : SpecVersion) : Component → Prop
  | mk {x : Component} (version : v = .v1_3 → x.version ≠ none)
    (ancestors : ∀ p, x.pedigree = some p → ∀ l, p.ancestors = some l → ∀ y ∈ l, OldComponent v y)
    (descendants : ∀ p, x.pedigree = some p → ∀ l, p.descendants = some l → ∀ y ∈ l, OldComponent v y)
    (variants : ∀ p, x.pedigree = some p → ∀ l, p.variants = some l → ∀ y ∈ l, OldComponent v y)
    (components : ∀ l, x.components = some l → ∀ y ∈ l, OldComponent v y) : OldComponent v x

/-- A service that readers of versions before 1.5 accept, with all services within it. -/
inductive OldService : Service → Prop
  | mk {x : Service} (data : ∀ d, x.data = some d → ∃ l, d = .classification l)
    (services : ∀ l, x.services = some l → ∀ y ∈ l, OldService y) : OldService x

/-- Tools that readers of versions before 1.5 accept. -/
def OldTools (t : Tools) : Prop := ∃ l, t = .list l

/-- Metadata that the reader of version `v` accepts. -/
structure OldMetadata (v : SpecVersion) (x : Metadata) : Prop where
  tools : ∀ y, x.tools = some y → OldTools y
  component : ∀ y, x.component = some y → OldComponent v y

/-- A vulnerability that the reader of version 1.4 accepts. -/
structure OldVulnerability (x : Vulnerability) : Prop where
  tools : ∀ y, x.tools = some y → OldTools y

/-- A BOM that the reader of version `v`, before 1.5, accepts. Version 1.3 does not look at
vulnerabilities. -/
structure OldBom (v : SpecVersion) (x : Bom) : Prop where
  metadata : ∀ y, x.metadata = some y → OldMetadata v y
  components : ∀ l, x.components = some l → ∀ y ∈ l, OldComponent v y
  services : ∀ l, x.services = some l → ∀ y ∈ l, OldService y
  vulnerabilities : v ≠ .v1_3 → ∀ l, x.vulnerabilities = some l → ∀ y ∈ l, OldVulnerability y

/-- The same document with another version in its member `specVersion`. -/
def relabel (v : String) (o : List (String × Json)) : List (String × Json) :=
  o.map fun p => if p.1 = "specVersion" then (p.1, .str v) else p

end Cdx.Spec
