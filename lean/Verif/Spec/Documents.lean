import Verif.Model.Types

/-!
# What a document contains

Independently of the readers and writers: which components are in a bill of materials.
-/

namespace Cdx

/-- The components in the parts that version 1.3 of the format has: the one that the metadata
describes, those in the list of components, and, in any of these, the components below it and in
its pedigree. -/
inductive Bom.Contains (b : Bom) : Component → Prop
  | metadata {m : Metadata} {c : Component} : b.metadata = some m → m.component = some c → b.Contains c
  | components {l : List Component} {c : Component} : b.components = some l → c ∈ l → b.Contains c
  | nested {x c : Component} {l : List Component} : b.Contains x → x.components = some l → c ∈ l →
      b.Contains c
  | ancestor {x c : Component} {p : Pedigree} {l : List Component} : b.Contains x →
      x.pedigree = some p → p.ancestors = some l → c ∈ l → b.Contains c
  | descendant {x c : Component} {p : Pedigree} {l : List Component} : b.Contains x →
      x.pedigree = some p → p.descendants = some l → c ∈ l → b.Contains c
  | variant {x c : Component} {p : Pedigree} {l : List Component} : b.Contains x →
      x.pedigree = some p → p.variants = some l → c ∈ l → b.Contains c

end Cdx
