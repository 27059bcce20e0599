import Verif.Spec.Xml
import Verif.Model.Format.Component
import Verif.Spec.Format.Evidence

set_option linter.unusedVariables false

/-!
# What the file formats keep: components
-/

namespace Cdx

variable [F32Format]

variable [ReadLimit]

mutual

/-- What version `v` of the format has of an optional list of `Component`s. -/
def Component.atOpt (v : SpecVersion) : Option (List Component) → Option (List Component)
  | none => none
  | some l => some (Component.atAll v l)
termination_by structural l => l

/-- What version `v` of the format has of a list of `Component`s. -/
def Component.atAll (v : SpecVersion) : List Component → List Component
  | [] => []
  | x :: l => Component.at v x :: Component.atAll v l
termination_by structural l => l

/-- What version `v` of the format has of an optional `Pedigree`. -/
def Pedigree.atOpt (v : SpecVersion) : Option Pedigree → Option Pedigree
  | none => none
  | some x => some (Pedigree.at v x)
termination_by structural x => x

/-- What version `v` of the format has of a `Pedigree`. -/
def Pedigree.at (v : SpecVersion) : Pedigree → Pedigree
  | ⟨ancestors, descendants, variants, commits, patches, notes⟩ =>
    { ancestors := Component.atOpt v ancestors,
      descendants := Component.atOpt v descendants,
      variants := Component.atOpt v variants,
      commits := commits,
      patches := patches,
      notes := notes }
termination_by structural x => x

/-- What version `v` of the format has of a `Component`. -/
def Component.at (v : SpecVersion) : Component → Component
  | ⟨componentType, mimeType, bomRef, supplier, author, publisher, group, name, version, description, scope, hashes, licenses, copyright, cpe, purl, swid, modified, pedigree, externalReferences, properties, components, evidence, signature, modelCard, data⟩ =>
    { componentType := componentType,
      mimeType := mimeType,
      bomRef := bomRef,
      supplier := supplier,
      author := author,
      publisher := publisher,
      group := group,
      name := name,
      version := version,
      description := description,
      scope := scope,
      hashes := hashes,
      licenses := licenses.map (Licenses.at v),
      copyright := copyright,
      cpe := cpe,
      purl := purl,
      swid := swid,
      modified := modified,
      pedigree := Pedigree.atOpt v pedigree,
      externalReferences := externalReferences,
      properties := properties,
      components := Component.atOpt v components,
      evidence := evidence.map (ComponentEvidence.at v),
      signature := since14 v signature none,
      modelCard := since15 v modelCard none,
      data := since15 v data none }
termination_by structural x => x

end

/-- `Pedigree`s that JSON keeps: enumeration values are read back from their names, numbers are in
range, nested values satisfy `sub`. -/
structure Pedigree.JsonOkWith (sub : Component → Prop) (v : SpecVersion) (x : Pedigree) : Prop where
  ancestors : ∀ y, x.ancestors = some y → ∀ z ∈ y, sub z
  descendants : ∀ y, x.descendants = some y → ∀ z ∈ y, sub z
  variants : ∀ y, x.variants = some y → ∀ z ∈ y, sub z
  patches : ∀ y, x.patches = some y → ∀ z ∈ y, Patch.JsonOk z

/-- `Pedigree`s that XML keeps: texts do not begin or end with white space, enumeration values are
read back from their names, numbers are in range, lists of repeated elements are not empty, nested values satisfy `sub`. -/
structure Pedigree.XmlOkWith (sub : Component → Prop) (v : SpecVersion) (x : Pedigree) : Prop where
  ancestors : ∀ y, x.ancestors = some y → ∀ z ∈ y, sub z
  descendants : ∀ y, x.descendants = some y → ∀ z ∈ y, sub z
  variants : ∀ y, x.variants = some y → ∀ z ∈ y, sub z
  commits : ∀ y, x.commits = some y → ∀ z ∈ y, Commit.XmlOk z
  patches : ∀ y, x.patches = some y → ∀ z ∈ y, Patch.XmlOk z
  notes : ∀ y, x.notes = some y → Trimmed y

/-- `Component`s that JSON keeps: enumeration values are read back from their names, numbers are in
range, nested values satisfy `sub`. -/
structure Component.JsonOkWith (sub : Component → Prop) (v : SpecVersion) (x : Component) : Prop where
  version : v = .v1_3 → x.version ≠ none
  componentType : Stable Classification.display Classification.new x.componentType
  scope : ∀ y, x.scope = some y → Stable Scope.display Scope.new y
  hashes : ∀ y, x.hashes = some y → ∀ z ∈ y, Hash.JsonOk z
  licenses : ∀ y, x.licenses = some y → Licenses.JsonOk v y
  swid : ∀ y, x.swid = some y → Swid.JsonOk y
  pedigree : ∀ y, x.pedigree = some y → Pedigree.JsonOkWith sub v y
  externalReferences : ∀ y, x.externalReferences = some y → ∀ z ∈ y, ExternalReference.JsonOk z
  components : ∀ y, x.components = some y → ∀ z ∈ y, sub z
  evidence : ∀ y, x.evidence = some y → ComponentEvidence.JsonOk v y
  signature : v ≠ .v1_3 → ∀ y, x.signature = some y → Signature.JsonOk y
  modelCard : v = .v1_5 → ∀ y, x.modelCard = some y → ModelCard.JsonOk y
  data : v = .v1_5 → ∀ y, x.data = some y → ComponentData.JsonOk y

/-- `Component`s that XML keeps: texts do not begin or end with white space, enumeration values are
read back from their names, numbers are in range, lists of repeated elements are not empty, nested values satisfy `sub`. -/
structure Component.XmlOkWith (sub : Component → Prop) (v : SpecVersion) (x : Component) : Prop where
  componentType : Stable Classification.display Classification.new x.componentType
  supplier : ∀ y, x.supplier = some y → OrganizationalEntity.XmlOk y ∧ OrganizationalEntity.willWrite y = true
  author : ∀ y, x.author = some y → Trimmed y
  publisher : ∀ y, x.publisher = some y → Trimmed y
  group : ∀ y, x.group = some y → Trimmed y
  name : Trimmed x.name
  version_some : v = .v1_3 → x.version ≠ none
  version : ∀ y, x.version = some y → Trimmed y
  description : ∀ y, x.description = some y → Trimmed y
  scope : ∀ y, x.scope = some y → Stable Scope.display Scope.new y ∧ Trimmed (Scope.display y)
  hashes : ∀ y, x.hashes = some y → ∀ z ∈ y, Hash.XmlOk z
  licenses : ∀ y, x.licenses = some y → Licenses.XmlOk v y
  copyright : ∀ y, x.copyright = some y → Trimmed y
  cpe : ∀ y, x.cpe = some y → Trimmed y
  purl : ∀ y, x.purl = some y → Trimmed y
  swid : ∀ y, x.swid = some y → Swid.XmlOk y
  pedigree : ∀ y, x.pedigree = some y → Pedigree.XmlOkWith sub v y
  externalReferences : ∀ y, x.externalReferences = some y → ∀ z ∈ y, ExternalReference.XmlOk z
  properties : ∀ y, x.properties = some y → ∀ z ∈ y, Property.XmlOk z
  components : ∀ y, x.components = some y → ∀ z ∈ y, sub z
  evidence : ∀ y, x.evidence = some y → ComponentEvidence.XmlOk v y ∧ ComponentEvidence.willWrite y = true
  signature : v ≠ .v1_3 → ∀ y, x.signature = some y → Signature.XmlOk y
  modelCard : v = .v1_5 → ∀ y, x.modelCard = some y → ModelCard.XmlOk y
  data : v = .v1_5 → ∀ y, x.data = some y → ComponentData.XmlOk y

/-- `Component`s that JSON keeps, with at most `n` levels of nested `Component`s. -/
def Component.JsonOkN (v : SpecVersion) : Nat → Component → Prop
  | 0, _ => False
  | n + 1, x => Component.JsonOkWith (Component.JsonOkN v n) v x

/-- `Component`s that JSON keeps: their parts are kept and they are not nested too deep to be read. -/
def Component.JsonOk (v : SpecVersion) (x : Component) : Prop := Component.JsonOkN v ReadLimit.limit x

/-- `Component`s that XML keeps, with at most `n` levels of nested `Component`s. -/
def Component.XmlOkN (v : SpecVersion) : Nat → Component → Prop
  | 0, _ => False
  | n + 1, x => Component.XmlOkWith (Component.XmlOkN v n) v x

/-- `Component`s that XML keeps: their parts are kept and they are not nested too deep to be read. -/
def Component.XmlOk (v : SpecVersion) (x : Component) : Prop := Component.XmlOkN v ReadLimit.limit x

end Cdx
