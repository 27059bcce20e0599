import Verif.Lemmas.Conforming.V1_3
import Verif.Lemmas.Conforming.V1_4
import Verif.Lemmas.Conforming.V1_5
import Verif.Lemmas.Written

/-!
# Lemmas: what is written for generated documents follows the schema

Generated, once for each version.
-/

set_option linter.unusedSectionVars false
set_option linter.unusedSimpArgs false
set_option linter.unusedVariables false
set_option synthInstance.maxSize 100000
set_option synthInstance.maxHeartbeats 400000

namespace Cdx.Conforming

open Spec Cdx

namespace Generated1_3

section
variable [F32Format]

instance (tag : String) (x : AttachedText) : Elem False .v1_3 tag .attachedText (AttachedText.writeXml tag x) := by
  unfold AttachedText.writeXml; infer_instance

instance (x : Property) : Elem False .v1_3 "property" .property (Property.writeXml x) := by
  unfold Property.writeXml; infer_instance

instance (x : Hash) : Elem False .v1_3 "hash" .hash (Hash.writeXml x) := by
  unfold Hash.writeXml; infer_instance

instance (x : ExternalReference) : Elem False .v1_3 "reference" .externalReference (ExternalReference.writeXml x) := by
  unfold ExternalReference.writeXml; infer_instance

instance (x : Dependency) : Elem False .v1_3 "dependency" .dependency (Dependency.writeXml x) := by
  unfold Dependency.writeXml; infer_instance

instance (x : Tool) : Elem False .v1_3 "tool" .tool (Tool.writeXml .v1_3 x) := by
  unfold Tool.writeXml; infer_instance

instance (x : LicenseIdentifier) : One False .v1_3 [("id", .licenseId), ("name", .licenseName)] (LicenseIdentifier.writeXml x) := by
  cases x <;> simp only [LicenseIdentifier.writeXml] <;> infer_instance

instance (x : License) : Elem False .v1_3 "license" .license (License.writeXml .v1_3 x) := by
  unfold License.writeXml; infer_instance

theorem licenses {z : LicenseChoice} (h : GenLicense z) :
    Elem False .v1_3 "licenses" .licenses (Licenses.writeXml .v1_3 [z]) := by
  rcases h with ⟨e, rfl⟩ | ⟨n, rfl⟩ | ⟨n, c, rfl⟩
  · haveI : Kids .v1_3 .licenses [mayHave "expression" .expression] := ⟨_, rfl, List.mem_cons_of_mem _ (List.mem_singleton.mpr rfl)⟩
    show Elem False .v1_3 "licenses" .licenses (writeElem "licenses" [] (SpdxExpression.writeXml _ ++ []))
    rw [List.append_nil]
    unfold SpdxExpression.writeXml
    infer_instance
  all_goals
    haveI : Kids .v1_3 .licenses [anyNumber "license" .license] := ⟨_, rfl, List.mem_cons_self⟩
    show Elem False .v1_3 "licenses" .licenses (writeElem "licenses" [] (License.writeXml .v1_3 _ ++ []))
    infer_instance

theorem author {x : OrganizationalContact} (h : x.bomRef = none) :
    Elem False .v1_3 "author" .organizationalContact (OrganizationalContact.writeXml "author" x) := by
  unfold OrganizationalContact.writeXml
  rw [h]
  infer_instance

theorem component {x : Component} (h : GenComponent x)
    (hc : ∀ l, x.components = some l → ∀ z ∈ l, Elem False .v1_3 "component" .component (Component.writeXml .v1_3 z)) :
    Elem False .v1_3 "component" .component (Component.writeXml .v1_3 x) := by
  obtain ⟨componentType, mimeType, bomRef, supplier, author, publisher, group, name, version, description, scope, hashes, licenses, copyright, cpe, purl, swid, modified, pedigree, externalReferences, properties, components, evidence, signature, modelCard, data⟩ := x
  have h1 := h.licenses
  have h2 := h.single
  have h3 := h.version
  obtain ⟨-, -, -, -, -, -, rfl, rfl, rfl, rfl, rfl, rfl, rfl, rfl, rfl, rfl, rfl, rfl, -⟩ := h
  have hl : Maybe False .v1_3 [("licenses", .licenses)] (writeOpt (Licenses.writeXml .v1_3) licenses) :=
    maybe_some fun l e => by
      obtain ⟨z, rfl⟩ := h2 l e
      have := Generated1_3.licenses (h1 _ e z List.mem_cons_self)
      unfold Licenses.writeXml at this ⊢
      infer_instance
  have hs : Maybe False .v1_3 [("components", .components)] (Component.writeXmlOpt .v1_3 "components" components) := by
    cases components with
    | none => simp only [Component.writeXmlOpt]; infer_instance
    | some l =>
      simp only [Component.writeXmlOpt, component_writeAll]
      have : Any False .v1_3 [("component", .component)] (l.flatMap (Component.writeXml .v1_3)) := any_mem fun z hz => by
        have := hc l rfl z hz
        infer_instance
      infer_instance
  obtain ⟨w, rfl⟩ : ∃ w, version = some w := by
    cases version with
    | none => exact absurd rfl h3
    | some w => exact ⟨w, rfl⟩
  simp only [Component.writeXml, Pedigree.writeXmlOpt, since14, since15, writeOpt_none, writeOpt_some, List.append_nil, List.nil_append]
  infer_instance

theorem document {b : Bom} (h : GenBom b) : ∃ root, IsRoot .v1_3 root ∧ written root = Bom.writeXml .v1_3 b ∧
    Throughout (Meets False .v1_3) .v1_3 .bom root := by
  obtain ⟨m, hm, hg⟩ := h.metadata
  obtain ⟨l, hl, hc⟩ := h.components
  have flat : ∀ z : Component, GenComponent z ∧ z.components = none →
      Elem False .v1_3 "component" .component (Component.writeXml .v1_3 z) := fun z hz =>
    component hz.1 (fun y hy => by rw [hz.2] at hy; cases hy)
  have hmd : Elem False .v1_3 "metadata" .metadata (Metadata.writeXml .v1_3 m) := by
    obtain ⟨a, b, c, ht⟩ := hg.tools
    obtain ⟨top, hm, hgt, hsub⟩ := hg.component
    have hcomp : Maybe False .v1_3 [("component", .component)] (writeOpt (Component.writeXml .v1_3) m.component) :=
      maybe_some fun x e => by
        rw [hm] at e; cases e
        have := component hgt (fun y hy z hz => flat z (hsub y hy z hz))
        infer_instance
    have hau : Maybe False .v1_3 [("authors", .authors)]
        (writeOpt (writeList "authors" (fun c => if OrganizationalContact.willWrite c then OrganizationalContact.writeXml "author" c else [])) m.authors) :=
      maybe_some fun x e => by
        have : Any False .v1_3 [("author", .organizationalContact)]
            (x.flatMap (fun c => if OrganizationalContact.willWrite c then OrganizationalContact.writeXml "author" c else [])) :=
          any_mem fun z hz => by
            have := author (hg.authors x e z hz)
            infer_instance
        infer_instance
    have htl : Maybe False .v1_3 [("tools", .tools)] (writeOpt (Tools.writeXml .v1_3) (some (.list [Tool.new a b c]))) := by
      show Maybe False .v1_3 [("tools", .tools)] (writeList "tools" (Tool.writeXml .v1_3) [Tool.new a b c])
      haveI : Kids .v1_3 .tools [anyNumber "tool" .tool] := ⟨_, rfl, List.mem_cons_self⟩
      infer_instance
    unfold Metadata.writeXml
    rw [ht, hg.manufacture, hg.supplier, hg.licenses, hg.lifecycles]
    simp only [since14, since15, writeOpt_none, List.append_nil, List.nil_append]
    infer_instance
  have hcs : Maybe False .v1_3 [("components", .components)] (writeOpt (writeList "components" (Component.writeXml .v1_3)) b.components) :=
    maybe_some fun x e => by
      rw [hl] at e; cases e
      have : Any False .v1_3 [("component", .component)] (l.flatMap (Component.writeXml .v1_3)) := any_mem fun z hz => by
        have := flat z (hc z hz)
        infer_instance
      infer_instance
  have hmd' : Maybe False .v1_3 [("metadata", .metadata)] (writeOpt (Metadata.writeXml .v1_3) b.metadata) :=
    maybe_some fun x e => by rw [hm] at e; cases e; infer_instance
  have : Elem False .v1_3 "bom" .bom (Bom.writeXml .v1_3 b) := by
    unfold Bom.writeXml
    rw [h.services, h.externalReferences, h.compositions, h.properties, h.vulnerabilities, h.formulation]
    simp only [since14, since15, writeOpt_none, List.append_nil, List.nil_append]
    infer_instance
  exact this.root

end

end Generated1_3

namespace Generated1_4

section
variable [F32Format]

instance (tag : String) (x : AttachedText) : Elem False .v1_4 tag .attachedText (AttachedText.writeXml tag x) := by
  unfold AttachedText.writeXml; infer_instance

instance (x : Property) : Elem False .v1_4 "property" .property (Property.writeXml x) := by
  unfold Property.writeXml; infer_instance

instance (x : Hash) : Elem False .v1_4 "hash" .hash (Hash.writeXml x) := by
  unfold Hash.writeXml; infer_instance

instance (x : ExternalReference) : Elem False .v1_4 "reference" .externalReference (ExternalReference.writeXml x) := by
  unfold ExternalReference.writeXml; infer_instance

instance (x : Dependency) : Elem False .v1_4 "dependency" .dependency (Dependency.writeXml x) := by
  unfold Dependency.writeXml; infer_instance

instance (x : Tool) : Elem False .v1_4 "tool" .tool (Tool.writeXml .v1_4 x) := by
  unfold Tool.writeXml; infer_instance

instance (x : LicenseIdentifier) : One False .v1_4 [("id", .licenseId), ("name", .licenseName)] (LicenseIdentifier.writeXml x) := by
  cases x <;> simp only [LicenseIdentifier.writeXml] <;> infer_instance

instance (x : License) : Elem False .v1_4 "license" .license (License.writeXml .v1_4 x) := by
  unfold License.writeXml; infer_instance

theorem licenses {z : LicenseChoice} (h : GenLicense z) :
    Elem False .v1_4 "licenses" .licenses (Licenses.writeXml .v1_4 [z]) := by
  rcases h with ⟨e, rfl⟩ | ⟨n, rfl⟩ | ⟨n, c, rfl⟩
  · haveI : Kids .v1_4 .licenses [mayHave "expression" .expression] := ⟨_, rfl, List.mem_cons_of_mem _ (List.mem_singleton.mpr rfl)⟩
    show Elem False .v1_4 "licenses" .licenses (writeElem "licenses" [] (SpdxExpression.writeXml _ ++ []))
    rw [List.append_nil]
    unfold SpdxExpression.writeXml
    infer_instance
  all_goals
    haveI : Kids .v1_4 .licenses [anyNumber "license" .license] := ⟨_, rfl, List.mem_cons_self⟩
    show Elem False .v1_4 "licenses" .licenses (writeElem "licenses" [] (License.writeXml .v1_4 _ ++ []))
    infer_instance

theorem author {x : OrganizationalContact} (h : x.bomRef = none) :
    Elem False .v1_4 "author" .organizationalContact (OrganizationalContact.writeXml "author" x) := by
  unfold OrganizationalContact.writeXml
  rw [h]
  infer_instance

theorem component {x : Component} (h : GenComponent x)
    (hc : ∀ l, x.components = some l → ∀ z ∈ l, Elem False .v1_4 "component" .component (Component.writeXml .v1_4 z)) :
    Elem False .v1_4 "component" .component (Component.writeXml .v1_4 x) := by
  obtain ⟨componentType, mimeType, bomRef, supplier, author, publisher, group, name, version, description, scope, hashes, licenses, copyright, cpe, purl, swid, modified, pedigree, externalReferences, properties, components, evidence, signature, modelCard, data⟩ := x
  have h1 := h.licenses
  have h2 := h.single
  have h3 := h.version
  obtain ⟨-, -, -, -, -, -, rfl, rfl, rfl, rfl, rfl, rfl, rfl, rfl, rfl, rfl, rfl, rfl, -⟩ := h
  have hl : Maybe False .v1_4 [("licenses", .licenses)] (writeOpt (Licenses.writeXml .v1_4) licenses) :=
    maybe_some fun l e => by
      obtain ⟨z, rfl⟩ := h2 l e
      have := Generated1_4.licenses (h1 _ e z List.mem_cons_self)
      unfold Licenses.writeXml at this ⊢
      infer_instance
  have hs : Maybe False .v1_4 [("components", .components)] (Component.writeXmlOpt .v1_4 "components" components) := by
    cases components with
    | none => simp only [Component.writeXmlOpt]; infer_instance
    | some l =>
      simp only [Component.writeXmlOpt, component_writeAll]
      have : Any False .v1_4 [("component", .component)] (l.flatMap (Component.writeXml .v1_4)) := any_mem fun z hz => by
        have := hc l rfl z hz
        infer_instance
      infer_instance
  obtain ⟨w, rfl⟩ : ∃ w, version = some w := by
    cases version with
    | none => exact absurd rfl h3
    | some w => exact ⟨w, rfl⟩
  simp only [Component.writeXml, Pedigree.writeXmlOpt, since14, since15, writeOpt_none, writeOpt_some, List.append_nil, List.nil_append]
  infer_instance

theorem document {b : Bom} (h : GenBom b) : ∃ root, IsRoot .v1_4 root ∧ written root = Bom.writeXml .v1_4 b ∧
    Throughout (Meets False .v1_4) .v1_4 .bom root := by
  obtain ⟨m, hm, hg⟩ := h.metadata
  obtain ⟨l, hl, hc⟩ := h.components
  have flat : ∀ z : Component, GenComponent z ∧ z.components = none →
      Elem False .v1_4 "component" .component (Component.writeXml .v1_4 z) := fun z hz =>
    component hz.1 (fun y hy => by rw [hz.2] at hy; cases hy)
  have hmd : Elem False .v1_4 "metadata" .metadata (Metadata.writeXml .v1_4 m) := by
    obtain ⟨a, b, c, ht⟩ := hg.tools
    obtain ⟨top, hm, hgt, hsub⟩ := hg.component
    have hcomp : Maybe False .v1_4 [("component", .component)] (writeOpt (Component.writeXml .v1_4) m.component) :=
      maybe_some fun x e => by
        rw [hm] at e; cases e
        have := component hgt (fun y hy z hz => flat z (hsub y hy z hz))
        infer_instance
    have hau : Maybe False .v1_4 [("authors", .authors)]
        (writeOpt (writeList "authors" (fun c => if OrganizationalContact.willWrite c then OrganizationalContact.writeXml "author" c else [])) m.authors) :=
      maybe_some fun x e => by
        have : Any False .v1_4 [("author", .organizationalContact)]
            (x.flatMap (fun c => if OrganizationalContact.willWrite c then OrganizationalContact.writeXml "author" c else [])) :=
          any_mem fun z hz => by
            have := author (hg.authors x e z hz)
            infer_instance
        infer_instance
    have htl : Maybe False .v1_4 [("tools", .tools)] (writeOpt (Tools.writeXml .v1_4) (some (.list [Tool.new a b c]))) := by
      show Maybe False .v1_4 [("tools", .tools)] (writeList "tools" (Tool.writeXml .v1_4) [Tool.new a b c])
      haveI : Kids .v1_4 .tools [anyNumber "tool" .tool] := ⟨_, rfl, List.mem_cons_self⟩
      infer_instance
    unfold Metadata.writeXml
    rw [ht, hg.manufacture, hg.supplier, hg.licenses, hg.lifecycles]
    simp only [since14, since15, writeOpt_none, List.append_nil, List.nil_append]
    infer_instance
  have hcs : Maybe False .v1_4 [("components", .components)] (writeOpt (writeList "components" (Component.writeXml .v1_4)) b.components) :=
    maybe_some fun x e => by
      rw [hl] at e; cases e
      have : Any False .v1_4 [("component", .component)] (l.flatMap (Component.writeXml .v1_4)) := any_mem fun z hz => by
        have := flat z (hc z hz)
        infer_instance
      infer_instance
  have hmd' : Maybe False .v1_4 [("metadata", .metadata)] (writeOpt (Metadata.writeXml .v1_4) b.metadata) :=
    maybe_some fun x e => by rw [hm] at e; cases e; infer_instance
  have : Elem False .v1_4 "bom" .bom (Bom.writeXml .v1_4 b) := by
    unfold Bom.writeXml
    rw [h.services, h.externalReferences, h.compositions, h.properties, h.vulnerabilities, h.formulation]
    simp only [since14, since15, writeOpt_none, List.append_nil, List.nil_append]
    infer_instance
  exact this.root

end

end Generated1_4

namespace Generated1_5

section
variable [F32Format]

instance (tag : String) (x : AttachedText) : Elem False .v1_5 tag .attachedText (AttachedText.writeXml tag x) := by
  unfold AttachedText.writeXml; infer_instance

instance (x : Property) : Elem False .v1_5 "property" .property (Property.writeXml x) := by
  unfold Property.writeXml; infer_instance

instance (x : Hash) : Elem False .v1_5 "hash" .hash (Hash.writeXml x) := by
  unfold Hash.writeXml; infer_instance

instance (x : ExternalReference) : Elem False .v1_5 "reference" .externalReference (ExternalReference.writeXml x) := by
  unfold ExternalReference.writeXml; infer_instance

instance (x : Dependency) : Elem False .v1_5 "dependency" .dependency (Dependency.writeXml x) := by
  unfold Dependency.writeXml; infer_instance

instance (x : Tool) : Elem False .v1_5 "tool" .tool (Tool.writeXml .v1_5 x) := by
  unfold Tool.writeXml; infer_instance

instance (x : LicenseIdentifier) : One False .v1_5 [("id", .licenseId), ("name", .licenseName)] (LicenseIdentifier.writeXml x) := by
  cases x <;> simp only [LicenseIdentifier.writeXml] <;> infer_instance

instance (x : License) : Elem False .v1_5 "license" .license (License.writeXml .v1_5 x) := by
  unfold License.writeXml; infer_instance

theorem licenses {z : LicenseChoice} (h : GenLicense z) :
    Elem False .v1_5 "licenses" .licenses (Licenses.writeXml .v1_5 [z]) := by
  rcases h with ⟨e, rfl⟩ | ⟨n, rfl⟩ | ⟨n, c, rfl⟩
  · haveI : Kids .v1_5 .licenses [mayHave "expression" .expression] := ⟨_, rfl, List.mem_cons_of_mem _ (List.mem_singleton.mpr rfl)⟩
    show Elem False .v1_5 "licenses" .licenses (writeElem "licenses" [] (SpdxExpression.writeXml _ ++ []))
    rw [List.append_nil]
    unfold SpdxExpression.writeXml
    infer_instance
  all_goals
    haveI : Kids .v1_5 .licenses [anyNumber "license" .license] := ⟨_, rfl, List.mem_cons_self⟩
    show Elem False .v1_5 "licenses" .licenses (writeElem "licenses" [] (License.writeXml .v1_5 _ ++ []))
    infer_instance

theorem author {x : OrganizationalContact} (h : x.bomRef = none) :
    Elem False .v1_5 "author" .organizationalContact (OrganizationalContact.writeXml "author" x) := by
  unfold OrganizationalContact.writeXml
  rw [h]
  infer_instance

theorem component {x : Component} (h : GenComponent x)
    (hc : ∀ l, x.components = some l → ∀ z ∈ l, Elem False .v1_5 "component" .component (Component.writeXml .v1_5 z)) :
    Elem False .v1_5 "component" .component (Component.writeXml .v1_5 x) := by
  obtain ⟨componentType, mimeType, bomRef, supplier, author, publisher, group, name, version, description, scope, hashes, licenses, copyright, cpe, purl, swid, modified, pedigree, externalReferences, properties, components, evidence, signature, modelCard, data⟩ := x
  have h1 := h.licenses
  have h2 := h.single
  have h3 := h.version
  obtain ⟨-, -, -, -, -, -, rfl, rfl, rfl, rfl, rfl, rfl, rfl, rfl, rfl, rfl, rfl, rfl, -⟩ := h
  have hl : Maybe False .v1_5 [("licenses", .licenses)] (writeOpt (Licenses.writeXml .v1_5) licenses) :=
    maybe_some fun l e => by
      obtain ⟨z, rfl⟩ := h2 l e
      have := Generated1_5.licenses (h1 _ e z List.mem_cons_self)
      unfold Licenses.writeXml at this ⊢
      infer_instance
  have hs : Maybe False .v1_5 [("components", .components)] (Component.writeXmlOpt .v1_5 "components" components) := by
    cases components with
    | none => simp only [Component.writeXmlOpt]; infer_instance
    | some l =>
      simp only [Component.writeXmlOpt, component_writeAll]
      have : Any False .v1_5 [("component", .component)] (l.flatMap (Component.writeXml .v1_5)) := any_mem fun z hz => by
        have := hc l rfl z hz
        infer_instance
      infer_instance
  obtain ⟨w, rfl⟩ : ∃ w, version = some w := by
    cases version with
    | none => exact absurd rfl h3
    | some w => exact ⟨w, rfl⟩
  simp only [Component.writeXml, Pedigree.writeXmlOpt, since14, since15, writeOpt_none, writeOpt_some, List.append_nil, List.nil_append]
  infer_instance

theorem document {b : Bom} (h : GenBom b) : ∃ root, IsRoot .v1_5 root ∧ written root = Bom.writeXml .v1_5 b ∧
    Throughout (Meets False .v1_5) .v1_5 .bom root := by
  obtain ⟨m, hm, hg⟩ := h.metadata
  obtain ⟨l, hl, hc⟩ := h.components
  have flat : ∀ z : Component, GenComponent z ∧ z.components = none →
      Elem False .v1_5 "component" .component (Component.writeXml .v1_5 z) := fun z hz =>
    component hz.1 (fun y hy => by rw [hz.2] at hy; cases hy)
  have hmd : Elem False .v1_5 "metadata" .metadata (Metadata.writeXml .v1_5 m) := by
    obtain ⟨a, b, c, ht⟩ := hg.tools
    obtain ⟨top, hm, hgt, hsub⟩ := hg.component
    have hcomp : Maybe False .v1_5 [("component", .component)] (writeOpt (Component.writeXml .v1_5) m.component) :=
      maybe_some fun x e => by
        rw [hm] at e; cases e
        have := component hgt (fun y hy z hz => flat z (hsub y hy z hz))
        infer_instance
    have hau : Maybe False .v1_5 [("authors", .authors)]
        (writeOpt (writeList "authors" (fun c => if OrganizationalContact.willWrite c then OrganizationalContact.writeXml "author" c else [])) m.authors) :=
      maybe_some fun x e => by
        have : Any False .v1_5 [("author", .organizationalContact)]
            (x.flatMap (fun c => if OrganizationalContact.willWrite c then OrganizationalContact.writeXml "author" c else [])) :=
          any_mem fun z hz => by
            have := author (hg.authors x e z hz)
            infer_instance
        infer_instance
    have htl : Maybe False .v1_5 [("tools", .tools)] (writeOpt (Tools.writeXml .v1_5) (some (.list [Tool.new a b c]))) := by
      show Maybe False .v1_5 [("tools", .tools)] (writeList "tools" (Tool.writeXml .v1_5) [Tool.new a b c])
      haveI : Kids .v1_5 .tools [anyNumber "tool" .tool] := ⟨_, rfl, List.mem_cons_self⟩
      infer_instance
    unfold Metadata.writeXml
    rw [ht, hg.manufacture, hg.supplier, hg.licenses, hg.lifecycles]
    simp only [since14, since15, writeOpt_none, List.append_nil, List.nil_append]
    infer_instance
  have hcs : Maybe False .v1_5 [("components", .components)] (writeOpt (writeList "components" (Component.writeXml .v1_5)) b.components) :=
    maybe_some fun x e => by
      rw [hl] at e; cases e
      have : Any False .v1_5 [("component", .component)] (l.flatMap (Component.writeXml .v1_5)) := any_mem fun z hz => by
        have := flat z (hc z hz)
        infer_instance
      infer_instance
  have hmd' : Maybe False .v1_5 [("metadata", .metadata)] (writeOpt (Metadata.writeXml .v1_5) b.metadata) :=
    maybe_some fun x e => by rw [hm] at e; cases e; infer_instance
  have : Elem False .v1_5 "bom" .bom (Bom.writeXml .v1_5 b) := by
    unfold Bom.writeXml
    rw [h.services, h.externalReferences, h.compositions, h.properties, h.vulnerabilities, h.formulation]
    simp only [since14, since15, writeOpt_none, List.append_nil, List.nil_append]
    infer_instance
  exact this.root

end

end Generated1_5

end Cdx.Conforming
