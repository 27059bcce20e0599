import Verif.Lemmas.Arranged.Format
import Verif.Lemmas.Written

/-!
# Lemmas: generated documents are arranged as the format has it

Generated, once for each version.
-/

set_option linter.unusedSectionVars false
set_option linter.unusedSimpArgs false
set_option synthInstance.maxSize 100000
set_option synthInstance.maxHeartbeats 400000

namespace Cdx

open Spec

theorem made_some {E : String → Element} {p : String} {g : List String} {α : Type} {f : α → List WEvent}
    {x : Option α} (h : ∀ a, x = some a → Made E p g (f a)) : Made E p g (writeOpt f x) := by
  cases x with
  | none => exact ⟨fun _ _ h => h⟩
  | some a => exact h a rfl

theorem made_mem {E : String → Element} {p : String} {g : List String} {α : Type} {f : α → List WEvent}
    {x : List α} (h : ∀ a ∈ x, Made E p g (f a)) : Made E p g (x.flatMap f) :=
  ⟨fun l r hr => by
    induction x with
    | nil => exact hr
    | cons a x ih =>
      rw [List.flatMap_cons, List.append_assoc]
      exact (h a List.mem_cons_self).before l _ (ih fun b hb => h b (List.mem_cons_of_mem _ hb))⟩

instance (priority := high) {E : String → Element} {p : String} {g : List String} {α : Type}
    {f : α → List WEvent} : Made E p g (writeOpt f none) := ⟨fun _ _ h => h⟩

theorem Component.writeXmlAll_eq [F32Format] (v : SpecVersion) (l : List Component) :
    Component.writeXmlAll v l = l.flatMap (Component.writeXml v) := by
  induction l with
  | nil => simp [Component.writeXmlAll]
  | cons a l ih => simp [Component.writeXmlAll, ih]


namespace Generated1_3

section
variable [F32Format]

local notation "𝓔" => formatElement SpecVersion.v1_3

instance : Kids 𝓔 "bom" [["metadata"], ["components"], ["services"], ["externalReferences"], ["dependencies"], ["compositions"]] := ⟨by decide +kernel⟩
instance : Marks 𝓔 "bom" ["serialNumber", "version"] := ⟨by decide +kernel⟩
instance : Kids 𝓔 "metadata" [["timestamp"], ["tools"], ["authors"], ["component"], ["manufacture"], ["supplier"], ["licenses"], ["properties"]] := ⟨by decide +kernel⟩
instance : Marks 𝓔 "metadata" [] := ⟨by decide +kernel⟩
instance : Kids 𝓔 "tools" [["tool"]] := ⟨by decide +kernel⟩
instance : Marks 𝓔 "tools" [] := ⟨by decide +kernel⟩
instance : Kids 𝓔 "tool" [["vendor"], ["name"], ["version"], ["hashes"]] := ⟨by decide +kernel⟩
instance : Marks 𝓔 "tool" [] := ⟨by decide +kernel⟩
instance : Kids 𝓔 "authors" [["author"]] := ⟨by decide +kernel⟩
instance : Marks 𝓔 "authors" [] := ⟨by decide +kernel⟩
instance : Kids 𝓔 "author" [["timestamp"], ["name"], ["email"], ["phone"]] := ⟨by decide +kernel⟩
instance : Marks 𝓔 "author" [] := ⟨by decide +kernel⟩
instance : Kids 𝓔 "component" [["supplier"], ["author"], ["publisher"], ["group"], ["name"], ["version"], ["description"], ["scope"], ["hashes"], ["licenses"], ["copyright"], ["cpe"], ["purl"], ["swid"], ["modified"], ["pedigree"], ["externalReferences"], ["properties"], ["components"], ["evidence"]] := ⟨by decide +kernel⟩
instance : Marks 𝓔 "component" ["type", "mime-type", "bom-ref"] := ⟨by decide +kernel⟩
instance : Kids 𝓔 "components" [["component"]] := ⟨by decide +kernel⟩
instance : Marks 𝓔 "components" [] := ⟨by decide +kernel⟩
instance : Kids 𝓔 "hashes" [["hash"]] := ⟨by decide +kernel⟩
instance : Marks 𝓔 "hashes" [] := ⟨by decide +kernel⟩
instance : Kids 𝓔 "hash" [] := ⟨by decide +kernel⟩
instance : Marks 𝓔 "hash" ["alg"] := ⟨by decide +kernel⟩
instance : Kids 𝓔 "licenses" [["license", "expression"]] := ⟨by decide +kernel⟩
instance : Marks 𝓔 "licenses" [] := ⟨by decide +kernel⟩
instance : Kids 𝓔 "license" [["id", "name"], ["text"], ["url"]] := ⟨by decide +kernel⟩
instance : Marks 𝓔 "license" [] := ⟨by decide +kernel⟩
instance : Kids 𝓔 "text" [] := ⟨by decide +kernel⟩
instance : Marks 𝓔 "text" ["content-type", "encoding"] := ⟨by decide +kernel⟩
instance : Kids 𝓔 "expression" [] := ⟨by decide +kernel⟩
instance : Marks 𝓔 "expression" [] := ⟨by decide +kernel⟩
instance : Kids 𝓔 "externalReferences" [["reference"]] := ⟨by decide +kernel⟩
instance : Marks 𝓔 "externalReferences" [] := ⟨by decide +kernel⟩
instance : Kids 𝓔 "reference" [["url"], ["comment"], ["hashes"], ["id"], ["source"]] := ⟨by decide +kernel⟩
instance : Marks 𝓔 "reference" ["type"] := ⟨by decide +kernel⟩
instance : Kids 𝓔 "properties" [["property"]] := ⟨by decide +kernel⟩
instance : Marks 𝓔 "properties" [] := ⟨by decide +kernel⟩
instance : Kids 𝓔 "property" [] := ⟨by decide +kernel⟩
instance : Marks 𝓔 "property" ["name"] := ⟨by decide +kernel⟩
instance : Kids 𝓔 "dependencies" [["dependency"]] := ⟨by decide +kernel⟩
instance : Marks 𝓔 "dependencies" [] := ⟨by decide +kernel⟩
instance : Kids 𝓔 "dependency" [["dependency"]] := ⟨by decide +kernel⟩
instance : Marks 𝓔 "dependency" ["ref"] := ⟨by decide +kernel⟩

instance (x : AttachedText) (p : String) (g : List String) [In "text" g] :
    Made 𝓔 p g (AttachedText.writeXml "text" x) := by
  unfold AttachedText.writeXml; infer_instance

instance (x : Property) (p : String) (g : List String) [In "property" g] :
    Made 𝓔 p g (Property.writeXml x) := by
  unfold Property.writeXml; infer_instance

instance (x : Hash) (p : String) (g : List String) [In "hash" g] :
    Made 𝓔 p g (Hash.writeXml x) := by
  unfold Hash.writeXml; infer_instance

instance (x : ExternalReference) (p : String) (g : List String) [In "reference" g] :
    Made 𝓔 p g (ExternalReference.writeXml x) := by
  unfold ExternalReference.writeXml; infer_instance

instance (x : Dependency) (p : String) (g : List String) [In "dependency" g] :
    Made 𝓔 p g (Dependency.writeXml x) := by
  unfold Dependency.writeXml; infer_instance

instance (x : Tool) (p : String) (g : List String) [In "tool" g] :
    Made 𝓔 p g (Tool.writeXml .v1_3 x) := by
  unfold Tool.writeXml; infer_instance

theorem license {x : LicenseChoice} (h : GenLicense x) (p : String) :
    Made 𝓔 p ["license", "expression"] (LicenseChoice.writeXml .v1_3 x) := by
  rcases h with ⟨e, rfl⟩ | ⟨n, rfl⟩ | ⟨n, c, rfl⟩
  · show Made 𝓔 p _ (SpdxExpression.writeXml _)
    exact made_elem (In.mem) (by intro a h; cases h) (.chars .nil)
  · show Made 𝓔 p _ (License.writeXml .v1_3 _)
    unfold License.writeXml LicenseIdentifier.writeXml
    infer_instance
  · show Made 𝓔 p _ (License.writeXml .v1_3 _)
    unfold License.writeXml LicenseIdentifier.writeXml
    infer_instance

theorem author {x : OrganizationalContact} (h : x.bomRef = none) (p : String) :
    Made 𝓔 p ["author"] (OrganizationalContact.writeXml "author" x) := by
  unfold OrganizationalContact.writeXml
  rw [h]
  refine made_elem In.mem (by intro a h; cases h) ?_
  rw [(inferInstance : Kids 𝓔 "author" _).eq]
  exact Laid.arranged

theorem component {x : Component} (h : GenComponent x)
    (hc : ∀ l, x.components = some l → ∀ z ∈ l, Made 𝓔 "components" ["component"] (Component.writeXml .v1_3 z))
    (p : String) : Made 𝓔 p ["component"] (Component.writeXml .v1_3 x) := by
  obtain ⟨componentType, mimeType, bomRef, supplier, author, publisher, group, name, version, description, scope, hashes, licenses, copyright, cpe, purl, swid, modified, pedigree, externalReferences, properties, components, evidence, signature, modelCard, data⟩ := x
  have h1 := h.licenses
  obtain ⟨-, -, -, -, -, -, rfl, rfl, rfl, rfl, rfl, rfl, rfl, rfl, rfl, rfl, rfl, rfl⟩ := h
  have hl : Made 𝓔 "component" ["licenses"] (writeOpt (Licenses.writeXml .v1_3) licenses) :=
    made_some fun l e => by
      haveI : Laid 𝓔 "licenses" [["license", "expression"]] (l.flatMap (LicenseChoice.writeXml .v1_3)) :=
        haveI := made_mem (E := formatElement .v1_3) (p := "licenses") (x := l) fun z hz => license (h1 l e z hz) "licenses"
        laid_last
      unfold Licenses.writeXml
      infer_instance
  have hs : Made 𝓔 "component" ["components"] (Component.writeXmlOpt .v1_3 "components" components) := by
    cases components with
    | none => simp only [Component.writeXmlOpt]; infer_instance
    | some l =>
      simp only [Component.writeXmlOpt, Component.writeXmlAll_eq]
      have := made_mem (E := formatElement .v1_3) (p := "components") (x := l) (hc l rfl)
      infer_instance
  simp only [Component.writeXml, Pedigree.writeXmlOpt]
  infer_instance

theorem document {b : Bom} (h : GenBom b) : ArrangedDocument 𝓔 (b.writeXml .v1_3) := by
  obtain ⟨m, hm, hg⟩ := h.metadata
  obtain ⟨l, hl, hc⟩ := h.components
  have flat : ∀ z : Component, GenComponent z ∧ z.components = none → ∀ p,
      Made 𝓔 p ["component"] (Component.writeXml .v1_3 z) := fun z hz p =>
    component hz.1 (fun y hy => by rw [hz.2] at hy; cases hy) p
  have hmd : Made 𝓔 "bom" ["metadata"] (Metadata.writeXml .v1_3 m) := by
    obtain ⟨a, b, c, ht⟩ := hg.tools
    obtain ⟨top, hm, hgt, hsub⟩ := hg.component
    have hcomp : Made 𝓔 "metadata" ["component"] (writeOpt (Component.writeXml .v1_3) m.component) :=
      made_some fun x e => by
        rw [hm] at e; cases e
        exact component hgt (fun y hy z hz => flat z (hsub y hy z hz) _) _
    have hau : Made 𝓔 "metadata" ["authors"]
        (writeOpt (writeList "authors" (fun c => if OrganizationalContact.willWrite c then OrganizationalContact.writeXml "author" c else [])) m.authors) :=
      made_some fun x e => by
        have := made_mem (E := formatElement .v1_3) (p := "authors") (g := ["author"]) (x := x)
          (f := fun c => if OrganizationalContact.willWrite c then OrganizationalContact.writeXml "author" c else [])
          fun z hz => by
            have := author (hg.authors x e z hz) "authors"
            infer_instance
        infer_instance
    unfold Metadata.writeXml
    rw [ht, hg.manufacture, hg.supplier, hg.licenses, hg.lifecycles]
    have htl : Made 𝓔 "metadata" ["tools"] (writeOpt (Tools.writeXml .v1_3) (some (.list [Tool.new a b c]))) := by
      show Made 𝓔 "metadata" ["tools"] (writeList "tools" (Tool.writeXml .v1_3) _)
      infer_instance
    infer_instance
  have hcs : Made 𝓔 "bom" ["components"] (writeOpt (writeList "components" (Component.writeXml .v1_3)) b.components) :=
    made_some fun x e => by
      rw [hl] at e; cases e
      have := made_mem (E := formatElement .v1_3) (p := "components") (x := l) fun z hz => flat z (hc z hz) _
      infer_instance
  have hmd' : Made 𝓔 "bom" ["metadata"] (writeOpt (Metadata.writeXml .v1_3) b.metadata) :=
    made_some fun x e => by rw [hm] at e; cases e; exact hmd
  unfold Bom.writeXml
  refine ⟨_, _, rfl, ?_, ?_⟩
  · intro a h
    simp only [mkAttrs, List.mem_filterMap, Option.map_eq_some_iff] at h
    obtain ⟨q, hq, x, hx, rfl⟩ := h
    rw [(inferInstance : Marks 𝓔 "bom" _).eq]
    simp only [List.mem_cons, List.not_mem_nil, or_false] at hq ⊢
    rcases hq with rfl | rfl <;> simp
  · rw [(inferInstance : Kids 𝓔 "bom" _).eq, h.services, h.externalReferences, h.compositions, h.properties,
      h.vulnerabilities, h.formulation]
    exact Laid.arranged

end

end Generated1_3

namespace Generated1_4

section
variable [F32Format]

local notation "𝓔" => formatElement SpecVersion.v1_4

instance : Kids 𝓔 "bom" [["metadata"], ["components"], ["services"], ["externalReferences"], ["dependencies"], ["compositions"], ["vulnerabilities"]] := ⟨by decide +kernel⟩
instance : Marks 𝓔 "bom" ["serialNumber", "version"] := ⟨by decide +kernel⟩
instance : Kids 𝓔 "metadata" [["timestamp"], ["tools"], ["authors"], ["component"], ["manufacture"], ["supplier"], ["licenses"], ["properties"]] := ⟨by decide +kernel⟩
instance : Marks 𝓔 "metadata" [] := ⟨by decide +kernel⟩
instance : Kids 𝓔 "tools" [["tool"]] := ⟨by decide +kernel⟩
instance : Marks 𝓔 "tools" [] := ⟨by decide +kernel⟩
instance : Kids 𝓔 "tool" [["vendor"], ["name"], ["version"], ["hashes"], ["externalReferences"]] := ⟨by decide +kernel⟩
instance : Marks 𝓔 "tool" [] := ⟨by decide +kernel⟩
instance : Kids 𝓔 "authors" [["author"]] := ⟨by decide +kernel⟩
instance : Marks 𝓔 "authors" [] := ⟨by decide +kernel⟩
instance : Kids 𝓔 "author" [["timestamp"], ["name"], ["email"], ["phone"]] := ⟨by decide +kernel⟩
instance : Marks 𝓔 "author" [] := ⟨by decide +kernel⟩
instance : Kids 𝓔 "component" [["supplier"], ["author"], ["publisher"], ["group"], ["name"], ["version"], ["description"], ["scope"], ["hashes"], ["licenses"], ["copyright"], ["cpe"], ["purl"], ["swid"], ["modified"], ["pedigree"], ["externalReferences"], ["properties"], ["components"], ["evidence"], ["releaseNotes"]] := ⟨by decide +kernel⟩
instance : Marks 𝓔 "component" ["type", "mime-type", "bom-ref"] := ⟨by decide +kernel⟩
instance : Kids 𝓔 "components" [["component"]] := ⟨by decide +kernel⟩
instance : Marks 𝓔 "components" [] := ⟨by decide +kernel⟩
instance : Kids 𝓔 "hashes" [["hash"]] := ⟨by decide +kernel⟩
instance : Marks 𝓔 "hashes" [] := ⟨by decide +kernel⟩
instance : Kids 𝓔 "hash" [] := ⟨by decide +kernel⟩
instance : Marks 𝓔 "hash" ["alg"] := ⟨by decide +kernel⟩
instance : Kids 𝓔 "licenses" [["license", "expression"]] := ⟨by decide +kernel⟩
instance : Marks 𝓔 "licenses" [] := ⟨by decide +kernel⟩
instance : Kids 𝓔 "license" [["id", "name"], ["text"], ["url"]] := ⟨by decide +kernel⟩
instance : Marks 𝓔 "license" [] := ⟨by decide +kernel⟩
instance : Kids 𝓔 "text" [] := ⟨by decide +kernel⟩
instance : Marks 𝓔 "text" ["content-type", "encoding"] := ⟨by decide +kernel⟩
instance : Kids 𝓔 "expression" [] := ⟨by decide +kernel⟩
instance : Marks 𝓔 "expression" [] := ⟨by decide +kernel⟩
instance : Kids 𝓔 "externalReferences" [["reference"]] := ⟨by decide +kernel⟩
instance : Marks 𝓔 "externalReferences" [] := ⟨by decide +kernel⟩
instance : Kids 𝓔 "reference" [["url"], ["comment"], ["hashes"], ["id"], ["source"]] := ⟨by decide +kernel⟩
instance : Marks 𝓔 "reference" ["type"] := ⟨by decide +kernel⟩
instance : Kids 𝓔 "properties" [["property"]] := ⟨by decide +kernel⟩
instance : Marks 𝓔 "properties" [] := ⟨by decide +kernel⟩
instance : Kids 𝓔 "property" [] := ⟨by decide +kernel⟩
instance : Marks 𝓔 "property" ["name"] := ⟨by decide +kernel⟩
instance : Kids 𝓔 "dependencies" [["dependency"]] := ⟨by decide +kernel⟩
instance : Marks 𝓔 "dependencies" [] := ⟨by decide +kernel⟩
instance : Kids 𝓔 "dependency" [["dependency"]] := ⟨by decide +kernel⟩
instance : Marks 𝓔 "dependency" ["ref"] := ⟨by decide +kernel⟩

instance (x : AttachedText) (p : String) (g : List String) [In "text" g] :
    Made 𝓔 p g (AttachedText.writeXml "text" x) := by
  unfold AttachedText.writeXml; infer_instance

instance (x : Property) (p : String) (g : List String) [In "property" g] :
    Made 𝓔 p g (Property.writeXml x) := by
  unfold Property.writeXml; infer_instance

instance (x : Hash) (p : String) (g : List String) [In "hash" g] :
    Made 𝓔 p g (Hash.writeXml x) := by
  unfold Hash.writeXml; infer_instance

instance (x : ExternalReference) (p : String) (g : List String) [In "reference" g] :
    Made 𝓔 p g (ExternalReference.writeXml x) := by
  unfold ExternalReference.writeXml; infer_instance

instance (x : Dependency) (p : String) (g : List String) [In "dependency" g] :
    Made 𝓔 p g (Dependency.writeXml x) := by
  unfold Dependency.writeXml; infer_instance

instance (x : Tool) (p : String) (g : List String) [In "tool" g] :
    Made 𝓔 p g (Tool.writeXml .v1_4 x) := by
  unfold Tool.writeXml; infer_instance

theorem license {x : LicenseChoice} (h : GenLicense x) (p : String) :
    Made 𝓔 p ["license", "expression"] (LicenseChoice.writeXml .v1_4 x) := by
  rcases h with ⟨e, rfl⟩ | ⟨n, rfl⟩ | ⟨n, c, rfl⟩
  · show Made 𝓔 p _ (SpdxExpression.writeXml _)
    exact made_elem (In.mem) (by intro a h; cases h) (.chars .nil)
  · show Made 𝓔 p _ (License.writeXml .v1_4 _)
    unfold License.writeXml LicenseIdentifier.writeXml
    infer_instance
  · show Made 𝓔 p _ (License.writeXml .v1_4 _)
    unfold License.writeXml LicenseIdentifier.writeXml
    infer_instance

theorem author {x : OrganizationalContact} (h : x.bomRef = none) (p : String) :
    Made 𝓔 p ["author"] (OrganizationalContact.writeXml "author" x) := by
  unfold OrganizationalContact.writeXml
  rw [h]
  refine made_elem In.mem (by intro a h; cases h) ?_
  rw [(inferInstance : Kids 𝓔 "author" _).eq]
  exact Laid.arranged

theorem component {x : Component} (h : GenComponent x)
    (hc : ∀ l, x.components = some l → ∀ z ∈ l, Made 𝓔 "components" ["component"] (Component.writeXml .v1_4 z))
    (p : String) : Made 𝓔 p ["component"] (Component.writeXml .v1_4 x) := by
  obtain ⟨componentType, mimeType, bomRef, supplier, author, publisher, group, name, version, description, scope, hashes, licenses, copyright, cpe, purl, swid, modified, pedigree, externalReferences, properties, components, evidence, signature, modelCard, data⟩ := x
  have h1 := h.licenses
  obtain ⟨-, -, -, -, -, -, rfl, rfl, rfl, rfl, rfl, rfl, rfl, rfl, rfl, rfl, rfl, rfl⟩ := h
  have hl : Made 𝓔 "component" ["licenses"] (writeOpt (Licenses.writeXml .v1_4) licenses) :=
    made_some fun l e => by
      haveI : Laid 𝓔 "licenses" [["license", "expression"]] (l.flatMap (LicenseChoice.writeXml .v1_4)) :=
        haveI := made_mem (E := formatElement .v1_4) (p := "licenses") (x := l) fun z hz => license (h1 l e z hz) "licenses"
        laid_last
      unfold Licenses.writeXml
      infer_instance
  have hs : Made 𝓔 "component" ["components"] (Component.writeXmlOpt .v1_4 "components" components) := by
    cases components with
    | none => simp only [Component.writeXmlOpt]; infer_instance
    | some l =>
      simp only [Component.writeXmlOpt, Component.writeXmlAll_eq]
      have := made_mem (E := formatElement .v1_4) (p := "components") (x := l) (hc l rfl)
      infer_instance
  simp only [Component.writeXml, Pedigree.writeXmlOpt]
  infer_instance

theorem document {b : Bom} (h : GenBom b) : ArrangedDocument 𝓔 (b.writeXml .v1_4) := by
  obtain ⟨m, hm, hg⟩ := h.metadata
  obtain ⟨l, hl, hc⟩ := h.components
  have flat : ∀ z : Component, GenComponent z ∧ z.components = none → ∀ p,
      Made 𝓔 p ["component"] (Component.writeXml .v1_4 z) := fun z hz p =>
    component hz.1 (fun y hy => by rw [hz.2] at hy; cases hy) p
  have hmd : Made 𝓔 "bom" ["metadata"] (Metadata.writeXml .v1_4 m) := by
    obtain ⟨a, b, c, ht⟩ := hg.tools
    obtain ⟨top, hm, hgt, hsub⟩ := hg.component
    have hcomp : Made 𝓔 "metadata" ["component"] (writeOpt (Component.writeXml .v1_4) m.component) :=
      made_some fun x e => by
        rw [hm] at e; cases e
        exact component hgt (fun y hy z hz => flat z (hsub y hy z hz) _) _
    have hau : Made 𝓔 "metadata" ["authors"]
        (writeOpt (writeList "authors" (fun c => if OrganizationalContact.willWrite c then OrganizationalContact.writeXml "author" c else [])) m.authors) :=
      made_some fun x e => by
        have := made_mem (E := formatElement .v1_4) (p := "authors") (g := ["author"]) (x := x)
          (f := fun c => if OrganizationalContact.willWrite c then OrganizationalContact.writeXml "author" c else [])
          fun z hz => by
            have := author (hg.authors x e z hz) "authors"
            infer_instance
        infer_instance
    unfold Metadata.writeXml
    rw [ht, hg.manufacture, hg.supplier, hg.licenses, hg.lifecycles]
    have htl : Made 𝓔 "metadata" ["tools"] (writeOpt (Tools.writeXml .v1_4) (some (.list [Tool.new a b c]))) := by
      show Made 𝓔 "metadata" ["tools"] (writeList "tools" (Tool.writeXml .v1_4) _)
      infer_instance
    infer_instance
  have hcs : Made 𝓔 "bom" ["components"] (writeOpt (writeList "components" (Component.writeXml .v1_4)) b.components) :=
    made_some fun x e => by
      rw [hl] at e; cases e
      have := made_mem (E := formatElement .v1_4) (p := "components") (x := l) fun z hz => flat z (hc z hz) _
      infer_instance
  have hmd' : Made 𝓔 "bom" ["metadata"] (writeOpt (Metadata.writeXml .v1_4) b.metadata) :=
    made_some fun x e => by rw [hm] at e; cases e; exact hmd
  unfold Bom.writeXml
  refine ⟨_, _, rfl, ?_, ?_⟩
  · intro a h
    simp only [mkAttrs, List.mem_filterMap, Option.map_eq_some_iff] at h
    obtain ⟨q, hq, x, hx, rfl⟩ := h
    rw [(inferInstance : Marks 𝓔 "bom" _).eq]
    simp only [List.mem_cons, List.not_mem_nil, or_false] at hq ⊢
    rcases hq with rfl | rfl <;> simp
  · rw [(inferInstance : Kids 𝓔 "bom" _).eq, h.services, h.externalReferences, h.compositions, h.properties,
      h.vulnerabilities, h.formulation]
    exact Laid.arranged

end

end Generated1_4

namespace Generated1_5

section
variable [F32Format]

local notation "𝓔" => formatElement SpecVersion.v1_5

instance : Kids 𝓔 "bom" [["metadata"], ["components"], ["services"], ["externalReferences"], ["dependencies"], ["compositions"], ["properties"], ["vulnerabilities"], ["annotations"], ["formulation"]] := ⟨by decide +kernel⟩
instance : Marks 𝓔 "bom" ["serialNumber", "version"] := ⟨by decide +kernel⟩
instance : Kids 𝓔 "metadata" [["timestamp"], ["lifecycles"], ["tools"], ["authors"], ["component"], ["manufacture"], ["supplier"], ["licenses"], ["properties"]] := ⟨by decide +kernel⟩
instance : Marks 𝓔 "metadata" [] := ⟨by decide +kernel⟩
instance : Kids 𝓔 "tools" [["tool"], ["components"], ["services"]] := ⟨by decide +kernel⟩
instance : Marks 𝓔 "tools" [] := ⟨by decide +kernel⟩
instance : Kids 𝓔 "tool" [["vendor"], ["name"], ["version"], ["hashes"], ["externalReferences"]] := ⟨by decide +kernel⟩
instance : Marks 𝓔 "tool" ["ref"] := ⟨by decide +kernel⟩
instance : Kids 𝓔 "authors" [["author"]] := ⟨by decide +kernel⟩
instance : Marks 𝓔 "authors" [] := ⟨by decide +kernel⟩
instance : Kids 𝓔 "author" [["timestamp"], ["name"], ["email"], ["phone"]] := ⟨by decide +kernel⟩
instance : Marks 𝓔 "author" ["bom-ref"] := ⟨by decide +kernel⟩
instance : Kids 𝓔 "component" [["supplier"], ["author"], ["publisher"], ["group"], ["name"], ["version"], ["description"], ["scope"], ["hashes"], ["licenses"], ["copyright"], ["cpe"], ["purl"], ["swid"], ["modified"], ["pedigree"], ["externalReferences"], ["properties"], ["components"], ["evidence"], ["releaseNotes"], ["modelCard"], ["data"]] := ⟨by decide +kernel⟩
instance : Marks 𝓔 "component" ["type", "mime-type", "bom-ref"] := ⟨by decide +kernel⟩
instance : Kids 𝓔 "components" [["component"]] := ⟨by decide +kernel⟩
instance : Marks 𝓔 "components" [] := ⟨by decide +kernel⟩
instance : Kids 𝓔 "hashes" [["hash"]] := ⟨by decide +kernel⟩
instance : Marks 𝓔 "hashes" [] := ⟨by decide +kernel⟩
instance : Kids 𝓔 "hash" [] := ⟨by decide +kernel⟩
instance : Marks 𝓔 "hash" ["alg"] := ⟨by decide +kernel⟩
instance : Kids 𝓔 "licenses" [["license", "expression"]] := ⟨by decide +kernel⟩
instance : Marks 𝓔 "licenses" [] := ⟨by decide +kernel⟩
instance : Kids 𝓔 "license" [["id", "name"], ["text"], ["url"], ["licensing"], ["properties"]] := ⟨by decide +kernel⟩
instance : Marks 𝓔 "license" ["bom-ref"] := ⟨by decide +kernel⟩
instance : Kids 𝓔 "text" [] := ⟨by decide +kernel⟩
instance : Marks 𝓔 "text" ["content-type", "encoding"] := ⟨by decide +kernel⟩
instance : Kids 𝓔 "expression" [] := ⟨by decide +kernel⟩
instance : Marks 𝓔 "expression" ["bom-ref"] := ⟨by decide +kernel⟩
instance : Kids 𝓔 "externalReferences" [["reference"]] := ⟨by decide +kernel⟩
instance : Marks 𝓔 "externalReferences" [] := ⟨by decide +kernel⟩
instance : Kids 𝓔 "reference" [["url"], ["comment"], ["hashes"], ["id"], ["source"]] := ⟨by decide +kernel⟩
instance : Marks 𝓔 "reference" ["type"] := ⟨by decide +kernel⟩
instance : Kids 𝓔 "properties" [["property"]] := ⟨by decide +kernel⟩
instance : Marks 𝓔 "properties" [] := ⟨by decide +kernel⟩
instance : Kids 𝓔 "property" [] := ⟨by decide +kernel⟩
instance : Marks 𝓔 "property" ["name"] := ⟨by decide +kernel⟩
instance : Kids 𝓔 "dependencies" [["dependency"]] := ⟨by decide +kernel⟩
instance : Marks 𝓔 "dependencies" [] := ⟨by decide +kernel⟩
instance : Kids 𝓔 "dependency" [["dependency"]] := ⟨by decide +kernel⟩
instance : Marks 𝓔 "dependency" ["ref"] := ⟨by decide +kernel⟩

instance (x : AttachedText) (p : String) (g : List String) [In "text" g] :
    Made 𝓔 p g (AttachedText.writeXml "text" x) := by
  unfold AttachedText.writeXml; infer_instance

instance (x : Property) (p : String) (g : List String) [In "property" g] :
    Made 𝓔 p g (Property.writeXml x) := by
  unfold Property.writeXml; infer_instance

instance (x : Hash) (p : String) (g : List String) [In "hash" g] :
    Made 𝓔 p g (Hash.writeXml x) := by
  unfold Hash.writeXml; infer_instance

instance (x : ExternalReference) (p : String) (g : List String) [In "reference" g] :
    Made 𝓔 p g (ExternalReference.writeXml x) := by
  unfold ExternalReference.writeXml; infer_instance

instance (x : Dependency) (p : String) (g : List String) [In "dependency" g] :
    Made 𝓔 p g (Dependency.writeXml x) := by
  unfold Dependency.writeXml; infer_instance

instance (x : Tool) (p : String) (g : List String) [In "tool" g] :
    Made 𝓔 p g (Tool.writeXml .v1_5 x) := by
  unfold Tool.writeXml; infer_instance

theorem license {x : LicenseChoice} (h : GenLicense x) (p : String) :
    Made 𝓔 p ["license", "expression"] (LicenseChoice.writeXml .v1_5 x) := by
  rcases h with ⟨e, rfl⟩ | ⟨n, rfl⟩ | ⟨n, c, rfl⟩
  · show Made 𝓔 p _ (SpdxExpression.writeXml _)
    exact made_elem (In.mem) (by intro a h; cases h) (.chars .nil)
  · show Made 𝓔 p _ (License.writeXml .v1_5 _)
    unfold License.writeXml LicenseIdentifier.writeXml
    infer_instance
  · show Made 𝓔 p _ (License.writeXml .v1_5 _)
    unfold License.writeXml LicenseIdentifier.writeXml
    infer_instance

theorem author {x : OrganizationalContact} (h : x.bomRef = none) (p : String) :
    Made 𝓔 p ["author"] (OrganizationalContact.writeXml "author" x) := by
  unfold OrganizationalContact.writeXml
  rw [h]
  refine made_elem In.mem (by intro a h; cases h) ?_
  rw [(inferInstance : Kids 𝓔 "author" _).eq]
  exact Laid.arranged

theorem component {x : Component} (h : GenComponent x)
    (hc : ∀ l, x.components = some l → ∀ z ∈ l, Made 𝓔 "components" ["component"] (Component.writeXml .v1_5 z))
    (p : String) : Made 𝓔 p ["component"] (Component.writeXml .v1_5 x) := by
  obtain ⟨componentType, mimeType, bomRef, supplier, author, publisher, group, name, version, description, scope, hashes, licenses, copyright, cpe, purl, swid, modified, pedigree, externalReferences, properties, components, evidence, signature, modelCard, data⟩ := x
  have h1 := h.licenses
  obtain ⟨-, -, -, -, -, -, rfl, rfl, rfl, rfl, rfl, rfl, rfl, rfl, rfl, rfl, rfl, rfl⟩ := h
  have hl : Made 𝓔 "component" ["licenses"] (writeOpt (Licenses.writeXml .v1_5) licenses) :=
    made_some fun l e => by
      haveI : Laid 𝓔 "licenses" [["license", "expression"]] (l.flatMap (LicenseChoice.writeXml .v1_5)) :=
        haveI := made_mem (E := formatElement .v1_5) (p := "licenses") (x := l) fun z hz => license (h1 l e z hz) "licenses"
        laid_last
      unfold Licenses.writeXml
      infer_instance
  have hs : Made 𝓔 "component" ["components"] (Component.writeXmlOpt .v1_5 "components" components) := by
    cases components with
    | none => simp only [Component.writeXmlOpt]; infer_instance
    | some l =>
      simp only [Component.writeXmlOpt, Component.writeXmlAll_eq]
      have := made_mem (E := formatElement .v1_5) (p := "components") (x := l) (hc l rfl)
      infer_instance
  simp only [Component.writeXml, Pedigree.writeXmlOpt]
  infer_instance

theorem document {b : Bom} (h : GenBom b) : ArrangedDocument 𝓔 (b.writeXml .v1_5) := by
  obtain ⟨m, hm, hg⟩ := h.metadata
  obtain ⟨l, hl, hc⟩ := h.components
  have flat : ∀ z : Component, GenComponent z ∧ z.components = none → ∀ p,
      Made 𝓔 p ["component"] (Component.writeXml .v1_5 z) := fun z hz p =>
    component hz.1 (fun y hy => by rw [hz.2] at hy; cases hy) p
  have hmd : Made 𝓔 "bom" ["metadata"] (Metadata.writeXml .v1_5 m) := by
    obtain ⟨a, b, c, ht⟩ := hg.tools
    obtain ⟨top, hm, hgt, hsub⟩ := hg.component
    have hcomp : Made 𝓔 "metadata" ["component"] (writeOpt (Component.writeXml .v1_5) m.component) :=
      made_some fun x e => by
        rw [hm] at e; cases e
        exact component hgt (fun y hy z hz => flat z (hsub y hy z hz) _) _
    have hau : Made 𝓔 "metadata" ["authors"]
        (writeOpt (writeList "authors" (fun c => if OrganizationalContact.willWrite c then OrganizationalContact.writeXml "author" c else [])) m.authors) :=
      made_some fun x e => by
        have := made_mem (E := formatElement .v1_5) (p := "authors") (g := ["author"]) (x := x)
          (f := fun c => if OrganizationalContact.willWrite c then OrganizationalContact.writeXml "author" c else [])
          fun z hz => by
            have := author (hg.authors x e z hz) "authors"
            infer_instance
        infer_instance
    unfold Metadata.writeXml
    rw [ht, hg.manufacture, hg.supplier, hg.licenses, hg.lifecycles]
    have htl : Made 𝓔 "metadata" ["tools"] (writeOpt (Tools.writeXml .v1_5) (some (.list [Tool.new a b c]))) := by
      show Made 𝓔 "metadata" ["tools"] (writeList "tools" (Tool.writeXml .v1_5) _)
      infer_instance
    infer_instance
  have hcs : Made 𝓔 "bom" ["components"] (writeOpt (writeList "components" (Component.writeXml .v1_5)) b.components) :=
    made_some fun x e => by
      rw [hl] at e; cases e
      have := made_mem (E := formatElement .v1_5) (p := "components") (x := l) fun z hz => flat z (hc z hz) _
      infer_instance
  have hmd' : Made 𝓔 "bom" ["metadata"] (writeOpt (Metadata.writeXml .v1_5) b.metadata) :=
    made_some fun x e => by rw [hm] at e; cases e; exact hmd
  unfold Bom.writeXml
  refine ⟨_, _, rfl, ?_, ?_⟩
  · intro a h
    simp only [mkAttrs, List.mem_filterMap, Option.map_eq_some_iff] at h
    obtain ⟨q, hq, x, hx, rfl⟩ := h
    rw [(inferInstance : Marks 𝓔 "bom" _).eq]
    simp only [List.mem_cons, List.not_mem_nil, or_false] at hq ⊢
    rcases hq with rfl | rfl <;> simp
  · rw [(inferInstance : Kids 𝓔 "bom" _).eq, h.services, h.externalReferences, h.compositions, h.properties,
      h.vulnerabilities, h.formulation]
    exact Laid.arranged

end

end Generated1_5

end Cdx
