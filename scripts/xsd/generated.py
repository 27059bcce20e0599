HEAD='''import Verif.Lemmas.Conforming.V1_3
import Verif.Lemmas.Conforming.V1_4
import Verif.Lemmas.Conforming.V1_5
import Verif.Lemmas.Written

/-!
# Lemmas: what is written for generated documents follows the schema

Generated, once for each version.
-/

set_option linter.unusedSectionVars false
set_option linter.unusedSimpArgs false
set_option linter.unusedVariables false
set_option synthInstance.maxSize 100000
set_option synthInstance.maxHeartbeats 400000

namespace Cdx.Conforming

open Spec Cdx

'''
BODY='''namespace Generated%N

section
variable [F32Format]

instance (tag : String) (x : AttachedText) : Elem False %v tag .attachedText (AttachedText.writeXml tag x) := by
  unfold AttachedText.writeXml; infer_instance

instance (x : Property) : Elem False %v "property" .property (Property.writeXml x) := by
  unfold Property.writeXml; infer_instance

instance (x : Hash) : Elem False %v "hash" .hash (Hash.writeXml x) := by
  unfold Hash.writeXml; infer_instance

instance (x : ExternalReference) : Elem False %v "reference" .externalReference (ExternalReference.writeXml x) := by
  unfold ExternalReference.writeXml; infer_instance

instance (x : Dependency) : Elem False %v "dependency" .dependency (Dependency.writeXml x) := by
  unfold Dependency.writeXml; infer_instance

instance (x : Tool) : Elem False %v "tool" .tool (Tool.writeXml %v x) := by
  unfold Tool.writeXml; infer_instance

instance (x : LicenseIdentifier) : One False %v [("id", .licenseId), ("name", .licenseName)] (LicenseIdentifier.writeXml x) := by
  cases x <;> simp only [LicenseIdentifier.writeXml] <;> infer_instance

instance (x : License) : Elem False %v "license" .license (License.writeXml %v x) := by
  unfold License.writeXml; infer_instance

theorem licenses {z : LicenseChoice} (h : GenLicense z) :
    Elem False %v "licenses" .licenses (Licenses.writeXml %v [z]) := by
  rcases h with ⟨e, rfl⟩ | ⟨n, rfl⟩ | ⟨n, c, rfl⟩
  · haveI : Kids %v .licenses [mayHave "expression" .expression] := ⟨_, rfl, List.mem_cons_of_mem _ (List.mem_singleton.mpr rfl)⟩
    show Elem False %v "licenses" .licenses (writeElem "licenses" [] (SpdxExpression.writeXml _ ++ []))
    rw [List.append_nil]
    unfold SpdxExpression.writeXml
    infer_instance
  all_goals
    haveI : Kids %v .licenses [anyNumber "license" .license] := ⟨_, rfl, List.mem_cons_self⟩
    show Elem False %v "licenses" .licenses (writeElem "licenses" [] (License.writeXml %v _ ++ []))
    infer_instance

theorem author {x : OrganizationalContact} (h : x.bomRef = none) :
    Elem False %v "author" .organizationalContact (OrganizationalContact.writeXml "author" x) := by
  unfold OrganizationalContact.writeXml
  rw [h]
  infer_instance

theorem component {x : Component} (h : GenComponent x)
    (hc : ∀ l, x.components = some l → ∀ z ∈ l, Elem False %v "component" .component (Component.writeXml %v z)) :
    Elem False %v "component" .component (Component.writeXml %v x) := by
  obtain ⟨componentType, mimeType, bomRef, supplier, author, publisher, group, name, version, description, scope, hashes, licenses, copyright, cpe, purl, swid, modified, pedigree, externalReferences, properties, components, evidence, signature, modelCard, data⟩ := x
  have h1 := h.licenses
  have h2 := h.single
  have h3 := h.version
  obtain ⟨-, -, -, -, -, -, rfl, rfl, rfl, rfl, rfl, rfl, rfl, rfl, rfl, rfl, rfl, rfl, -⟩ := h
  have hl : Maybe False %v [("licenses", .licenses)] (writeOpt (Licenses.writeXml %v) licenses) :=
    maybe_some fun l e => by
      obtain ⟨z, rfl⟩ := h2 l e
      have := Generated%N.licenses (h1 _ e z List.mem_cons_self)
      unfold Licenses.writeXml at this ⊢
      infer_instance
  have hs : Maybe False %v [("components", .components)] (Component.writeXmlOpt %v "components" components) := by
    cases components with
    | none => simp only [Component.writeXmlOpt]; infer_instance
    | some l =>
      simp only [Component.writeXmlOpt, component_writeAll]
      have : Any False %v [("component", .component)] (l.flatMap (Component.writeXml %v)) := any_mem fun z hz => by
        have := hc l rfl z hz
        infer_instance
      infer_instance
  obtain ⟨w, rfl⟩ : ∃ w, version = some w := by
    cases version with
    | none => exact absurd rfl h3
    | some w => exact ⟨w, rfl⟩
  simp only [Component.writeXml, Pedigree.writeXmlOpt, since14, since15, writeOpt_none, writeOpt_some, List.append_nil, List.nil_append]
  infer_instance

theorem document {b : Bom} (h : GenBom b) : ∃ root, IsRoot %v root ∧ written root = Bom.writeXml %v b ∧
    Throughout (Meets False %v) %v .bom root := by
  obtain ⟨m, hm, hg⟩ := h.metadata
  obtain ⟨l, hl, hc⟩ := h.components
  have flat : ∀ z : Component, GenComponent z ∧ z.components = none →
      Elem False %v "component" .component (Component.writeXml %v z) := fun z hz =>
    component hz.1 (fun y hy => by rw [hz.2] at hy; cases hy)
  have hmd : Elem False %v "metadata" .metadata (Metadata.writeXml %v m) := by
    obtain ⟨a, b, c, ht⟩ := hg.tools
    obtain ⟨top, hm, hgt, hsub⟩ := hg.component
    have hcomp : Maybe False %v [("component", .component)] (writeOpt (Component.writeXml %v) m.component) :=
      maybe_some fun x e => by
        rw [hm] at e; cases e
        have := component hgt (fun y hy z hz => flat z (hsub y hy z hz))
        infer_instance
    have hau : Maybe False %v [("authors", .authors)]
        (writeOpt (writeList "authors" (fun c => if OrganizationalContact.willWrite c then OrganizationalContact.writeXml "author" c else [])) m.authors) :=
      maybe_some fun x e => by
        have : Any False %v [("author", .organizationalContact)]
            (x.flatMap (fun c => if OrganizationalContact.willWrite c then OrganizationalContact.writeXml "author" c else [])) :=
          any_mem fun z hz => by
            have := author (hg.authors x e z hz)
            infer_instance
        infer_instance
    have htl : Maybe False %v [("tools", .tools)] (writeOpt (Tools.writeXml %v) (some (.list [Tool.new a b c]))) := by
      show Maybe False %v [("tools", .tools)] (writeList "tools" (Tool.writeXml %v) [Tool.new a b c])
      haveI : Kids %v .tools [%T] := ⟨_, rfl, %M⟩
      infer_instance
    unfold Metadata.writeXml
    rw [ht, hg.manufacture, hg.supplier, hg.licenses, hg.lifecycles]
    simp only [since14, since15, writeOpt_none, List.append_nil, List.nil_append]
    infer_instance
  have hcs : Maybe False %v [("components", .components)] (writeOpt (writeList "components" (Component.writeXml %v)) b.components) :=
    maybe_some fun x e => by
      rw [hl] at e; cases e
      have : Any False %v [("component", .component)] (l.flatMap (Component.writeXml %v)) := any_mem fun z hz => by
        have := flat z (hc z hz)
        infer_instance
      infer_instance
  have hmd' : Maybe False %v [("metadata", .metadata)] (writeOpt (Metadata.writeXml %v) b.metadata) :=
    maybe_some fun x e => by rw [hm] at e; cases e; infer_instance
  have : Elem False %v "bom" .bom (Bom.writeXml %v b) := by
    unfold Bom.writeXml
    rw [h.services, h.externalReferences, h.compositions, h.properties, h.vulnerabilities, h.formulation]
    simp only [since14, since15, writeOpt_none, List.append_nil, List.nil_append]
    infer_instance
  exact this.root

end

end Generated%N

'''
import re
def toolrule(n):
    s=open(f'/verif/lean/Verif/Lemmas/Conforming/V1_{n}.lean').read()
    return [l for l in s.split('\n') if '.tools' in l and 'Kids' in l]
out=HEAD
for n in '345':
    out+=BODY.replace('%v','.v1_'+n).replace('%N','1_'+n).replace('%T','anyNumber "tool" .tool').replace('%M','List.mem_cons_self')
out+='end Cdx.Conforming\n'
open('/verif/lean/Verif/Lemmas/Conforming/Generated.lean','w').write(out)
for n in '345': print(toolrule(n))
