import Verif.Lemmas.Tree
import Verif.Lemmas.TreeXml
import Verif.Props.Exact
import Verif.Props.ExactXml

/-!
# C90: every field is written under its own name
-/

set_option linter.unusedSectionVars false

namespace Cdx.Props

open Spec

section
variable [F32Format] [ReadLimit] {v : SpecVersion} {b b' : Bom} {j : Json}

/-- C90: what is written as JSON is the tree of the fields that the version has, every field under its
name. -/
theorem C90_json (h : b.outputJson v = .ok j) : j = jsonDocument v (b.at v).tree := by
  unfold Bom.outputJson at h
  split at h
  · cases h
    exact (Bom.json_tree v b).symm
  · cases h

/-- C90: what is written as XML is the tree of the fields that the version has, every field in its
place. -/
theorem C90_xml {ns : String} {out : List WEvent} (h : b.outputXml v = .ok (ns, out)) :
    ns = v.namespace ∧ out = xml (b.at v).tree (.child "bom") := by
  unfold Bom.outputXml at h
  split at h
  · cases h
    exact ⟨rfl, (Bom.xml_tree v b).symm⟩
  · cases h

/-- C90: from JSON, every field is read from where it is written; `Bom.JsonOk` is the exact condition of
C77. -/
theorem C90_json_read (h : Bom.JsonOk v b) :
    Bom.parseJson (jsonDocument v (b.at v).tree) = .ok (b.at v) := by
  obtain ⟨j, h1, h2⟩ := C77_exact.mpr h
  rw [← C90_json h1, h2]

/-- C90: from XML, every field is read from where it is written; `Bom.XmlOk` is the exact condition of
C78. -/
theorem C90_xml_read (h : Bom.XmlOk v b) :
    Bom.parseXmlWith v (document v.namespace (xml (b.at v).tree (.child "bom"))) = .ok (b.at v) := by
  obtain ⟨ns, out, h1, h2⟩ := C78_exact.mpr h
  obtain ⟨rfl, rfl⟩ := C90_xml h1
  exact h2

/-- C90: the tree has all fields: documents with the same tree are the same. -/
theorem C90_tree (h : Bom.JsonOk v b) (h' : Bom.JsonOk v b') (ht : (b.at v).tree = (b'.at v).tree) :
    b.at v = b'.at v := by
  have e := C90_json_read h
  rw [ht, C90_json_read h'] at e
  exact (Except.ok.inj e).symm

end

/-- C90: the fields whose member in JSON is not that of the format are exactly these ten. -/
theorem C90_misnamed (type field : String) :
    memberName type field ≠ formatName type field ↔
      (type, field) ∈ [("OrganizationalContact", "bomRef"), ("OrganizationalEntity", "bomRef"),
        ("Composition", "bomRef"), ("License", "bomRef"), ("SpdxExpression", "bomRef"), ("Occurrence", "bomRef"),
        ("ComponentData", "bomRef"), ("ModelCard", "bomRef"), ("PerformanceMetric", "confidenceInterval"),
        ("Volume", "sizeAllocated")] := by
  have key : ∀ l : List ((String × String) × String),
      (∀ p ∈ l, p.2 ≠ formatName p.1.1 p.1.2) → ∀ t f,
      ((l.lookup (t, f)).getD (formatName t f) ≠ formatName t f ↔ (t, f) ∈ l.map (·.1)) := by
    intro l
    induction l with
    | nil => intro _ t f; exact ⟨fun h => absurd rfl h, fun h => nomatch h⟩
    | cons p l ih =>
      intro hl t f
      obtain ⟨⟨t', f'⟩, n⟩ := p
      have ih := ih (fun q hq => hl q (List.mem_cons_of_mem _ hq)) t f
      by_cases e : (t, f) = (t', f')
      · cases e
        rw [List.lookup_cons, beq_self_eq_true]
        exact ⟨fun _ => List.mem_cons_self, fun _ => hl _ List.mem_cons_self⟩
      · rw [List.lookup_cons, beq_false_of_ne e]
        refine ih.trans ⟨fun h => List.mem_cons_of_mem _ h, fun h => ?_⟩
        rcases List.mem_cons.mp h with h | h
        · exact absurd h e
        · exact h
  exact key misnamed (by decide +kernel) type field

/-- C90: the fields of XML that are written under the name of another field are exactly the content type
of attachments and the description of data flows. In every other structure all attributes have different
names, and all elements have different names. -/
theorem C90_clash (type : String) (slots : List (String × Form)) (h : (type, slots) ∈ layouts) :
    (slots.filterMap fun p => match p.2 with
      | .attribute name => some name
      | _ => none).Nodup ∧
    (slots.filterMap fun p => match p.2 with
      | .child tag | .childIf _ tag | .always tag | .ref tag | .list tag _ => some tag
      | .each (.child tag) | .each (.ref tag) | .each (.childIf _ tag) => some tag
      | _ => none).Nodup ↔ type ≠ "Attachment" ∧ type ≠ "ServiceData" := by
  have hall : layouts.all fun p => decide (((p.2.filterMap fun p => match p.2 with
      | .attribute name => some name
      | _ => none).Nodup ∧
    (p.2.filterMap fun p => match p.2 with
      | .child tag | .childIf _ tag | .always tag | .ref tag | .list tag _ => some tag
      | .each (.child tag) | .each (.ref tag) | .each (.childIf _ tag) => some tag
      | _ => none).Nodup) ↔ (p.1 ≠ "Attachment" ∧ p.1 ≠ "ServiceData")) := by decide +kernel
  exact of_decide_eq_true (List.all_eq_true.mp hall _ h)

/-! ### Non-vacuity -/

/-- Two lists of the same kind under different names. -/
def parts : Composition :=
  { bomRef := none, aggregate := .complete, assemblies := some ["a"], dependencies := some ["b"],
    vulnerabilities := none, signature := none }

attribute [local instance] Example.f32 Example.limit

/-- The assemblies are the member `assemblies`, the dependencies the member `dependencies`. -/
example : json parts.tree = .obj [("aggregate", .str "complete"), ("assemblies", .arr [.str "a"]),
    ("dependencies", .arr [.str "b"])] := by
  rw [Composition.json_tree .v1_3 parts |> (show json parts.tree = _ from ·)]
  rfl

/-- The assemblies are in the element `assemblies`, the dependencies in the element `dependencies`. -/
example : xml parts.tree (.child "composition") = [.start "composition" [],
    .start "aggregate" [], .chars "complete", .stop,
    .start "assemblies" [], .start "assembly" [("ref", "a")], .stop, .stop,
    .start "dependencies" [], .start "dependency" [("ref", "b")], .stop, .stop, .stop] := by decide +kernel

/-- The document of the example meets the conditions, in both formats. -/
example : Bom.parseJson (jsonDocument .v1_5 (Example.bom.at .v1_5).tree) = .ok (Example.bom.at .v1_5) ∧
    Bom.parseXmlWith .v1_5 (document SpecVersion.v1_5.namespace (xml (Example.bom.at .v1_5).tree (.child "bom"))) =
      .ok (Example.bom.at .v1_5) :=
  ⟨C90_json_read (Example.bom_jsonOk _), C90_xml_read (Example.bom_xmlOk _)⟩

end Cdx.Props
