import Verif.Lemmas.Dated
import Verif.Lemmas.Finds
import Verif.Lemmas.Brings
import Verif.Props.Exact
import Verif.Props.ExactXml
import Verif.Props.Reread
import Verif.Props.RereadXml

/-!
# C91: reading gives only what the version of the document has

With it, the exact conditions under which C68 and C76 hold.
-/

set_option linter.unusedSectionVars false

namespace Cdx.Props

open Spec

section
variable [F32Format] [ReadLimit] {v w : SpecVersion} {b : Bom} {j : Json} {evs : List XEvent}

/-- C91: what is read from JSON has, on every level, no field that came with a later version than that of
the document. -/
theorem C91_json (h : Bom.parseJson j = .ok b) : AllDated b.specVersion b := by
  rw [C35_selects (C35_labels h)] at h
  exact fun _ hp => (Fixed.inside hp (Bom.brings (Nat.le_refl _) j.toValue b h)).dated

/-- C91: the same, when the caller says which version to read. -/
theorem C91_json_with (h : Bom.parseJsonWith v j = .ok b) : AllDated v b :=
  fun _ hp => (Fixed.inside hp (Bom.brings (Nat.le_refl _) j b h)).dated

/-- C91: the same for XML. -/
theorem C91_xml (h : Bom.parseXmlWith v evs = .ok b) : AllDated v b :=
  fun _ hp => (Fixed.inside hp (Bom.finds_document (Nat.le_refl _) h)).dated

/-- C91: so writing what was read from JSON in the same or a later version leaves nothing out because of
the version: the document is the part of itself that this version has. -/
theorem C91_nothing_dropped_json (h : Bom.parseJson j = .ok b)
    (hw : w = b.specVersion ∨ w = .v1_5 ∨ b.specVersion = .v1_3) :
    b.at w = { b with specVersion := w } := by
  rw [C35_selects (C35_labels h)] at h
  have hu : b.specVersion.ord ≤ w.ord := by
    generalize b.specVersion = v at hw
    cases v <;> cases w <;> first | decide | (rcases hw with h | h | h <;> cases h)
  exact Bom.brings hu j.toValue b h

/-- C91: the same for XML. -/
theorem C91_nothing_dropped_xml (h : Bom.parseXmlWith v evs = .ok b)
    (hw : w = v ∨ w = .v1_5 ∨ v = .v1_3) : b.at w = { b with specVersion := w } := by
  have hu : v.ord ≤ w.ord := by
    cases v <;> cases w <;> first | decide | (rcases hw with h | h | h <;> cases h)
  exact Bom.finds_document hu h

/-- C68: a document that was read from JSON, whatever is in it, is read as the same after it was written
as JSON, in its own version or a later one, exactly if it satisfies the condition of C77. -/
theorem C68_exact (h : Bom.parseJson j = .ok b)
    (hw : w = b.specVersion ∨ w = .v1_5 ∨ b.specVersion = .v1_3) :
    (∃ j', b.outputJson w = .ok j' ∧ Bom.parseJson j' = .ok { b with specVersion := w }) ↔
      Bom.JsonOk w b := by
  rw [← C91_nothing_dropped_json h hw]
  exact C77_exact

/-- C76: a document that was read from XML, whatever white space is in it, is read as the same after it
was written as XML, in its own version or a later one, exactly if it satisfies the condition of C78. -/
theorem C76_exact (h : Bom.parseXmlWith v evs = .ok b) (hw : w = v ∨ w = .v1_5 ∨ v = .v1_3) :
    (∃ ns out, b.outputXml w = .ok (ns, out) ∧
      Bom.parseXmlWith w (document ns out) = .ok { b with specVersion := w }) ↔ Bom.XmlOk w b := by
  rw [← C91_nothing_dropped_xml h hw]
  exact C78_exact

end

/-! ### Non-vacuity -/

attribute [local instance] Example.f32 Example.limit

/-- A document with something of nearly everything of version 1.5 has things that came later than 1.3
and 1.4; its parts of these versions, which are read back from both formats, have not. -/
example : ¬ AllDated .v1_3 Example.bom ∧ ¬ AllDated .v1_4 Example.bom ∧
    AllDated .v1_3 (Example.bom.at .v1_3) ∧ AllDated .v1_4 (Example.bom.at .v1_4) ∧
    AllDated .v1_5 Example.bom := by
  refine ⟨fun h => ?_, fun h => ?_, C91_xml (Bom.document_reads (Example.bom_xmlOk .v1_3)),
    C91_xml (Bom.document_reads (Example.bom_xmlOk .v1_4)),
    C91_xml (Bom.document_reads (Example.bom_xmlOk .v1_5))⟩
  · exact nomatch ((h _ (.refl _)).1 rfl).1
  · exact nomatch ((h _ (.refl _)).2 (by decide)).1

/-- A document of version 1.4 with a member that came with version 1.5, inside a component. -/
def early (version : String) : Json :=
  .obj [("bomFormat", .str "CycloneDX"), ("specVersion", .str version), ("version", .nat 1),
    ("components", .arr [.obj [("type", .str "library"), ("name", .str "n"), ("version", .str "1"),
        ("data", .obj []), ("signature", .obj [("algorithm", .str "RS256"), ("value", .str "s")])]])]

/-- How many signatures the components of a document have. -/
def signatures (b : Bom) : Nat := ((b.components.getD []).filter (·.signature.isSome)).length

/-- It is read; the signature of the component is taken in version 1.4, and not in version 1.3. -/
example : (Bom.parseJson (early "1.3")).toOption.map signatures = some 0 ∧
    (Bom.parseJson (early "1.4")).toOption.map signatures = some 1 := by decide +kernel

end Cdx.Props
