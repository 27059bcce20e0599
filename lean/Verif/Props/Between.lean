import Verif.Props.Exact
import Verif.Props.ExactXml
import Verif.Lemmas.Format.Between
import Verif.Props.ExampleBom

/-!
# C95: converting a document to another version
-/

set_option linter.unusedSectionVars false

namespace Cdx.Props

open Cdx

section
variable [F32Format] [ReadLimit] {v w : SpecVersion} {b : Bom}

/-- C95, down: a BOM that JSON keeps in version `w`, written in this version and read again, gives the
same file of an earlier version as the BOM itself, in both formats, or the same failure. -/
theorem C95_down_json (hle : v.ord ≤ w.ord) (h : Bom.JsonOk w b) :
    ∃ j c, b.outputJson w = .ok j ∧ Bom.parseJson j = .ok c ∧
      c.outputJson v = b.outputJson v ∧ c.outputXml v = b.outputXml v := by
  obtain ⟨j, h1, h2⟩ := C77_exact.2 h
  exact ⟨j, _, h1, h2, Bom.outputJson_both hle b, Bom.outputXml_both hle b⟩

/-- C95, down, for XML. -/
theorem C95_down_xml (hle : v.ord ≤ w.ord) (h : Bom.XmlOk w b) :
    ∃ ns e c, b.outputXml w = .ok (ns, e) ∧ Bom.parseXmlWith w (document ns e) = .ok c ∧
      c.outputJson v = b.outputJson v ∧ c.outputXml v = b.outputXml v := by
  obtain ⟨ns, e, h1, h2⟩ := C78_exact.2 h
  exact ⟨ns, e, _, h1, h2, Bom.outputJson_both hle b, Bom.outputXml_both hle b⟩

private theorem up_same (hle : v.ord ≤ w.ord) :
    (b.at v).at w = { b.at v with specVersion := w } := by
  rw [Bom.at_both]
  have : w.earlier v = v := by
    cases v <;> cases w <;> first | rfl | exact absurd hle (by decide)
  rw [this]

private theorem back (hle : v.ord ≤ w.ord) : ((b.at v).at w).outputJson v = b.outputJson v ∧
    ((b.at v).at w).outputXml v = b.outputXml v :=
  ⟨(Bom.outputJson_both hle _).trans (Bom.outputJson_both (Nat.le_refl _) b),
    (Bom.outputXml_both hle _).trans (Bom.outputXml_both (Nat.le_refl _) b)⟩

/-- C95, up: what is read from a JSON file of version `v` can be written in a later version, and what is
read from there is the same BOM but for its version. Written in `v` it gives the first file again. -/
theorem C95_up_json (hle : v.ord ≤ w.ord) (h : Bom.JsonOk v b) :
    ∃ j c j' c', b.outputJson v = .ok j ∧ Bom.parseJson j = .ok c ∧
      c.outputJson w = .ok j' ∧ Bom.parseJson j' = .ok c' ∧
      c' = { c with specVersion := w } ∧ c'.outputJson v = .ok j := by
  obtain ⟨j, h1, h2⟩ := C77_exact.2 h
  obtain ⟨j', h3, h4⟩ := C77_exact.2 (Bom.json_up hle h)
  exact ⟨j, _, j', _, h1, h2, h3, h4, up_same hle, (back hle).1.trans h1⟩

/-- C95, up, for XML. Missing: an empty list of tools, which 1.5 does not keep, see
`C95_up_xml_refuted`. -/
theorem C95_up_xml_partial (hle : v.ord ≤ w.ord) (h : Bom.XmlOk v b) :
    ∃ ns e c, b.outputXml v = .ok (ns, e) ∧ Bom.parseXmlWith v (document ns e) = .ok c ∧
      ((w = .v1_5 → (∀ m, c.metadata = some m → m.tools ≠ some (.list [])) ∧
        ∀ l, c.vulnerabilities = some l → ∀ y ∈ l, y.tools ≠ some (.list [])) →
      ∃ ns' e' c', c.outputXml w = .ok (ns', e') ∧ Bom.parseXmlWith w (document ns' e') = .ok c' ∧
        c' = { c with specVersion := w } ∧ c'.outputXml v = .ok (ns, e)) := by
  obtain ⟨ns, e, h1, h2⟩ := C78_exact.2 h
  refine ⟨ns, e, _, h1, h2, fun he => ?_⟩
  obtain ⟨ns', e', h3, h4⟩ := C78_exact.2 (Bom.xml_up hle he h)
  exact ⟨ns', e', _, h3, h4, up_same hle, (back hle).2.trans h1⟩

end

/-- A BOM with an empty list of tools. -/
def noTools : Bom where
  version := 1
  specVersion := .v1_4
  metadata := some { tools := some (.list []) }

section
attribute [local instance] Example.f32 Example.limit

/-- C95: the condition is needed. This BOM comes back from XML in version 1.4, but not in 1.5. -/
theorem C95_up_xml_refuted : Bom.XmlOk .v1_4 noTools ∧
    ¬ ∃ ns e c, noTools.outputXml .v1_5 = .ok (ns, e) ∧ Bom.parseXmlWith .v1_5 (document ns e) = .ok c ∧
      c = { noTools with specVersion := .v1_5 } := by
  constructor
  · constructor <;> simp [noTools]
    constructor <;> simp [Tools.XmlOk]
  · rintro ⟨ns, e, c, h1, h2, rfl⟩
    have h := C78_exact.1 ⟨ns, e, h1, h2⟩
    exact ((h.metadata _ rfl).tools _ rfl).1 rfl rfl

/-- The hypotheses are met by a BOM of which 1.4 and 1.3 do not have all. -/
example : (∀ v, Bom.JsonOk v Example.bom ∧ Bom.XmlOk v Example.bom) ∧
    Example.bom.properties ≠ none ∧ (Example.bom.at .v1_4).properties = none ∧
    (Example.bom.at .v1_4).vulnerabilities ≠ none ∧ (Example.bom.at .v1_3).vulnerabilities = none ∧
    (∀ m, (Example.bom.at .v1_4).metadata = some m → m.tools ≠ some (.list [])) := by
  refine ⟨fun v => ⟨Example.bom_jsonOk v, Example.bom_xmlOk v⟩, by simp [Example.bom], rfl,
    fun h => (nomatch h), rfl, ?_⟩
  rintro m ⟨⟩ h
  cases h

end

end Cdx.Props
