import Verif.Props.Documents
import Verif.Lemmas.XOnly.Bom

/-!
# Property C78: exactly which documents come back from XML
-/

set_option linter.unusedSectionVars false

namespace Cdx.Props
open Cdx

section
variable [F32Format] [ReadLimit] {v : SpecVersion} {b : Bom}

/-- C78: a document can be written as XML and read back, without a change other than the loss of
what the version does not have, exactly if it satisfies `Bom.XmlOk`: whatever violates this condition
is not written, cannot be read again or comes back changed. -/
theorem C78_exact :
    (∃ ns w, b.outputXml v = .ok (ns, w) ∧ Bom.parseXmlWith v (document ns w) = .ok (b.at v)) ↔
      Bom.XmlOk v b := by
  constructor
  · rintro ⟨ns, w, h1, h2⟩
    unfold Bom.outputXml at h1
    split at h1
    · cases h1
      exact Bom.document_only v h2
    · cases h1
  · exact C41_xml_partial

/-- C78: for version 1.5, which has everything a document can contain, the document comes back
itself. -/
theorem C78_same (hv : b.specVersion = .v1_5) :
    (∃ ns w, b.outputXml .v1_5 = .ok (ns, w) ∧ Bom.parseXmlWith .v1_5 (document ns w) = .ok b) ↔
      Bom.XmlOk .v1_5 b := by
  rw [← C78_exact]
  have : b.at .v1_5 = b := by
    rw [Bom.at_v1_5]
    cases b
    cases hv
    rfl
  rw [this]

/-- C78: a document that is written and does not satisfy the condition is not accepted by the reader,
or another document is read. -/
theorem C78_lost (h : ¬ Bom.XmlOk v b) {ns w} (hw : b.outputXml v = .ok (ns, w)) :
    (∃ e, Bom.parseXmlWith v (document ns w) = .error e) ∨
      ∃ b', Bom.parseXmlWith v (document ns w) = .ok b' ∧ b' ≠ b.at v := by
  cases hr : Bom.parseXmlWith v (document ns w) with
  | error e => exact .inl ⟨e, rfl⟩
  | ok b' => exact .inr ⟨b', rfl, fun e => h (C78_exact.mp ⟨ns, w, hw, by rw [hr, e]⟩)⟩

end

attribute [local instance] Example.f32 Example.limit in
/-- Non-vacuity: a document with something of everything satisfies the condition in each version; with
white space at an end of a text or a version number that is too large it does not. -/
example (v : SpecVersion) : Bom.XmlOk v Example.bom ∧
    ¬ Bom.XmlOk .v1_5 { Example.bom with properties := some [⟨"a", " b"⟩] } ∧
    ¬ Bom.XmlOk v { Example.bom with version := 2 ^ 32 } :=
  ⟨Example.bom_xmlOk _, fun h => by
    have h : Trimmed " b" := (h.properties rfl _ rfl _ (.head _)).value
    exact absurd h (by unfold Trimmed; decide +kernel),
   fun h => absurd h.version (by decide)⟩

end Cdx.Props
