import Verif.Lemmas.Gets.Bom
import Verif.Props.Documents
import Verif.Model.DecEq

/-!
# C76: what was read from XML is written so that it is read as the same
-/

namespace Cdx.Props

section
variable [F32Format] [ReadLimit] {v w : SpecVersion} {b : Bom} {evs : List XEvent}

/-- C76 (partial): a document that was read from XML can be written as XML, in its own version and in
every later one, and reading what was written gives the same document, with the version it was written
in. `CleanTexts` and `Bom.XmlKept` exclude documents for which this fails: see the counterexamples
below. -/
theorem C76_reread_partial (h : Bom.parseXmlWith v evs = .ok b) (hc : CleanTexts evs)
    (hw : w = v ∨ w = .v1_5 ∨ v = .v1_3) (hk : Bom.XmlKept w b) :
    ∃ ns out, b.outputXml w = .ok (ns, out) ∧
      Bom.parseXmlWith w (document ns out) = .ok { b with specVersion := w } := by
  have hu : v.ord ≤ w.ord := by
    cases v <;> cases w <;> first | decide | (rcases hw with h | h | h <;> cases h)
  obtain ⟨h1, h2⟩ := Bom.gets_document hu hc h hk
  obtain ⟨ns, out, h3, h4⟩ := C41_xml_partial h1
  exact ⟨ns, out, h3, h2 ▸ h4⟩

/-- C76 (partial): in particular, nothing changes in its own version. -/
theorem C76_fixpoint_partial (h : Bom.parseXmlWith v evs = .ok b) (hc : CleanTexts evs)
    (hk : Bom.XmlKept v b) :
    ∃ ns out, b.outputXml v = .ok (ns, out) ∧ Bom.parseXmlWith v (document ns out) = .ok b := by
  obtain ⟨ns, out, h1, h2⟩ := C76_reread_partial h hc (.inl rfl) hk
  refine ⟨ns, out, h1, ?_⟩
  rw [h2, ← (C62_accepts_own h).1]

end

/-! ### A document that is kept -/

attribute [local instance] Example.f32 Example.limit

/-- Computes `CleanTexts`. -/
def cleanTexts (evs : List XEvent) : Bool :=
  evs.all fun
    | .chars s => decide (xmlTrim s = s) && decide (s ≠ "")
    | .cdata s => decide (xmlTrim s = s) && decide (s ≠ "")
    | _ => true

theorem cleanTexts_sound {evs : List XEvent} (h : cleanTexts evs = true) : CleanTexts evs := by
  intro e he
  have := List.all_eq_true.mp h e he
  cases e with
  | chars s => simpa [XEvent.Clean, Trimmed] using this
  | cdata s => simpa [XEvent.Clean, Trimmed] using this
  | _ => trivial

namespace Example
open Cdx.Example

theorem organization_kept : OrganizationalEntity.XmlKept organization := by kept

theorem licenses_kept (v : SpecVersion) : Licenses.XmlKept v licenses := by kept

theorem component_kept (v : SpecVersion) : Component.XmlKept v component := by
  have := licenses_kept v
  have := organization_kept
  kept

theorem service_kept (v : SpecVersion) : Service.XmlKept v service := by
  have := organization_kept
  kept

theorem vulnerability_kept (v : SpecVersion) : Vulnerability.XmlKept v vulnerability := by
  have := organization_kept
  kept

theorem workflow_kept : Workflow.XmlKept workflow := by kept

theorem bom_kept (v : SpecVersion) : Bom.XmlKept v bom := by
  have := licenses_kept v
  have := component_kept v
  have := service_kept v
  have := vulnerability_kept v
  have := workflow_kept
  have := organization_kept
  kept

end Example

/-- The events of a document that has something of nearly everything. -/
def fullDocument : List XEvent := document SpecVersion.v1_5.namespace (Example.bom.writeXml .v1_5)

/-- It is read, its texts are clean, and what is read from it is kept. -/
example : Bom.parseXmlWith .v1_5 fullDocument = .ok Example.bom ∧ CleanTexts fullDocument ∧
    Bom.XmlKept .v1_5 Example.bom :=
  ⟨Bom.document_reads (Example.bom_xmlOk .v1_5), cleanTexts_sound (by decide +kernel), Example.bom_kept _⟩

/-- So is the same document of version 1.3, also when it is written as version 1.5. -/
example : Bom.parseXmlWith .v1_3 (document SpecVersion.v1_3.namespace (Example.bom.writeXml .v1_3)) =
      .ok (Example.bom.at .v1_3) ∧
    CleanTexts (document SpecVersion.v1_3.namespace (Example.bom.writeXml .v1_3)) ∧
    Bom.XmlKept .v1_5 (Example.bom.at .v1_3) :=
  ⟨Bom.document_reads (Example.bom_xmlOk .v1_3), cleanTexts_sound (by decide +kernel), by kept⟩

/-! ### What is not kept -/

/-- An element. -/
def tag (name : String) (attrs : List (String × String)) (body : List XEvent) : List XEvent :=
  .start ⟨name, some SpecVersion.v1_5.namespace, none⟩ attrs (some SpecVersion.v1_5.namespace) ::
    (body ++ [.stop ⟨name, some SpecVersion.v1_5.namespace, none⟩])

/-- A document of version 1.5. -/
def xmlDocument (body : List XEvent) : List XEvent :=
  .startDocument :: (tag "bom" [("version", "1")] body ++ [.endDocument])

/-- The document is read, and written, and what was written is read as something else. -/
def Changes (evs : List XEvent) : Prop :=
  ∃ b ns out b', Bom.parseXmlWith .v1_5 evs = .ok b ∧ b.outputXml .v1_5 = .ok (ns, out) ∧
    Bom.parseXmlWith .v1_5 (document ns out) = .ok b' ∧ b' ≠ b

/-- The document is read, and written, and what was written is not read. -/
def Unreadable (evs : List XEvent) : Prop :=
  ∃ b ns out e, Bom.parseXmlWith .v1_5 evs = .ok b ∧ b.outputXml .v1_5 = .ok (ns, out) ∧
    Bom.parseXmlWith .v1_5 (document ns out) = .error e

/-- What becomes of a document. -/
def reread (evs : List XEvent) : Option (Bom × Except XErr Bom) :=
  match Bom.parseXmlWith .v1_5 evs with
  | .error _ => none
  | .ok b =>
    match b.outputXml .v1_5 with
    | .error _ => none
    | .ok (ns, out) => some (b, Bom.parseXmlWith .v1_5 (document ns out))

/-- Computes `Changes`. -/
def changes (evs : List XEvent) : Bool :=
  match reread evs with
  | some (b, .ok b') => decide (b' ≠ b)
  | _ => false

/-- Computes `Unreadable`. -/
def unreadable (evs : List XEvent) : Bool :=
  match reread evs with
  | some (_, .error _) => true
  | _ => false

theorem changes_sound {evs : List XEvent} (h : changes evs = true) : Changes evs := by
  unfold changes reread at h
  cases h1 : Bom.parseXmlWith .v1_5 evs with
  | error _ => simp [h1] at h
  | ok b =>
    cases h2 : b.outputXml .v1_5 with
    | error _ => simp [h1, h2] at h
    | ok p =>
      obtain ⟨ns, out⟩ := p
      cases h3 : Bom.parseXmlWith .v1_5 (document ns out) with
      | error _ => simp [h1, h2, h3] at h
      | ok b' => exact ⟨b, ns, out, b', h1, h2, h3, by simpa [h1, h2, h3] using h⟩

theorem unreadable_sound {evs : List XEvent} (h : unreadable evs = true) : Unreadable evs := by
  unfold unreadable reread at h
  cases h1 : Bom.parseXmlWith .v1_5 evs with
  | error _ => simp [h1] at h
  | ok b =>
    cases h2 : b.outputXml .v1_5 with
    | error _ => simp [h1, h2] at h
    | ok p =>
      obtain ⟨ns, out⟩ := p
      cases h3 : Bom.parseXmlWith .v1_5 (document ns out) with
      | error e => exact ⟨b, ns, out, e, h1, h2, h3⟩
      | ok b' => simp [h1, h2, h3] at h

/-- A component with a name and something else. -/
def xmlComponent (name : List XEvent) (body : List XEvent) : List XEvent :=
  tag "components" [] (tag "component" [("type", "library")] (tag "name" [] name ++ body))

/-- White space at the ends of a CDATA section is read but not kept. -/
theorem C76_blanks_lost : Changes (xmlDocument (xmlComponent [.cdata " n "] [])) :=
  changes_sound (by decide +kernel)

/-- An author without name, email and phone is read but not written. -/
theorem C76_author_lost :
    Changes (xmlDocument (tag "metadata" [] (tag "authors" [] (tag "author" [] [])))) :=
  changes_sound (by decide +kernel)

/-- The type `codified-infrastructure` of external references, which the schema has, is read, but
written under another name, and then read as an unknown type. -/
theorem C76_codified_lost :
    Changes (xmlDocument (tag "externalReferences" []
      (tag "reference" [("type", "codified-infrastructure")] (tag "url" [] [.chars "u"])))) :=
  changes_sound (by decide +kernel)

/-- The terms of a license are read but not written. -/
theorem C76_licensing_lost :
    Changes (xmlDocument (xmlComponent [.chars "n"] (tag "licenses" [] (tag "license" []
      (tag "id" [] [.chars "MIT"] ++ tag "licensing" [] (tag "purchaseOrder" [] [.chars "p"])))))) :=
  changes_sound (by decide +kernel)

/-- Where a component occurs is read but not written; and as nothing else of the evidence is there,
the evidence is not written either. -/
theorem C76_occurrences_lost :
    Changes (xmlDocument (xmlComponent [.chars "n"] (tag "evidence" [] (tag "occurrences" []
      (tag "occurrence" [] (tag "location" [] [.chars "l"])))))) :=
  changes_sound (by decide +kernel)

/-- The parts that a workflow and a task must have. -/
def xmlTask : List XEvent :=
  tag "uid" [] [.chars "u"] ++ tag "taskTypes" [] (tag "taskType" [] [.chars "build"])

/-- A workflow with a task is read, but what is written for it cannot be read. -/
theorem C76_task_unreadable :
    Unreadable (xmlDocument (tag "formulation" [] (tag "formula" [] (tag "workflows" []
      (tag "workflow" [("bom-ref", "w")] (xmlTask ++ tag "tasks" []
        (tag "task" [("bom-ref", "t")] xmlTask))))))) :=
  unreadable_sound (by decide +kernel)

end Cdx.Props
