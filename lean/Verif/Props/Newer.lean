import Verif.Lemmas.Newer
import Verif.Props.Dated

/-!
# C98: written in a later version, a document is the same but for the version
-/

namespace Cdx.Props

open Spec

section
variable [F32Format] [ReadLimit] {v w : SpecVersion} {b : Bom} {j : Json} {o : List (String × Json)}
  {evs : List XEvent} {ns : String} {out : List WEvent}

/-- C98: if a document has nothing that a version lacks, then the JSON file of a later version is that of
this version, with the later version in its member `specVersion`. -/
theorem C98_json (hlt : v.ord < w.ord) (hb : b.at v = { b with specVersion := v })
    (h : b.outputJson v = .ok (.obj o)) : b.outputJson w = .ok (.obj (relabel w.display o)) := by
  have hw : b.converts w = true := by
    cases w with
    | v1_3 => cases v <;> exact absurd hlt (by decide)
    | _ => rfl
  unfold Bom.outputJson at h ⊢
  split at h
  · cases h' : Bom.toJson v b <;> rw [h'] at h <;> cases h
    obtain ⟨o', e, e'⟩ := Bom.toJson_relabel (v := v) w.display b
    rw [h'] at e
    cases e
    have := Bom.toJson_newer hlt b
    rw [hb, e'] at this
    rw [if_pos hw]
    exact congrArg Except.ok this
  · exact nomatch h

/-- C98: the same for XML: the files have the same elements, attributes and texts, in the same order, and
differ only in the namespace. -/
theorem C98_xml (hlt : v.ord < w.ord) (hb : b.at v = { b with specVersion := v })
    (h : b.outputXml v = .ok (ns, out)) : b.outputXml w = .ok (w.namespace, out) := by
  have hw : b.converts w = true := by
    cases w with
    | v1_3 => cases v <;> exact absurd hlt (by decide)
    | _ => rfl
  unfold Bom.outputXml at h ⊢
  split at h
  · cases h
    have := Bom.writeXml_newer hlt b
    rw [hb] at this
    rw [if_pos hw]
    exact congrArg (fun x => Except.ok (w.namespace, x)) this
  · exact nomatch h

/-- C98: in particular for every document that was read from JSON. -/
theorem C98_read_json (h : Bom.parseJson j = .ok b) (hlt : b.specVersion.ord < w.ord) :
    (∀ o, b.outputJson b.specVersion = .ok (.obj o) → b.outputJson w = .ok (.obj (relabel w.display o))) ∧
    (∀ ns out, b.outputXml b.specVersion = .ok (ns, out) → b.outputXml w = .ok (w.namespace, out)) :=
  have hb := C91_nothing_dropped_json h (.inl rfl)
  ⟨fun _ => C98_json hlt hb, fun _ _ => C98_xml hlt hb⟩

/-- C98: and for every document that was read from XML. -/
theorem C98_read_xml (h : Bom.parseXmlWith v evs = .ok b) (hlt : v.ord < w.ord) :
    (∀ o, b.outputJson v = .ok (.obj o) → b.outputJson w = .ok (.obj (relabel w.display o))) ∧
    (∀ ns out, b.outputXml v = .ok (ns, out) → b.outputXml w = .ok (w.namespace, out)) :=
  have hb := C91_nothing_dropped_xml h (.inl rfl)
  ⟨fun _ => C98_json hlt hb, fun _ _ => C98_xml hlt hb⟩

/-- C98: of any document, what is written in an earlier version is, but for the version, what a later
version writes of the part that the earlier version has. -/
theorem C98_part (hlt : v.ord < w.ord) :
    (∀ o, b.outputJson v = .ok (.obj o) → (b.at v).outputJson w = .ok (.obj (relabel w.display o))) ∧
    (∀ ns out, b.outputXml v = .ok (ns, out) → (b.at v).outputXml w = .ok (w.namespace, out)) := by
  have hb : (b.at v).at v = { b.at v with specVersion := v } := by
    rw [Bom.at_both, SpecVersion.earlier, if_pos (Nat.le_refl _)]
  refine ⟨fun o h => C98_json hlt hb ?_, fun ns out h => C98_xml (ns := ns) hlt hb ?_⟩
  · rw [Bom.outputJson_both (Nat.le_refl _), h]
  · rw [Bom.outputXml_both (Nat.le_refl _), h]

end

/-! ### Non-vacuity -/

attribute [local instance] Example.f32 Example.limit

/-- How many events a written XML file has, and how many members a written JSON file. -/
def sizes (v : SpecVersion) (b : Bom) : Option (Nat × Nat) :=
  match b.outputXml v, b.outputJson v with
  | .ok (_, out), .ok (.obj o) => some (out.length, o.length)
  | _, _ => none

/-- The part that version 1.3 has of a document with something of nearly everything can be written in
all versions. -/
example : ∃ o ns out, (Example.bom.at .v1_3).outputJson .v1_3 = .ok (.obj o) ∧
    (Example.bom.at .v1_3).outputJson .v1_5 = .ok (.obj (relabel "1.5" o)) ∧
    (Example.bom.at .v1_3).outputXml .v1_3 = .ok (ns, out) ∧
    (Example.bom.at .v1_3).outputXml .v1_5 = .ok ("http://cyclonedx.org/schema/bom/1.5", out) ∧
    Example.bom.outputXml .v1_3 = .ok (ns, out) := by
  have hc : Example.bom.converts .v1_3 = true :=
    (Bom.converts_at .v1_3 Example.bom).symm.trans (Example.bom_xmlOk .v1_3).converts
  have hj : Example.bom.outputJson .v1_3 = .ok (Bom.toJson .v1_3 Example.bom) := if_pos hc
  have hx : Example.bom.outputXml .v1_3 = .ok (SpecVersion.namespace .v1_3, Bom.writeXml .v1_3 Example.bom) :=
    if_pos hc
  have h := C98_part (v := .v1_3) (w := .v1_5) (b := Example.bom) (by decide)
  refine ⟨_, _, _, ?_, h.1 _ hj, ?_, h.2 _ _ hx, hx⟩
  · rw [Bom.outputJson_both (Nat.le_refl _), hj]; rfl
  · rw [Bom.outputXml_both (Nat.le_refl _), hx]

/-- The document itself is written differently in the versions, so that the condition matters. -/
example : sizes .v1_3 Example.bom ≠ sizes .v1_4 Example.bom ∧
    sizes .v1_4 Example.bom ≠ sizes .v1_5 Example.bom ∧ sizes .v1_3 Example.bom ≠ none ∧
    sizes .v1_3 (Example.bom.at .v1_3) = sizes .v1_5 (Example.bom.at .v1_3) := by decide +kernel

/-- A document of version 1.4 is read, and written in 1.4 and 1.5. -/
example : ∃ b, Bom.parseJson (early "1.4") = .ok b ∧ b.specVersion = .v1_4 ∧
    ∃ o, b.outputJson .v1_4 = .ok (.obj o) ∧ b.outputJson .v1_5 = .ok (.obj (relabel "1.5" o)) :=
  ⟨_, rfl, rfl, _, rfl, rfl⟩

end Cdx.Props
