import Verif.Lemmas.Convert
import Verif.Lemmas.Finds
import Verif.Lemmas.Brings
import Verif.Props.Exact
import Verif.Props.ExactXml
import Verif.Props.Reread
import Verif.Props.RereadXml

/-!
# C89: converting documents between the two formats
-/

set_option linter.unusedSectionVars false

namespace Cdx.Props

open Spec

section
variable [F32Format] [ReadLimit] {v w : SpecVersion} {b : Bom} {j : Json} {evs : List XEvent}

/-- C89: whatever comes back unchanged when it is written as XML comes back unchanged when it is
written as JSON, apart from infinite scores, chains of signatures and data flows of version 1.5. -/
theorem C89_json_keeps_more
    (h : ∃ ns out, b.outputXml v = .ok (ns, out) ∧
      Bom.parseXmlWith v (document ns out) = .ok (b.at v))
    (hscore : ∀ r s, Inside Elem.parts (.bom b) (.vulnerabilityRating r) → r.score = some s →
      F32.isFinite s = true)
    (hchain : ∀ l, ¬ Inside Elem.parts (.bom b) (.signature (.chain l)))
    (hflow : v = .v1_5 → ∀ l, ¬ Inside Elem.parts (.bom b) (.serviceDataChoice (.serviceData l))) :
    ∃ j, b.outputJson v = .ok j ∧ Bom.parseJson j = .ok (b.at v) := by
  refine C77_exact.mpr (Convert.bom (fun p hp => ?_) (C78_exact.mp h))
  cases p with
  | vulnerabilityRating r => exact fun s hs => hscore r s hp hs
  | signature s => exact fun l e => hchain l (e ▸ hp)
  | serviceDataChoice d => exact fun hv l e => hflow hv l (e ▸ hp)
  | _ => trivial

/-- C89: a document that was read from XML, whatever white space it contains, can be converted to JSON,
in its own version or a later one, so that reading the result gives the same document, exactly if it
satisfies the condition of C77. -/
theorem C89_xml_to_json (h : Bom.parseXmlWith v evs = .ok b)
    (hw : w = v ∨ w = .v1_5 ∨ v = .v1_3) :
    (∃ j, b.outputJson w = .ok j ∧ Bom.parseJson j = .ok { b with specVersion := w }) ↔
      Bom.JsonOk w b := by
  have hu : v.ord ≤ w.ord := by
    cases v <;> cases w <;> first | decide | (rcases hw with h | h | h <;> cases h)
  rw [← Bom.finds_document hu h]
  exact C77_exact

/-- C89: in particular, a document whose texts are not surrounded by white space and that XML keeps is
converted to JSON without a change, apart from infinite scores, chains of signatures and data flows. -/
theorem C89_xml_kept (h : Bom.parseXmlWith v evs = .ok b) (hc : CleanTexts evs)
    (hw : w = v ∨ w = .v1_5 ∨ v = .v1_3) (hk : Bom.XmlKept w b)
    (hscore : ∀ r s, Inside Elem.parts (.bom b) (.vulnerabilityRating r) → r.score = some s →
      F32.isFinite s = true)
    (hchain : ∀ l, ¬ Inside Elem.parts (.bom b) (.signature (.chain l)))
    (hflow : w = .v1_5 → ∀ l, ¬ Inside Elem.parts (.bom b) (.serviceDataChoice (.serviceData l))) :
    ∃ j, b.outputJson w = .ok j ∧ Bom.parseJson j = .ok { b with specVersion := w } := by
  have hu : v.ord ≤ w.ord := by
    cases v <;> cases w <;> first | decide | (rcases hw with h | h | h <;> cases h)
  obtain ⟨h1, h2⟩ := Bom.gets_document hu hc h hk
  obtain ⟨j, h3, h4⟩ := C89_json_keeps_more (C78_exact.mpr h1) hscore hchain hflow
  exact ⟨j, h3, h2 ▸ h4⟩

/-- C89: and then it can be converted back, if XML keeps it: what is read from the XML written from the
JSON is the same document. -/
theorem C89_back_to_xml (h : Bom.parseXmlWith v evs = .ok b)
    (hw : w = v ∨ w = .v1_5 ∨ v = .v1_3) (hj : Bom.JsonOk w b) :
    ∃ j b', b.outputJson w = .ok j ∧ Bom.parseJson j = .ok b' ∧ b' = { b with specVersion := w } ∧
      b'.outputXml w = b.outputXml w ∧
      ((∃ ns out, b'.outputXml w = .ok (ns, out) ∧
        Bom.parseXmlWith w (document ns out) = .ok b') ↔ Bom.XmlOk w b) := by
  obtain ⟨j, h1, h2⟩ := (C89_xml_to_json h hw).mpr hj
  have hu : v.ord ≤ w.ord := by
    cases v <;> cases w <;> first | decide | (rcases hw with h | h | h <;> cases h)
  refine ⟨j, _, h1, h2, rfl, rfl, ?_⟩
  rw [← Bom.finds_document hu h]
  have e : (b.at w).outputXml w = b.outputXml w := by rw [Bom.finds_document hu h]; rfl
  rw [e]
  exact C78_exact

/-- C89: a document that was read from JSON can be converted to XML, in its own version or a later one,
so that reading the result gives the same document, exactly if it satisfies the condition of C78. -/
theorem C89_json_to_xml (h : Bom.parseJson j = .ok b)
    (hw : w = b.specVersion ∨ w = .v1_5 ∨ b.specVersion = .v1_3) :
    (∃ ns out, b.outputXml w = .ok (ns, out) ∧
      Bom.parseXmlWith w (document ns out) = .ok { b with specVersion := w }) ↔ Bom.XmlOk w b := by
  rw [C35_selects (C35_labels h)] at h
  have hu : b.specVersion.ord ≤ w.ord := by
    generalize b.specVersion = v at hw
    cases v <;> cases w <;> first | decide | (rcases hw with h | h | h <;> cases h)
  rw [← Bom.brings hu j.toValue b h]
  exact C78_exact

/-- C89: and then it can be converted back: what is written as JSON from the XML is what is written as
JSON from the document itself, and it is read as the same document. -/
theorem C89_there_and_back (hj : j.Settled) (h : Bom.parseJson j = .ok b)
    (hw : w = b.specVersion ∨ w = .v1_5 ∨ b.specVersion = .v1_3) (hx : Bom.XmlOk w b) :
    ∃ ns out b' j', b.outputXml w = .ok (ns, out) ∧
      Bom.parseXmlWith w (document ns out) = .ok b' ∧ b' = { b with specVersion := w } ∧
      b'.outputJson w = .ok j' ∧ b.outputJson w = .ok j' ∧ Bom.parseJson j' = .ok b' := by
  obtain ⟨ns, out, h1, h2⟩ := (C89_json_to_xml h hw).mpr hx
  obtain ⟨j', h3, h4⟩ := C68_reread_partial hj h hw
  exact ⟨ns, out, _, j', h1, h2, rfl, h3, h3, h4⟩

end

/-! ### Non-vacuity and what is lost -/

attribute [local instance] Example.f32 Example.limit

/-- Non-vacuity: a document with something of nearly everything is kept by both formats. -/
example : (∃ ns out, Example.bom.outputXml .v1_5 = .ok (ns, out) ∧
      Bom.parseXmlWith .v1_5 (document ns out) = .ok Example.bom) ∧
    ∃ j, Example.bom.outputJson .v1_5 = .ok j ∧ Bom.parseJson j = .ok Example.bom :=
  ⟨(C78_same rfl).mpr (Example.bom_xmlOk _), (C77_same rfl).mpr (Example.bom_jsonOk _)⟩

/-- Checks all parts of an element, up to a depth. -/
def checkParts (P : Elem → Bool) : Nat → Elem → Bool
  | 0, _ => false
  | n + 1, e => P e && e.parts.all (checkParts P n)

theorem checkParts_sound {P : Elem → Bool} {e p : Elem} (hp : Inside Elem.parts e p) :
    ∀ n, checkParts P n e = true → P p = true := by
  induction hp with
  | refl e =>
    intro n h
    cases n with
    | zero => exact absurd h nofun
    | succ n => exact ((Bool.and_eq_true _ _).mp h).1
  | step hm _ ih =>
    intro n h
    cases n with
    | zero => exact absurd h nofun
    | succ n => exact ih n (List.all_eq_true.mp ((Bool.and_eq_true _ _).mp h).2 _ hm)

/-- The three parts on which JSON is weaker do not occur in the document of the example. -/
example : (∀ r s, Inside Elem.parts (.bom Example.bom) (.vulnerabilityRating r) →
      r.score = some s → F32.isFinite s = true) ∧
    (∀ l, ¬ Inside Elem.parts (.bom Example.bom) (.signature (.chain l))) ∧
    ∀ l, ¬ Inside Elem.parts (.bom Example.bom) (.serviceDataChoice (.serviceData l)) := by
  refine ⟨fun r s hp hs => ?_, fun l hp => ?_, fun l hp => ?_⟩
  · have := checkParts_sound (P := fun
      | .vulnerabilityRating r => (r.score.map F32.isFinite).getD true
      | _ => true) hp 20 (by decide +kernel)
    simpa [hs] using this
  · exact absurd (checkParts_sound (P := fun
      | .signature (.chain _) => false
      | _ => true) hp 20 (by decide +kernel)) nofun
  · exact absurd (checkParts_sound (P := fun
      | .serviceDataChoice (.serviceData _) => false
      | _ => true) hp 20 (by decide +kernel)) nofun

/-- The document comes back from XML as it was, and does not come back from JSON as it was. -/
def LostInJson (b : Bom) : Prop :=
  (∃ ns out, b.outputXml .v1_5 = .ok (ns, out) ∧
    Bom.parseXmlWith .v1_5 (document ns out) = .ok b) ∧
  ∃ j, b.outputJson .v1_5 = .ok j ∧ Bom.parseJson j ≠ .ok b

/-- Computes `LostInJson`. -/
def lostInJson (b : Bom) : Bool :=
  match b.outputXml .v1_5, b.outputJson .v1_5 with
  | .ok (ns, out), .ok j =>
    (match Bom.parseXmlWith .v1_5 (document ns out) with
      | .ok b' => decide (b' = b)
      | .error _ => false) &&
    (match Bom.parseJson j with
      | .ok b' => decide (b' ≠ b)
      | .error _ => true)
  | _, _ => false

theorem lostInJson_sound {b : Bom} (h : lostInJson b = true) : LostInJson b := by
  unfold lostInJson at h
  split at h
  · rename_i ns out j h1 h2
    rw [Bool.and_eq_true] at h
    refine ⟨⟨ns, out, h1, ?_⟩, j, h2, ?_⟩
    · revert h
      cases Bom.parseXmlWith .v1_5 (document ns out) with
      | ok b' => exact fun h => congrArg Except.ok (of_decide_eq_true h.1)
      | error _ => exact fun h => absurd h.1 nofun
    · revert h
      cases Bom.parseJson j with
      | ok b' => exact fun h e => of_decide_eq_true h.2 (Except.ok.inj e)
      | error _ => exact fun _ => nofun
  · exact absurd h nofun

/-- A component with a chain of signatures. -/
def chained : Component :=
  { componentType := .library, name := "n", signature := some (.chain [⟨.rs256, "s"⟩]) }

/-- A chain of signatures is kept by XML; in JSON it becomes a list of signers. -/
theorem C89_chain_lost : LostInJson { version := 1, specVersion := .v1_5, components := some [chained] } :=
  lostInJson_sound (by decide +kernel)

/-- A service with a data flow. -/
def flowing : Service :=
  { name := "n",
    data := some (.serviceData [{ name := some "d", classification := ⟨.inbound, "PII"⟩ }]) }

/-- The data flows of a service are kept by XML; in JSON they are read as classifications. -/
theorem C89_flows_lost : LostInJson { version := 1, specVersion := .v1_5, services := some [flowing] } :=
  lostInJson_sound (by decide +kernel)

/-- A vulnerability with an infinite score. -/
def endless : Vulnerability := { vulnerabilityRatings := some [{ score := some infinity }] }

/-- An infinite score is kept by XML, if it is read back from its printed form; in JSON it becomes
`null`, and there is no score any more. -/
theorem C89_infinity_lost : LostInJson { version := 1, specVersion := .v1_5, vulnerabilities := some [endless] } :=
  lostInJson_sound (by decide +kernel)

end Cdx.Props
