import Verif.Lemmas.Exchange.Bom
import Verif.Lemmas.Exchange.Sorted
import Verif.Props.Accepted

/-!
# C88: the order of child elements does not change what is read
-/

namespace Cdx.Props

open Cdx.Spec Cdx.Exchange

section
variable [F32Format] [ReadLimit] {v : SpecVersion} {x y : XNode}

/-- C88 (partial): two documents of the format that differ only in the order of child elements are read
as the same document. Missing: documents that do not conform to the format or that have what
`Supported` excludes; most of these are rejected, in which case the errors can differ. -/
theorem C88_order_partial (hdec : DecimalsParse) (hr : IsRoot v x) (hc : ConformsUnordered v .bom x)
    (hs : Throughout (Supported v) v .bom x) (hd : depth x ≤ ReadLimit.limit) (h : SameButOrder v .bom x y) :
    ∃ b, Bom.parseXmlWith v (documentOf x) = .ok b ∧ Bom.parseXmlWith v (documentOf y) = .ok b := by
  obtain ⟨b, hb⟩ := C85_unordered_partial hdec hr hc hs hd
  exact ⟨b, hb, by rw [← (Bom.same hdec h hr (throughout_and _ _ hc hs) hd).1]; exact hb⟩

/-- C88 (partial): for every document with child elements in any order there is one that differs only
in this order, that conforms to the format in full, and that is read as the same document. Missing: as
in `C88_order_partial`. -/
theorem C88_format_order_partial (hdec : DecimalsParse) (hr : IsRoot v x) (hc : ConformsUnordered v .bom x)
    (hs : Throughout (Supported v) v .bom x) (hd : depth x ≤ ReadLimit.limit) :
    ∃ y b, SameButOrder v .bom x y ∧ ConformsXml v .bom y ∧
      Bom.parseXmlWith v (documentOf x) = .ok b ∧ Bom.parseXmlWith v (documentOf y) = .ok b := by
  obtain ⟨n, attrs, content, rfl, hn⟩ := hr
  obtain ⟨c', h1, h2⟩ := sort_elem (throughout_and _ _ hc hs)
  obtain ⟨b, hb, hb'⟩ := C88_order_partial hdec ⟨n, attrs, content, rfl, hn⟩ hc hs hd h1.same
  exact ⟨_, b, h1.same, h2, hb, hb'⟩

end

/-! ## Documents that differ in the order -/

namespace Ordered

open Accepted

/-- A document in the order of the format. -/
def first : XNode := doc
  [el "metadata" [] [text "timestamp" "2024-01-01T00:00:00Z"],
   el "components" [] [comp [] "widget" [text "version" "1.0", text "scope" "required"], comp [] "other" []]]

/-- The same document with its parts, and the parts of a component, in another order. -/
def second : XNode := doc
  [el "components" []
     [comp [] "widget" [text "scope" "required", text "version" "1.0"], comp [] "other" []],
   el "metadata" [] [text "timestamp" "2024-01-01T00:00:00Z"]]

/-- The same document with the components in another order. -/
def third : XNode := doc
  [el "metadata" [] [text "timestamp" "2024-01-01T00:00:00Z"],
   el "components" [] [comp [] "other" [], comp [] "widget" [text "version" "1.0", text "scope" "required"]]]

theorem first_second : SameButOrder .v1_5 .bom first second :=
  .step (.step .refl (.here (before := []) (after := []) (by unfold Apart; decide +kernel)))
    (.inside (before := []) (t' := .components) (by decide +kernel)
      (.inside (before := []) (t' := .component) (by decide +kernel)
        (.here (before := [text "name" "widget"]) (after := []) (by unfold Apart; decide +kernel))))

attribute [local instance] f32 Example.limit in
/-- The documents meet the hypotheses. -/
example : ∃ b, Bom.parseXmlWith .v1_5 (documentOf first) = .ok b ∧
    Bom.parseXmlWith .v1_5 (documentOf second) = .ok b :=
  C88_order_partial (fun s _ => ⟨_, rfl⟩) ⟨_, _, _, rfl, rfl⟩
    (throughout_mono (fun _ _ _ => locally_unordered) _ _ (conformsXml_sound (by decide +kernel)))
    (throughout_sound (c := supportedHere .v1_5) (fun _ _ _ => supportedHere_sound) _ _ (by decide +kernel))
    (by decide +kernel) first_second

attribute [local instance] f32 Example.limit in
/-- A document that is not in the order of the format meets the hypotheses. -/
example : ∃ y b, SameButOrder .v1_5 .bom mixed y ∧ ConformsXml .v1_5 .bom y ∧
    Bom.parseXmlWith .v1_5 (documentOf mixed) = .ok b ∧ Bom.parseXmlWith .v1_5 (documentOf y) = .ok b :=
  C88_format_order_partial (fun s _ => ⟨_, rfl⟩) ⟨_, _, _, rfl, rfl⟩ mixed_unordered.1
    (throughout_sound (c := supportedHere .v1_5) (fun _ _ _ => supportedHere_sound) _ _ (by decide +kernel))
    (by decide +kernel)

end Ordered

/-- The names of the components of a document that was read. -/
def componentNames (r : Except XErr Bom) : List String :=
  match r with
  | .ok b => (b.components.getD []).map (·.name)
  | .error _ => []

attribute [local instance] Accepted.f32 Example.limit in
/-- The order of elements with the same name is kept: components in another order are read in that
order. -/
theorem C88_lists_keep_order :
    componentNames (Bom.parseXmlWith .v1_5 (documentOf Ordered.first)) = ["widget", "other"] ∧
      componentNames (Bom.parseXmlWith .v1_5 (documentOf Ordered.third)) = ["other", "widget"] := by
  decide +kernel

end Cdx.Props
