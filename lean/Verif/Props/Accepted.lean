import Verif.Lemmas.Accepts.Bom
import Verif.Lemmas.Accepts.Check
import Verif.Props.ExampleBom

/-!
# C85: XML documents that conform to the format can be read
-/

namespace Cdx.Props

open Cdx.Spec

section
variable [F32Format] [ReadLimit] {v : SpecVersion} {root : XNode}

/-- C85 (partial): every XML document that conforms to the format and that has nothing which this
library does not support can be read. Missing: documents with what `Supported` excludes, which the
format allows; `C85_unsupported` shows that they cannot be read. -/
theorem C85_conforming_partial (hdec : DecimalsParse) (hr : IsRoot v root) (hc : ConformsXml v .bom root)
    (hs : Throughout (Supported v) v .bom root) (hd : depth root ≤ ReadLimit.limit) :
    ∃ b, Bom.parseXmlWith v (documentOf root) = .ok b :=
  Bom.takes hdec hr (throughout_and _ _ (throughout_mono (fun _ _ _ => locally_unordered) _ _ hc) hs) hd

/-- C85 (partial): the order of the child elements does not matter for this, although the format
prescribes it. -/
theorem C85_unordered_partial (hdec : DecimalsParse) (hr : IsRoot v root) (hc : ConformsUnordered v .bom root)
    (hs : Throughout (Supported v) v .bom root) (hd : depth root ≤ ReadLimit.limit) :
    ∃ b, Bom.parseXmlWith v (documentOf root) = .ok b :=
  Bom.takes hdec hr (throughout_and _ _ hc hs) hd

end

/-! ## A document that is read, and documents that are not -/

namespace Accepted

/-- Numbers printed by their bits; a text that is no such number is zero. It only shows that what is
assumed about numbers can be met. -/
@[instance_reducible] def f32 : F32Format where
  display x := showNat x.toNat
  parse s := some (((parseU32 s).map (BitVec.ofNat 32)).getD 0)
  ofNat n := BitVec.ofNat 32 n
  parse_display x _ := by
    rw [parseU32_show x.isLt]
    simp
  no_space x c hc := digit_whitespace (showNat_digit hc)
  nonempty x := showNat_ne _

/-- An element of the format. -/
def el (name : String) (attrs : List (String × String)) (content : List XNode) : XNode :=
  .elem ⟨name, some SpecVersion.v1_5.namespace, none⟩ attrs (some SpecVersion.v1_5.namespace) content

/-- An element with a text. -/
def text (name s : String) : XNode := el name [] [.chars s]

/-- A document of version 1.5. -/
def doc (content : List XNode) : XNode := el "bom" [("serialNumber", "urn:uuid:1"), ("version", "3")] content

/-- A component with the given further content. -/
def comp (attrs : List (String × String)) (name : String) (content : List XNode) : XNode :=
  el "component" (("type", "library") :: attrs) (text "name" name :: content)

/-- A document with many parts. -/
def rich : XNode := doc
  [el "metadata" []
     [text "timestamp" "2024-01-01T00:00:00Z",
      el "lifecycles" []
        [el "lifecycle" [] [text "phase" "build"],
         el "lifecycle" [] [text "name" "own", text "description" "a phase"]],
      el "tools" [] [el "components" [] [comp [] "tool" []], el "services" [] [el "service" [] [text "name" "s"]]]],
   el "components" []
     [comp [("bom-ref", "a")] "widget"
        [text "version" "1.0",
         el "hashes" [] [el "hash" [("alg", "MD5")] [.chars "00"]],
         el "licenses" []
           [el "license" [("bom-ref", "l")] [text "id" "MIT", el "text" [] [.cdata "text"], text "url" "https://mit.example"],
            el "license" [] [text "name" "Own terms"]],
         el "swid" [("tagId", "t"), ("name", "n"), ("tagVersion", "7"), ("patch", "true")] [],
         text "modified" "1",
         el "pedigree" [] [el "ancestors" [] [comp [] "old" []], text "notes" "none"],
         el "components" [] [comp [] "inner" [el "components" [] [comp [] "innermost" []]]],
         el "evidence" []
           [el "identity" []
              [text "field" "purl", text "confidence" "0.5",
               el "methods" [] [el "method" [] [text "technique" "filename", text "confidence" "1"]],
               el "tools" [] [el "tool" [("ref", "a")] []]],
            el "callstack" [] [el "frames" [] [el "frame" [] [text "module" "m", text "line" "7"]]]],
         el "releaseNotes" [] [text "type" "major"],
         el "modelCard" []
           [el "modelParameters" [] [text "task" "t"],
            el "considerations" []
              [el "users" [] [text "user" "u"],
               el "ethicalConsiderations" [] [el "ethicalConsideration" [] [text "name" "e"]]],
            el "properties" [] [el "property" [("name", "k")] [.chars "v"]]]]],
   el "services" [] [el "service" [] [text "name" "s", el "data" [] [el "classification" [("flow", "inbound")] [.chars "PII"]]]],
   el "dependencies" [] [el "dependency" [("ref", "a")] [el "dependency" [("ref", "b")] []]],
   el "vulnerabilities" []
     [el "vulnerability" []
        [text "id" "CVE-1", el "ratings" [] [el "rating" [] [text "score" "9.8"]], el "cwes" [] [text "cwe" "79"]]],
   el "formulation" []
     [el "formula" []
        [el "workflows" []
           [el "workflow" [("bom-ref", "w")]
              [text "uid" "u", el "taskTypes" [] [text "taskType" "build"],
               el "inputs" [] [el "input" [] [el "data" [] [.chars "x"]]]]]]]]

attribute [local instance] f32 Example.limit in
/-- The document meets the hypotheses. -/
example : ∃ b, Bom.parseXmlWith .v1_5 (documentOf rich) = .ok b :=
  C85_conforming_partial (fun s _ => ⟨_, rfl⟩) ⟨_, _, _, rfl, rfl⟩
    (conformsXml_sound (by decide +kernel))
    (throughout_sound (c := supportedHere .v1_5) (fun _ _ _ => supportedHere_sound) _ _ (by decide +kernel))
    (by decide +kernel)

/-- A document with its parts in another order than that of the format. -/
def mixed : XNode := doc [el "components" [] [], el "metadata" [] [text "timestamp" "now"]]

theorem mixed_unordered : ConformsUnordered .v1_5 .bom mixed ∧ ¬ ConformsXml .v1_5 .bom mixed := by
  constructor
  · rw [ConformsUnordered, mixed, doc, el, Throughout]
    refine ⟨⟨(conformsHere_sound (by decide +kernel : conformsHere .v1_5 .bom
      [("serialNumber", "urn:uuid:1"), ("version", "3")] [] = true)).1, ?_⟩,
      throughoutAll_sound (c := conformsHere .v1_5) (fun _ _ _ h => locally_unordered (conformsHere_sound h)) _ _
        (by decide +kernel)⟩
    refine ⟨["components", "metadata"], rfl, _, .head _, ["metadata", "components"],
      .swap _ _ _, follows_sound (by decide +kernel)⟩
  · intro h
    rw [ConformsXml, mixed, doc, el, Throughout] at h
    obtain ⟨-, names, e, l, hl, hf⟩ := h.1
    have e : names = ["components", "metadata"] := by
      have : names.map some = ["components", "metadata"].map some := by rw [← e]; rfl
      exact map_some_inj this
    subst e
    simp only [ElementType.choices, ElementType.rule, List.map_cons, List.map_nil, List.mem_singleton] at hl
    subst hl
    obtain ⟨piece, rest, e, hp, -, -, hrest⟩ := hf
    match piece, e with
    | [], e =>
      rw [List.nil_append] at e
      obtain ⟨p, hp, hn⟩ := follows_mem hrest "metadata" (by rw [← e]; simp)
      revert hp hn
      revert p
      decide +kernel
    | a :: piece, e =>
      simp only [List.cons_append, List.cons.injEq] at e
      have := hp a (.head _)
      rw [← e.1] at this
      exact absurd this (by decide +kernel)

attribute [local instance] f32 Example.limit in
/-- This document is read too. -/
example : ∃ b, Bom.parseXmlWith .v1_5 (documentOf mixed) = .ok b :=
  C85_unordered_partial (fun s _ => ⟨_, rfl⟩) ⟨_, _, _, rfl, rfl⟩ mixed_unordered.1
    (throughout_sound (c := supportedHere .v1_5) (fun _ _ _ => supportedHere_sound) _ _ (by decide +kernel))
    (by decide +kernel)

/-- A workflow with the given content. -/
def workflow (content : List XNode) : XNode :=
  doc [el "formulation" [] [el "formula" [] [el "workflows" []
    [el "workflow" [("bom-ref", "w")] (text "uid" "u" :: el "taskTypes" [] [text "taskType" "build"] :: content)]]]]

/-- Documents that conform to the format, with something that this library does not support: a
processing instruction; a text with a CDATA section; a negative and a large number; an empty license
name, license text and SWID text; an attachment in a CDATA section; dependencies in dependencies in
dependencies; parameters of an input; a dataset that is a reference. -/
def unsupported : List XNode :=
  [doc [.other],
   doc [el "components" [] [el "component" [("type", "library")] [el "name" [] [.chars "a", .cdata "b"]]]],
   el "bom" [("version", "-1")] [],
   doc [el "vulnerabilities" [] [el "vulnerability" [] [el "cwes" [] [text "cwe" "4294967296"]]]],
   doc [el "components" [] [comp [] "a" [el "licenses" [] [el "license" [] [el "name" [] []]]]]],
   doc [el "components" [] [comp [] "a" [el "licenses" [] [el "license" [] [text "id" "MIT", el "text" [] []]]]]],
   doc [el "components" [] [comp [] "a" [el "swid" [("tagId", "t"), ("name", "n")] [el "text" [] []]]]],
   workflow [el "inputs" [] [el "input" [] [el "data" [] [.cdata "x"]]]],
   doc [el "dependencies" [] [el "dependency" [("ref", "a")] [el "dependency" [("ref", "b")]
     [el "dependency" [("ref", "c")] []]]]],
   workflow [el "inputs" [] [el "input" [] [el "parameters" [] [el "parameter" [] [text "name" "p"]]]]],
   doc [el "components" [] [comp [] "a" [el "modelCard" [] [el "modelParameters" [] [el "datasets" [] [text "ref" "d"]]]]]]]

/-- Whether an element is a root. -/
def isRoot : XNode → Bool
  | .elem n _ ns _ => n.localName == "bom" && ns == some SpecVersion.v1_5.namespace
  | _ => false

theorem isRoot_sound {root : XNode} (h : isRoot root = true) : IsRoot .v1_5 root := by
  cases root with
  | elem n attrs ns content =>
    simp only [isRoot, Bool.and_eq_true, beq_iff_eq] at h
    obtain ⟨h1, rfl⟩ := h
    exact ⟨n, attrs, content, rfl, h1⟩
  | _ => exact nomatch h

end Accepted

attribute [local instance] Accepted.f32 Example.limit in
/-- C85 does not hold in full: these documents conform to the format, and none of them can be read. -/
theorem C85_unsupported : ∀ root ∈ Accepted.unsupported, IsRoot .v1_5 root ∧
    ConformsXml .v1_5 .bom root ∧ ∀ b, Bom.parseXmlWith .v1_5 (documentOf root) ≠ .ok b := by
  have hall : (Accepted.unsupported.all fun root => Accepted.isRoot root && conformsXml .v1_5 .bom root &&
      !(Bom.parseXmlWith .v1_5 (documentOf root)).isOk) = true := by decide +kernel
  intro root h
  have := List.all_eq_true.mp hall root h
  simp only [Bool.and_eq_true, Bool.not_eq_true'] at this
  refine ⟨Accepted.isRoot_sound this.1.1, conformsXml_sound this.1.2, fun b hb => ?_⟩
  rw [hb] at this
  exact absurd this.2 (by simp [Except.isOk, Except.toBool])

end Cdx.Props
