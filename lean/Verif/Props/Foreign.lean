import Verif.Lemmas.Foreign.Tame
import Verif.Props.Accepted

/-!
# C43: foreign elements anywhere in a document
-/

namespace Cdx.Props

open Cdx.Spec

section
variable [F32Format] [ReadLimit] {v : SpecVersion}

/-- C43 (partial): foreign elements, of whatever content, at any number of places and at any depth of a
document, change nothing in what is read, nor in the error if the document cannot be read. Missing:
foreign elements in elements that are not read leniently (`C43_closed`), and those that have local names
of the format (`C43_namespace`). -/
theorem C43_anywhere_partial {n : XName} {attrs : List (String × String)} {ns : Option String}
    {c c' : List XNode} (ht : XNode.TameAll c) (h : WithForeign v .bom c c') :
    Bom.parseXmlWith v (documentOf (.elem n attrs ns c')) = Bom.parseXmlWith v (documentOf (.elem n attrs ns c)) :=
  Foreign.Bom.same ht h

/-- C43 (partial): a document that conforms to the format can be read, and is read as the same, with and
without foreign elements. -/
theorem C43_conforming_partial (hdec : DecimalsParse) {n : XName} {attrs : List (String × String)}
    {c c' : List XNode} (hn : n.localName = "bom")
    (hc : ConformsUnordered v .bom (.elem n attrs (some v.namespace) c))
    (hs : Throughout (Supported v) v .bom (.elem n attrs (some v.namespace) c))
    (hd : depth (.elem n attrs (some v.namespace) c) ≤ ReadLimit.limit) (h : WithForeign v .bom c c') :
    ∃ b, Bom.parseXmlWith v (documentOf (.elem n attrs (some v.namespace) c)) = .ok b ∧
      Bom.parseXmlWith v (documentOf (.elem n attrs (some v.namespace) c')) = .ok b := by
  obtain ⟨b, hb⟩ := C85_unordered_partial hdec ⟨n, attrs, c, rfl, hn⟩ hc hs hd
  have ht := Foreign.tame_root (throughout_and (P := LocallyConforms false v) (Q := Supported v) _ _ hc hs)
  exact ⟨b, hb, by rw [C43_anywhere_partial ht h, hb]⟩

end

namespace Outside

open Accepted

/-- A foreign element, with elements and texts in it. -/
def own : XNode :=
  .elem ⟨"widget", some "https://own.example", some "x"⟩ [("a", "b")] (some "https://own.example")
    [.chars "some text", .elem ⟨"part", none, none⟩ [] none [.cdata "more"], .other]

/-- A document without foreign elements. -/
def before : List XNode :=
  [el "metadata" [] [text "timestamp" "2024-01-01T00:00:00Z"],
   el "components" []
     [comp [] "a"
       [el "evidence" [] [el "callstack" [] [el "frames" [] [el "frame" [] [text "module" "m"]]]],
        el "modelCard" [] [el "considerations" [] [el "users" [] [text "user" "u"]]]]]]

/-- The document with foreign elements. -/
def after : List XNode :=
  [own,
   el "metadata" [] [text "timestamp" "2024-01-01T00:00:00Z", own],
   el "components" []
     [own,
      comp [] "a"
       [el "evidence" [] [own, el "callstack" [] [el "frames" [] [own, el "frame" [] [own, text "module" "m", own]]]],
        el "modelCard" [] [el "considerations" [] [own, el "users" [] [text "user" "u", own]], own],
        own],
      own],
   own]

theorem own_names : ∀ name ∈ own.names, name ∉ vocabulary := by decide +kernel

theorem after_before : WithForeign .v1_5 .bom before after := by
  have f : ∀ {t c c'}, t ∈ lenient → WithForeign .v1_5 t c c' → WithForeign .v1_5 t c (own :: c') :=
    fun ht h => .foreign ht own_names h
  have hframe : WithForeign .v1_5 .frame [text "module" "m"] [own, text "module" "m", own] :=
    f (by decide) (.same (f (by decide) .nil))
  have hevidence : WithForeign .v1_5 .evidence
      [el "callstack" [] [el "frames" [] [el "frame" [] [text "module" "m"]]]]
      [own, el "callstack" [] [el "frames" [] [own, el "frame" [] [own, text "module" "m", own]]]] :=
    f (by decide) (.inside (t' := .callstack) (by decide +kernel)
      (.inside (t' := .frames) (by decide +kernel)
        (f (by decide) (.inside (t' := .frame) (by decide +kernel) hframe .nil)) .nil) .nil)
  have hcard : WithForeign .v1_5 .modelCard [el "considerations" [] [el "users" [] [text "user" "u"]]]
      [el "considerations" [] [own, el "users" [] [text "user" "u", own]], own] :=
    .inside (t' := .considerations) (by decide +kernel)
      (f (by decide) (.inside (t' := .users) (by decide +kernel) (.same (f (by decide) .nil)) .nil))
      (f (by decide) .nil)
  exact f (by decide) (.inside (t' := .metadata) (by decide +kernel) (.same (f (by decide) .nil))
    (.inside (t' := .components) (by decide +kernel)
      (f (by decide) (.inside (t' := .component) (by decide +kernel)
        (.same (.inside (t' := .evidence) (by decide +kernel) hevidence
          (.inside (t' := .modelCard) (by decide +kernel) hcard (f (by decide) .nil))))
        (f (by decide) .nil)))
      (f (by decide) .nil)))

attribute [local instance] f32 Example.limit in
/-- The document meets the hypotheses. -/
example : ∃ b, Bom.parseXmlWith .v1_5 (documentOf (doc before)) = .ok b ∧
    Bom.parseXmlWith .v1_5 (documentOf (doc after)) = .ok b :=
  C43_conforming_partial (fun s _ => ⟨_, rfl⟩) rfl 
    (throughout_mono (fun _ _ _ => locally_unordered) _ _ (conformsXml_sound (x := doc before) (by decide +kernel)))
    (throughout_sound (c := supportedHere .v1_5) (fun _ _ _ => supportedHere_sound) _ _ (by decide +kernel))
    (by decide +kernel) after_before

end Outside

open Accepted in
attribute [local instance] Accepted.f32 Example.limit in
/-- Why not in all elements: in a list of hashes the foreign element makes the document unreadable,
although the document without it can be read. -/
theorem C43_closed :
    (∃ b, Bom.parseXmlWith .v1_5 (documentOf (doc [el "components" []
      [comp [] "a" [el "hashes" [] [el "hash" [("alg", "MD5")] [.chars "00"]]]]])) = .ok b) ∧
    ∃ e, Bom.parseXmlWith .v1_5 (documentOf (doc [el "components" []
      [comp [] "a" [el "hashes" [] [el "hash" [("alg", "MD5")] [.chars "00"], Outside.own]]]])) = .error e := by
  have h : ∀ x : Except XErr Bom, (x.isOk = true → ∃ b, x = .ok b) ∧ (x.isOk = false → ∃ e, x = .error e) := by
    rintro (e | b) <;> simp [Except.isOk, Except.toBool]
  exact ⟨(h _).1 (by decide +kernel), (h _).2 (by decide +kernel)⟩

open Accepted in
attribute [local instance] Accepted.f32 Example.limit in
/-- Why the local names must be foreign: an element of another namespace with a name of the format is
taken for an element of the format. -/
theorem C43_namespace : ∃ b,
    Bom.parseXmlWith .v1_5 (documentOf (doc [el "components" []
      [comp [] "a" [.elem ⟨"name", some "https://own.example", some "x"⟩ [] (some "https://own.example") [.chars "b"]]]])) = .ok b ∧
    (b.components.map fun l => l.map (·.name)) = some ["b"] := by
  have h : ∀ x : Except XErr Bom, ((x.toOption.bind (·.components)).map fun l => l.map (·.name)) = some ["b"] →
      ∃ b, x = .ok b ∧ (b.components.map fun l => l.map (·.name)) = some ["b"] := by
    rintro (e | b) h
    · simp [Except.toOption] at h
    · exact ⟨b, rfl, h⟩
  exact h _ (by decide +kernel)

end Cdx.Props
