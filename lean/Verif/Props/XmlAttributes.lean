import Verif.Lemmas.Attributes.Bom
import Verif.Props.Accepted

/-!
# C87: the order of attributes, unknown attributes and prefixes do not matter
-/

namespace Cdx.Props

open Cdx.Spec

section
variable [F32Format] [ReadLimit] {v : SpecVersion} {evs evs' : List XEvent} {ns p : String}

/-- C87 (partial): two XML documents that differ only in attributes the format does not have, in the
order of attributes and in a correspondence of the names of elements give the same result, which may be
an error. Missing: documents without a default namespace; see `C87_default_namespace`. -/
theorem C87_same_partial {R : XName → XName → Prop} [Correspondence R] (h : SameEvents R evs evs') :
    Bom.parseXmlWith v evs = Bom.parseXmlWith v evs' :=
  Attributes.bom_same h

/-- C87: attributes that the format does not have make no difference. -/
theorem C87_unknown_attributes :
    Bom.parseXmlWith v (evs.map dropUnknown) = Bom.parseXmlWith v evs :=
  (Attributes.bom_same (Attributes.sameEvents_drop evs)).symm

/-- C87: the order of attributes makes no difference. -/
theorem C87_attribute_order (h : PermutedEvents evs evs') :
    Bom.parseXmlWith v evs = Bom.parseXmlWith v evs' :=
  Attributes.bom_same (Attributes.sameEvents_permuted h)

/-- C87 (partial): a prefix makes no difference, if the namespace is also the default namespace. Missing:
documents in which it is not the default, which are valid as well. -/
theorem C87_prefix_partial (h : Unprefixed ns evs) :
    Bom.parseXmlWith v (evs.map (withPrefix p)) = Bom.parseXmlWith v evs :=
  (Attributes.bom_same (Attributes.sameEvents_prefix h)).symm

/-- C87 does not hold in full: no document with a prefix for the namespace of the format and without a
default namespace can be read. -/
theorem C87_default_namespace :
    ∃ e, Bom.parseXmlWith v (evs.map (withPrefixOnly p)) = .error e := by
  unfold Bom.parseXmlWith
  match evs with
  | [] => exact ⟨_, rfl⟩
  | [e] => cases e <;> exact ⟨_, rfl⟩
  | e :: e' :: l =>
    cases e with
    | startDocument =>
      cases e' with
      | start n a d =>
        simp only [List.map_cons, withPrefixOnly, Bom.readDocument]
        split
        · exact ⟨_, rfl⟩
        · exact ⟨_, rfl⟩
      | _ => exact ⟨_, rfl⟩
    | _ => cases e' <;> exact ⟨_, rfl⟩

end

namespace Prefixes

open Accepted (f32 doc comp el text)

/-- A document with attributes of the format. -/
def plain : List XEvent := documentOf (doc
  [el "components" []
    [comp [("bom-ref", "a"), ("mime-type", "text/plain")] "widget"
      [el "swid" [("tagId", "t"), ("name", "n"), ("patch", "true")] []]]])

/-- The same document with other attributes, in another order. -/
def varied : List XEvent := documentOf (el "bom" [("version", "3"), ("schemaLocation", "x"), ("serialNumber", "urn:uuid:1")]
  [el "components" [("note", "1")]
    [el "component" [("bom-ref", "a"), ("owner", "me"), ("mime-type", "text/plain"), ("type", "library")]
      [el "name" [("lang", "en")] [.chars "widget"],
       el "swid" [("patch", "true"), ("name", "n"), ("tagId", "t"), ("q", "r")] []]]])

/-- The order of the attributes of the two documents differs, and there are unknown attributes. -/
example : plain ≠ varied ∧ varied.map dropUnknown ≠ varied ∧ varied.map dropUnknown ≠ plain := by decide +kernel

theorem same_unordered : PermutedEvents plain (varied.map dropUnknown) := by
  have h : ∀ n a a' ns, List.Perm a a' → (a.map (·.1)).Nodup → Permuted (.start n a ns) (.start n a' ns) :=
    fun _ _ _ _ hp hn => .start hp hn
  refine .cons .same (.cons (h _ _ _ _ ?_ (by decide)) (.cons .same (.cons (h _ _ _ _ ?_ (by decide))
    (.cons .same (.cons .same (.cons .same (.cons (h _ _ _ _ ?_ (by decide)) (.cons .same (.cons .same
      (.cons .same (.cons .same (.cons .same .nil))))))))))))
  all_goals decide +kernel

attribute [local instance] f32 Example.limit in
/-- The two documents give the same. -/
example : Bom.parseXmlWith .v1_5 varied = Bom.parseXmlWith .v1_5 plain := by
  rw [← C87_unknown_attributes, C87_attribute_order same_unordered]

attribute [local instance] f32 Example.limit in
/-- They can be read. -/
example : (Bom.parseXmlWith .v1_5 varied).isOk = true := by decide +kernel

attribute [local instance] f32 Example.limit in
/-- An attribute of the format does make a difference. -/
example : (match Bom.parseXmlWith .v1_5 (documentOf (doc [el "components" [] [comp [("bom-ref", "a")] "c" []]])),
      Bom.parseXmlWith .v1_5 (documentOf (doc [el "components" [] [comp [("bom-ref", "b")] "c" []]])) with
    | .ok x, .ok y => decide (x.components.map (·.map Component.bomRef) = y.components.map (·.map Component.bomRef))
    | _, _ => true) = false := by decide +kernel

/-- The document has no prefixes. -/
example : Unprefixed SpecVersion.v1_5.namespace plain := by
  constructor
  · intro n a d h
    have := List.all_eq_true.mp (show plain.all (fun
      | .start n _ _ => n.ns == some SpecVersion.v1_5.namespace && n.pre == none
      | _ => true) = true by decide +kernel) _ h
    simpa using this
  · intro n h
    have := List.all_eq_true.mp (show plain.all (fun
      | .stop n => n.ns == some SpecVersion.v1_5.namespace && n.pre == none
      | _ => true) = true by decide +kernel) _ h
    simpa using this

attribute [local instance] f32 Example.limit in
/-- With a prefix it can be read only if the namespace is also the default. -/
example : (Bom.parseXmlWith .v1_5 (plain.map (withPrefix "cdx"))).isOk = true ∧
    (Bom.parseXmlWith .v1_5 (plain.map (withPrefixOnly "cdx"))).isOk = false := by decide +kernel

end Prefixes

end Cdx.Props
