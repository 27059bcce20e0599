import Verif.Lemmas.Conforms.Service

/-!
# Metadata and compositions conform to the JSON schema
-/

namespace Cdx

open Spec

set_option linter.unusedVariables false
set_option linter.unusedSimpArgs false
set_option maxRecDepth 8000

variable {F : Formats} {v : SpecVersion}

@[schema_fits]
theorem Tools.valid15 {x : Tools} (h : (Elem.tools x).Sound F .v1_5) :
    Valid (schemaContext F .v1_5) (.oneOf [.allOf [.kw (.type .object),
        .kw (.closed ["components", "services"]),
        .properties [("components", .allOf [.kw (.type .array),
          .kw .uniqueItems,
          .items (.ref "component")]),
        ("services", .allOf [.kw (.type .array),
          .kw .uniqueItems,
          .items (.ref "service")])]],
      .allOf [.kw (.type .array),
        .items (.ref "tool")]]) (Tools.toJson .v1_5 x) := by
  cases x with
  | list l =>
    have h := (sound_tools_list.mp h).2
    sound_simp at h
    refine valid_oneOf_two.mpr (.inr ⟨.allOf (.head _) (.kw (by simp [Tools.toJson, Json.ofList, Keyword.Holds, HasType])), ?_⟩)
    schema_simp [Tools.toJson]
    exact fun y hy => Tool.fits (h y hy)
  | object s c =>
    have hr : _ ∧ _ := (sound_tools_object.mp h).1
    have h := (sound_tools_object.mp h).2
    sound_simp at h
    obtain ⟨h1, h2⟩ := h
    obtain ⟨h3, h4⟩ := hr
    refine valid_oneOf_two.mpr (.inl ⟨?_, .allOf (.head _) (.kw (by simp [Tools.toJson, since15, Json.mk, Keyword.Holds, HasType]))⟩)
    schema_simp [Tools.toJson]
    fits_close h1

@[schema_fits]
theorem Tools.array13 {x : Tools} : (Keyword.type .array).Holds F (Tools.toJson .v1_3 x) := by
  cases x <;> exact trivial

@[schema_fits]
theorem Tools.array14 {x : Tools} : (Keyword.type .array).Holds F (Tools.toJson .v1_4 x) := by
  cases x <;> exact trivial

theorem Tools.items {x : Tools} (h : (Elem.tools x).Sound F v) (hv : v ≠ .v1_5) :
    Valid (schemaContext F v) (.items (.ref "tool")) (Tools.toJson v x) := by
  cases x with
  | list l =>
    have h := (sound_tools_list.mp h).2
    sound_simp at h
    exact valid_itemsOf.mpr fun y hy => Tool.fits (h y hy)
  | object s c =>
    cases v
    · exact valid_items.mpr fun y hy => nomatch hy
    · exact valid_items.mpr fun y hy => nomatch hy
    · exact absurd rfl hv

@[schema_fits]
theorem Tools.items13 {x : Tools} (h : (Elem.tools x).Sound F .v1_3) :
    Valid (schemaContext F .v1_3) (.items (.ref "tool")) (Tools.toJson .v1_3 x) := Tools.items h (by simp)

@[schema_fits]
theorem Tools.items14 {x : Tools} (h : (Elem.tools x).Sound F .v1_4) :
    Valid (schemaContext F .v1_4) (.items (.ref "tool")) (Tools.toJson .v1_4 x) := Tools.items h (by simp)

/-- A phase with a name. -/
def Lifecycle.KnownPhase (y : Lifecycle) : Prop := ∀ p s, y = .phase p → p ≠ .unknown s

@[schema_fits]
theorem Lifecycle.object {x : Lifecycle} : (Keyword.type .object).Holds F x.toJson := by
  cases x <;> exact trivial

@[schema_fits]
theorem Lifecycle.valid {x : Lifecycle} (h : Lifecycle.KnownPhase x) :
    Valid (schemaContext F .v1_5) (.oneOf [.allOf [.kw (.required ["phase"]),
          .kw (.closed ["phase"]),
          .properties [("phase", .allOf [.kw (.type .string),
            .kw (.enum ["design", "pre-build", "build", "post-build", "operations", "discovery", "decommission"])])]],
        .allOf [.kw (.required ["name"]),
          .kw (.closed ["name", "description"]),
          .properties [("name", .kw (.type .string)),
          ("description", .kw (.type .string))]]]) x.toJson := by
  cases x with
  | phase p =>
    have he : Lifecycle.toJson (.phase p) = Json.mk [("phase", some (.str p.display))] := rfl
    refine valid_oneOf_two.mpr (.inl ⟨?_, .allOf (.head _) (.kw ?_)⟩)
    · schema_simp [he]
      have h := h p
      cases p <;> simp_all [OneOf, Phase.display]
    · schema_simp [he]
  | description d =>
    refine valid_oneOf_two.mpr (.inr ⟨.allOf (.head _) (.kw ?_), ?_⟩)
    · schema_simp [Lifecycle.toJson, LifecycleDescription.toJson]
    · schema_simp [Lifecycle.toJson, LifecycleDescription.toJson]

@[schema_fits]
theorem Metadata.fits {x : Metadata} (h : (Elem.metadata x).Sound F v) :
    Fits F v "metadata" (Metadata.toJson v x) := by
  have h := sound_metadata.mp h
  have hl : ∀ l, x.lifecycles = some l → ∀ y ∈ l, Lifecycle.KnownPhase y := fun l hl y hy p s e => h.1 l hl p s (e ▸ hy)
  replace h := h.2
  cases v
  · refine fits_ref (s := Schema13.metadata) rfl ?_
    schema_simp [Schema13.metadata, Metadata.toJson, Licenses.toJson]
    fits_close h
  · refine fits_ref (s := Schema14.metadata) rfl ?_
    schema_simp [Schema14.metadata, Metadata.toJson, Licenses.toJson]
    fits_close h
  · refine fits_ref (s := Schema15.metadata) rfl ?_
    schema_simp [Schema15.metadata, Metadata.toJson, Licenses.toJson]
    fits_close h

@[schema_fits]
theorem AggregateType.fits {x : AggregateType} (h : (Elem.aggregateType x).Sound F v) :
    Fits F v "aggregateType" (.str x.display) := by
  have h : AggregateNamed _ _ := rule_of_sound h
  cases v
  · refine fits_ref (s := Schema13.aggregateType) rfl ?_
    schema_simp [Schema13.aggregateType]
    cases x <;> simp_all [OneOf, AggregateType.display, AggregateNamed]
  · refine fits_ref (s := Schema14.aggregateType) rfl ?_
    schema_simp [Schema14.aggregateType]
    cases x <;> simp_all [OneOf, AggregateType.display, AggregateNamed]
  · refine fits_ref (s := Schema15.aggregateType) rfl ?_
    schema_simp [Schema15.aggregateType]
    cases x <;> simp_all [OneOf, AggregateType.display, AggregateNamed]

@[schema_fits]
theorem refLink_or {r : String} {P : Prop} (h : RefOk .v1_5 r) :
    Valid (schemaContext F .v1_5) (.ref "refLinkType") (.str r) ∨ P := .inl (refLinkType_fits h)

@[schema_fits]
theorem Composition.fits {x : Composition} (h : (Elem.composition x).Sound F v) :
    Fits F v "compositions" (Composition.toJson v x) := by
  have h := sound_composition.mp h
  sound_all [] at h
  cases v
  · refine fits_ref (s := Schema13.compositions) rfl ?_
    schema_simp [Schema13.compositions, Composition.toJson]
    fits_close h
  · refine fits_ref (s := Schema14.compositions) rfl ?_
    schema_simp [Schema14.compositions, Composition.toJson]
    fits_close h
  · refine fits_ref (s := Schema15.compositions) rfl ?_
    schema_simp [Schema15.compositions, Composition.toJson]
    fits_close h

end Cdx
