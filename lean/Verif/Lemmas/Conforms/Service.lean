import Verif.Lemmas.Conforms.Component
import Verif.Lemmas.Format.Component
import Verif.Lemmas.Format.Service

/-!
# Nested components, services, metadata and compositions conform to the JSON schema
-/

namespace Cdx

open Spec

set_option linter.unusedVariables false
set_option linter.unusedSimpArgs false
set_option maxRecDepth 8000

variable {F : Formats} {v : SpecVersion}

@[schema_fits]
theorem Component.fits {x : Component} (h : (Elem.component x).Sound F v) :
    Fits F v "component" (Component.toJson v x) := by
  induction x using Component.ind with
  | h x ih =>
    have h' := sound_component.mp h
    sound_all [sound_pedigree] at h'
    casesm* _ ∧ _
    refine Component.fits_step h ?_ ?_ ?_ ?_
    · intro l hl y hy
      exact ih y (Component.mem_components hl hy) (by solve_by_elim)
    · intro p hp l hl y hy
      exact ih y (Component.mem_pedigree hp (Pedigree.mem_ancestors hl hy)) (by solve_by_elim)
    · intro p hp l hl y hy
      exact ih y (Component.mem_pedigree hp (Pedigree.mem_descendants hl hy)) (by solve_by_elim)
    · intro p hp l hl y hy
      exact ih y (Component.mem_pedigree hp (Pedigree.mem_variants hl hy)) (by solve_by_elim)

@[schema_fits]
theorem ServiceDataChoice.array {x : ServiceDataChoice} :
    (Keyword.type .array).Holds F (ServiceDataChoice.toJson v x) := by
  cases x <;> cases v <;> exact trivial

theorem DataClassification.fits15 {x : DataClassification} (h : (Elem.dataClassification x).Sound F .v1_5) :
    Fits F .v1_5 "serviceData" x.toJson := by
  have h := sound_dataClassification.mp h
  refine fits_ref (s := Schema15.serviceData) rfl ?_
  schema_simp [Schema15.serviceData, DataClassification.toJson]
  fits_close h

theorem sound_serviceDataChoice_all {x : ServiceDataChoice} (h : (Elem.serviceDataChoice x).Sound F v) :
    (∃ l, x = .classification l ∧ ∀ y ∈ l, (Elem.dataClassification y).Sound F v) ∨
      ∃ l, x = .serviceData l ∧ ∀ y ∈ l, (Elem.serviceData y).Sound F v := by
  cases x with
  | classification l =>
    have h := (sound_serviceDataChoice_classification.mp h).2
    sound_simp at h
    exact .inl ⟨l, rfl, h⟩
  | serviceData l =>
    have h := (sound_serviceDataChoice_serviceData.mp h).2
    sound_simp at h
    exact .inr ⟨l, rfl, h⟩

theorem ServiceData.classification_sound {x : ServiceData} (h : (Elem.serviceData x).Sound F v) :
    (Elem.dataClassification x.classification).Sound F v := by
  have h := (sound_serviceData.mp h).2
  sound_simp at h
  casesm* _ ∧ _
  assumption

@[schema_fits]
theorem ServiceDataChoice.items13 {x : ServiceDataChoice} (h : (Elem.serviceDataChoice x).Sound F .v1_3) :
    Valid (schemaContext F .v1_3) (.items (.ref "dataClassification")) (ServiceDataChoice.toJson .v1_3 x) := by
  rcases sound_serviceDataChoice_all h with ⟨l, rfl, hl⟩ | ⟨l, rfl, hl⟩
  · exact valid_itemsOf.mpr fun y hy => DataClassification.fits3 (hl y hy)
  · refine valid_itemsOf.mpr fun y hy => ?_
    obtain ⟨z, hz, rfl⟩ := List.mem_map.mp hy
    exact DataClassification.fits3 (ServiceData.classification_sound (hl z hz))

@[schema_fits]
theorem ServiceDataChoice.items14 {x : ServiceDataChoice} (h : (Elem.serviceDataChoice x).Sound F .v1_4) :
    Valid (schemaContext F .v1_4) (.items (.ref "dataClassification")) (ServiceDataChoice.toJson .v1_4 x) := by
  rcases sound_serviceDataChoice_all h with ⟨l, rfl, hl⟩ | ⟨l, rfl, hl⟩
  · exact valid_itemsOf.mpr fun y hy => DataClassification.fits4 (hl y hy)
  · refine valid_itemsOf.mpr fun y hy => ?_
    obtain ⟨z, hz, rfl⟩ := List.mem_map.mp hy
    exact DataClassification.fits4 (ServiceData.classification_sound (hl z hz))

@[schema_fits]
theorem ServiceDataChoice.items15 {x : ServiceDataChoice} (h : (Elem.serviceDataChoice x).Sound F .v1_5) :
    Valid (schemaContext F .v1_5) (.items (.ref "serviceData")) (ServiceDataChoice.toJson .v1_5 x) := by
  rcases sound_serviceDataChoice_all h with ⟨l, rfl, hl⟩ | ⟨l, rfl, hl⟩
  · exact valid_itemsOf.mpr fun y hy => DataClassification.fits15 (hl y hy)
  · exact valid_itemsOf.mpr fun y hy => ServiceData.fits (hl y hy)

/-- The services in an optional list fit the schema. -/
def ServicesFit (F : Formats) (v : SpecVersion) (o : Option (List Service)) : Prop :=
  ∀ l, o = some l → ∀ y ∈ l, Fits F v "service" (Service.toJson v y)

@[schema_fits]
theorem ServicesFit.mem {o : Option (List Service)} {l : List Service} {y : Service}
    (h : ServicesFit F v o) (hl : o = some l) (hy : y ∈ l) : Fits F v "service" (Service.toJson v y) :=
  h l hl y hy

theorem Service.fits_step {x : Service} (h : (Elem.service x).Sound F v)
    (hc : ServicesFit F v x.services) : Fits F v "service" (Service.toJson v x) := by
  have h := sound_service.mp h
  cases v
  · refine fits_ref (s := Schema13.service) rfl ?_
    schema_simp [Schema13.service, Service.toJson_members x, Service.toJsonOpt_map, Licenses.toJson]
    fits_close h
  · refine fits_ref (s := Schema14.service) rfl ?_
    schema_simp [Schema14.service, Service.toJson_members x, Service.toJsonOpt_map, Licenses.toJson]
    fits_close h
  · refine fits_ref (s := Schema15.service) rfl ?_
    schema_simp [Schema15.service, Service.toJson_members x, Service.toJsonOpt_map, Licenses.toJson]
    fits_close h

@[schema_fits]
theorem Service.fits {x : Service} (h : (Elem.service x).Sound F v) :
    Fits F v "service" (Service.toJson v x) := by
  induction x using Service.ind with
  | h x ih =>
    have h' := sound_service.mp h
    sound_simp at h'
    casesm* _ ∧ _
    refine Service.fits_step h fun l hl y hy => ih y ?_ (by solve_by_elim)
    rw [Service.children, hl]
    exact hy

end Cdx
