import Verif.Lemmas.Conforms.Data

/-!
# Components and services conform to the JSON schema
-/

namespace Cdx

open Spec

set_option linter.unusedVariables false
set_option linter.unusedSimpArgs false
set_option maxRecDepth 8000

variable {F : Formats} {v : SpecVersion}

@[schema_fits]
theorem pairwise_of_written {α : Type} {f : α → Json} {o : Option (List α)} {l : List α}
    (h : WrittenDistinct f o) (hl : o = some l) : l.Pairwise fun x y => ¬ Same (f x) (f y) := h l hl

@[schema_fits]
theorem Scope.named {x : Scope} (h : (Elem.scope x).Sound F v) :
    OneOf ["required", "optional", "excluded"] x.display := by
  have h := (sound_scope.mp h).1
  enum_close h x [Scope.display]

@[schema_fits]
theorem Classification.named13 {x : Classification} (h : (Elem.classification x).Sound F .v1_3) :
    OneOf ["application", "framework", "library", "container", "operating-system", "device", "firmware", "file"]
      x.display := by
  have h : ClassificationIn _ _ := rule_of_sound h
  cases x <;> simp_all [OneOf, Classification.display, ClassificationIn]

@[schema_fits]
theorem Classification.named14 {x : Classification} (h : (Elem.classification x).Sound F .v1_4) :
    OneOf ["application", "framework", "library", "container", "operating-system", "device", "firmware", "file"]
      x.display := by
  have h : ClassificationIn _ _ := rule_of_sound h
  cases x <;> simp_all [OneOf, Classification.display, ClassificationIn]

@[schema_fits]
theorem Classification.named15 {x : Classification} (h : (Elem.classification x).Sound F .v1_5) :
    OneOf ["application", "framework", "library", "container", "platform", "operating-system", "device",
      "device-driver", "firmware", "file", "machine-learning-model", "data"] x.display := by
  have h : ClassificationIn _ _ := rule_of_sound h
  cases x <;> simp_all [OneOf, Classification.display, ClassificationIn]

@[schema_fits]
theorem mimeType_of_sound {x : String} (h : (Elem.mimeType x).Sound F v) : patternMime.isMatch x = true :=
  rule_of_sound h

theorem Pedigree.toJson_members (x : Pedigree) : Pedigree.toJson v x =
  .mk [("ancestors", Component.toJsonOpt v x.ancestors),
    ("descendants", Component.toJsonOpt v x.descendants),
    ("variants", Component.toJsonOpt v x.variants),
    ("commits", x.commits.map (Json.ofList Commit.toJson)),
    ("patches", x.patches.map (Json.ofList Patch.toJson)),
    ("notes", x.notes.map Json.str)] := by
  cases x
  rw [Pedigree.toJson]

theorem Component.toJson_members (x : Component) : Component.toJson v x =
  .mk ([("type", some ((Json.ofEnum Classification.display) x.componentType)),
    ("mime-type", x.mimeType.map Json.str),
    ("bom-ref", x.bomRef.map Json.str),
    ("supplier", x.supplier.map OrganizationalEntity.toJson),
    ("author", x.author.map Json.str),
    ("publisher", x.publisher.map Json.str),
    ("group", x.group.map Json.str),
    ("name", some (Json.str x.name)),
    ("version", x.version.map Json.str),
    ("description", x.description.map Json.str),
    ("scope", x.scope.map (Json.ofEnum Scope.display)),
    ("hashes", x.hashes.map (Json.ofList Hash.toJson)),
    ("licenses", x.licenses.map (Licenses.toJson v)),
    ("copyright", x.copyright.map Json.str),
    ("cpe", x.cpe.map Json.str),
    ("purl", x.purl.map Json.str),
    ("swid", x.swid.map Swid.toJson),
    ("modified", x.modified.map Json.bool),
    ("pedigree", Pedigree.toJsonOpt v x.pedigree),
    ("externalReferences", x.externalReferences.map (Json.ofList ExternalReference.toJson)),
    ("properties", x.properties.map (Json.ofList Property.toJson)),
    ("components", Component.toJsonOpt v x.components),
    ("evidence", x.evidence.map (ComponentEvidence.toJson v))] ++
    since14 v [("signature", x.signature.map Signature.toJson)] [] ++
    since15 v [("modelCard", x.modelCard.map ModelCard.toJson),
    ("data", x.data.map ComponentData.toJson)] []) := by
  cases x
  rw [Component.toJson]

theorem Service.toJson_members (x : Service) : Service.toJson v x =
  .mk ([("bom-ref", x.bomRef.map Json.str),
    ("provider", x.provider.map OrganizationalEntity.toJson),
    ("group", x.group.map Json.str),
    ("name", some (Json.str x.name)),
    ("version", x.version.map Json.str),
    ("description", x.description.map Json.str),
    ("endpoints", x.endpoints.map (Json.ofList Json.str)),
    ("authenticated", x.authenticated.map Json.bool),
    ("x-trust-boundary", x.xTrustBoundary.map Json.bool),
    ("data", x.data.map (ServiceDataChoice.toJson v)),
    ("licenses", x.licenses.map (Licenses.toJson v)),
    ("externalReferences", x.externalReferences.map (Json.ofList ExternalReference.toJson)),
    ("properties", x.properties.map (Json.ofList Property.toJson)),
    ("services", Service.toJsonOpt v x.services)] ++
    since14 v [("signature", x.signature.map Signature.toJson)] [] ++
    since15 v [("trustZone", x.trustZone.map Json.str)] []) := by
  cases x
  rw [Service.toJson]


theorem Component.toJsonAll_map (v : SpecVersion) : ∀ l, Component.toJsonAll v l = l.map (Component.toJson v)
  | [] => by rw [Component.toJsonAll, List.map_nil]
  | x :: l => by rw [Component.toJsonAll, Component.toJsonAll_map v l, List.map_cons]

theorem Component.toJsonOpt_map (v : SpecVersion) : ∀ l,
    Component.toJsonOpt v l = l.map (Json.ofList (Component.toJson v))
  | none => by rw [Component.toJsonOpt, Option.map_none]
  | some l => by rw [Component.toJsonOpt, Component.toJsonAll_map, Option.map_some, Json.ofList]

theorem Pedigree.toJsonOpt_map (v : SpecVersion) : ∀ x,
    Pedigree.toJsonOpt v x = x.map (Pedigree.toJson v)
  | none => by rw [Pedigree.toJsonOpt, Option.map_none]
  | some x => by rw [Pedigree.toJsonOpt, Option.map_some]

theorem Service.toJsonAll_map (v : SpecVersion) : ∀ l, Service.toJsonAll v l = l.map (Service.toJson v)
  | [] => by rw [Service.toJsonAll, List.map_nil]
  | x :: l => by rw [Service.toJsonAll, Service.toJsonAll_map v l, List.map_cons]

theorem Service.toJsonOpt_map (v : SpecVersion) : ∀ l,
    Service.toJsonOpt v l = l.map (Json.ofList (Service.toJson v))
  | none => by rw [Service.toJsonOpt, Option.map_none]
  | some l => by rw [Service.toJsonOpt, Service.toJsonAll_map, Option.map_some, Json.ofList]

/-- The components in an optional list fit the schema. -/
def ComponentsFit (F : Formats) (v : SpecVersion) (o : Option (List Component)) : Prop :=
  ∀ l, o = some l → ∀ y ∈ l, Fits F v "component" (Component.toJson v y)

@[schema_fits]
theorem ComponentsFit.mem {o : Option (List Component)} {l : List Component} {y : Component}
    (h : ComponentsFit F v o) (hl : o = some l) (hy : y ∈ l) : Fits F v "component" (Component.toJson v y) :=
  h l hl y hy

theorem Component.fits_step {x : Component} (h : (Elem.component x).Sound F v)
    (hc : ComponentsFit F v x.components)
    (h1 : ∀ p, x.pedigree = some p → ComponentsFit F v p.ancestors)
    (h2 : ∀ p, x.pedigree = some p → ComponentsFit F v p.descendants)
    (h3 : ∀ p, x.pedigree = some p → ComponentsFit F v p.variants) :
    Fits F v "component" (Component.toJson v x) := by
  have h := sound_component.mp h
  cases v
  · refine fits_ref (s := Schema13.component) rfl ?_
    obtain ⟨w, hw⟩ : ∃ w, x.version = some w := Option.ne_none_iff_exists'.mp (h.1.1 rfl)
    sound_all [sound_pedigree] at h
    schema_simp [Schema13.component, Component.toJson_members x, Pedigree.toJsonOpt_map, Component.toJsonOpt_map,
      Pedigree.toJson_members, Licenses.toJson, hw]
    fits_close h
  · refine fits_ref (s := Schema14.component) rfl ?_
    sound_all [sound_pedigree] at h
    schema_simp [Schema14.component, Component.toJson_members x, Pedigree.toJsonOpt_map, Component.toJsonOpt_map,
      Pedigree.toJson_members, Licenses.toJson]
    fits_close h
  · refine fits_ref (s := Schema15.component) rfl ?_
    have hd : x.data = none := h.1.2.1 rfl
    sound_all [sound_pedigree] at h
    schema_simp [Schema15.component, Component.toJson_members x, Pedigree.toJsonOpt_map, Component.toJsonOpt_map,
      Pedigree.toJson_members, Licenses.toJson, hd]
    fits_close h

end Cdx
