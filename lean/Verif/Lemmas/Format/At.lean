import Verif.Lemmas.Format.Document

set_option linter.unusedSectionVars false
set_option linter.unusedSimpArgs false

/-!
# Lemmas on what a version of the format has

For every structure that differs between the versions: version 1.5 has all of it; taking what a
version has twice is the same as taking it once; and what is written in a version depends only on
what the version has.
-/

namespace Cdx

variable [F32Format]

theorem optMap_id {α : Type} {f : α → α} {x : Option α} (h : ∀ y, x = some y → f y = y) : x.map f = x := by
  cases x with
  | none => rfl
  | some y => rw [Option.map_some, h y rfl]

theorem listMap_id {α : Type} {f : α → α} : ∀ {l : List α}, (∀ y ∈ l, f y = y) → l.map f = l
  | [], _ => rfl
  | x :: l, h => by
    rw [List.map_cons, h x (.head _), listMap_id fun y hy => h y (.tail _ hy)]

theorem optMap_id' {α : Type} {f : α → α} (h : ∀ y, f y = y) (x : Option α) : x.map f = x :=
  optMap_id fun y _ => h y

theorem optList_id {α : Type} {f : α → α} (h : ∀ y, f y = y) (x : Option (List α)) :
    x.map (List.map f) = x := optMap_id fun _ _ => listMap_id fun y _ => h y

theorem optMap_same {α β : Type} {f : α → β} {g : α → α} {x : Option α}
    (h : ∀ y, x = some y → f (g y) = f y) : (x.map g).map f = x.map f := by
  cases x with
  | none => rfl
  | some y => rw [Option.map_some, Option.map_some, Option.map_some, h y rfl]

theorem listMap_same {α β : Type} {f : α → β} {g : α → α} : ∀ {l : List α},
    (∀ y ∈ l, f (g y) = f y) → (l.map g).map f = l.map f
  | [], _ => rfl
  | x :: l, h => by
    simp only [List.map_cons]
    rw [h x (.head _), listMap_same fun y hy => h y (.tail _ hy)]

theorem optList_same {α β : Type} {f : α → β} {g : α → α} {x : Option (List α)}
    (h : ∀ l, x = some l → ∀ y ∈ l, f (g y) = f y) :
    (x.map (List.map g)).map (List.map f) = x.map (List.map f) :=
  optMap_same fun l hl => listMap_same (h l hl)

theorem optOfList_same {α : Type} {f : α → Json} {g : α → α} {x : Option (List α)}
    (h : ∀ l, x = some l → ∀ y ∈ l, f (g y) = f y) :
    (x.map (List.map g)).map (Json.ofList f) = x.map (Json.ofList f) :=
  optMap_same fun l hl => congrArg Json.arr (listMap_same (h l hl))

theorem writeOpt_same {α : Type} {f : α → List WEvent} {g : α → α} {x : Option α}
    (h : ∀ y, x = some y → f (g y) = f y) : writeOpt f (x.map g) = writeOpt f x := by
  cases x with
  | none => rfl
  | some y => exact h y rfl

theorem flatMap_same {α : Type} {f : α → List WEvent} {g : α → α} : ∀ {l : List α},
    (∀ y ∈ l, f (g y) = f y) → (l.map g).flatMap f = l.flatMap f
  | [], _ => rfl
  | x :: l, h => by
    simp only [List.map_cons, List.flatMap_cons]
    rw [h x (.head _), flatMap_same fun y hy => h y (.tail _ hy)]

theorem writeList_same {α : Type} {tag : String} {f : α → List WEvent} {g : α → α} {l : List α}
    (h : ∀ y ∈ l, f (g y) = f y) : writeList tag f (l.map g) = writeList tag f l := by
  rw [writeList, writeList, flatMap_same h]

theorem writeOptList_same {α : Type} {tag : String} {f : α → List WEvent} {g : α → α}
    {x : Option (List α)} (h : ∀ l, x = some l → ∀ y ∈ l, f (g y) = f y) :
    writeOpt (writeList tag f) (x.map (List.map g)) = writeOpt (writeList tag f) x :=
  writeOpt_same fun l hl => writeList_same (h l hl)

/-! ### Licenses -/

theorem License.at_v1_5 (x : License) : License.at .v1_5 x = x := rfl
theorem License.at_at (v : SpecVersion) (x : License) : License.at v (License.at v x) = License.at v x := by
  cases v <;> rfl
theorem License.toJson_at (v : SpecVersion) (x : License) : License.toJson v (License.at v x) = License.toJson v x := by
  cases v <;> rfl
theorem License.writeXml_at (v : SpecVersion) (x : License) : License.writeXml v (License.at v x) = License.writeXml v x := by
  cases v <;> rfl

theorem LicenseChoice.at_v1_5 (x : LicenseChoice) : LicenseChoice.at .v1_5 x = x := by cases x <;> rfl
theorem LicenseChoice.at_at (v : SpecVersion) (x : LicenseChoice) :
    LicenseChoice.at v (LicenseChoice.at v x) = LicenseChoice.at v x := by
  cases x with
  | license l => exact congrArg LicenseChoice.license (License.at_at v l)
  | expression e => rfl
theorem LicenseChoice.toJson_at (v : SpecVersion) (x : LicenseChoice) :
    LicenseChoice.toJson v (LicenseChoice.at v x) = LicenseChoice.toJson v x := by
  cases x with
  | license l => simp only [LicenseChoice.at, LicenseChoice.toJson, License.toJson_at]
  | expression e => rfl
theorem LicenseChoice.writeXml_at (v : SpecVersion) (x : LicenseChoice) :
    LicenseChoice.writeXml v (LicenseChoice.at v x) = LicenseChoice.writeXml v x := by
  cases x with
  | license l => simp only [LicenseChoice.at, LicenseChoice.writeXml, License.writeXml_at]
  | expression e => rfl

theorem Licenses.at_v1_5 (x : Licenses) : Licenses.at .v1_5 x = x := listMap_id fun y _ => LicenseChoice.at_v1_5 y
theorem Licenses.at_at (v : SpecVersion) (x : Licenses) : Licenses.at v (Licenses.at v x) = Licenses.at v x :=
  listMap_same fun y _ => LicenseChoice.at_at v y
theorem Licenses.toJson_at (v : SpecVersion) (x : Licenses) : Licenses.toJson v (Licenses.at v x) = Licenses.toJson v x :=
  congrArg Json.arr (listMap_same fun y _ => LicenseChoice.toJson_at v y)
theorem Licenses.writeXml_at (v : SpecVersion) (x : Licenses) :
    Licenses.writeXml v (Licenses.at v x) = Licenses.writeXml v x :=
  writeList_same fun y _ => LicenseChoice.writeXml_at v y

/-! ### Compositions, analyses, evidence -/

theorem Composition.at_v1_5 (x : Composition) : Composition.at .v1_5 x = x := rfl
theorem Composition.at_at (v : SpecVersion) (x : Composition) :
    Composition.at v (Composition.at v x) = Composition.at v x := by cases v <;> rfl
theorem Composition.toJson_at (v : SpecVersion) (x : Composition) :
    Composition.toJson v (Composition.at v x) = Composition.toJson v x := by cases v <;> rfl
theorem Composition.writeXml_at (v : SpecVersion) (x : Composition) :
    Composition.writeXml v (Composition.at v x) = Composition.writeXml v x := by cases v <;> rfl

theorem VulnerabilityAnalysis.at_v1_5 (x : VulnerabilityAnalysis) : VulnerabilityAnalysis.at .v1_5 x = x := rfl
theorem VulnerabilityAnalysis.at_at (v : SpecVersion) (x : VulnerabilityAnalysis) :
    VulnerabilityAnalysis.at v (VulnerabilityAnalysis.at v x) = VulnerabilityAnalysis.at v x := by cases v <;> rfl
theorem VulnerabilityAnalysis.toJson_at (v : SpecVersion) (x : VulnerabilityAnalysis) :
    VulnerabilityAnalysis.toJson v (VulnerabilityAnalysis.at v x) = VulnerabilityAnalysis.toJson v x := by
  cases v <;> rfl
theorem VulnerabilityAnalysis.writeXml_at (v : SpecVersion) (x : VulnerabilityAnalysis) :
    VulnerabilityAnalysis.writeXml v (VulnerabilityAnalysis.at v x) = VulnerabilityAnalysis.writeXml v x := by
  cases v <;> rfl

theorem ServiceDataChoice.at_v1_5 (x : ServiceDataChoice) : ServiceDataChoice.at .v1_5 x = x := by cases x <;> rfl
theorem ServiceDataChoice.at_at (v : SpecVersion) (x : ServiceDataChoice) :
    ServiceDataChoice.at v (ServiceDataChoice.at v x) = ServiceDataChoice.at v x := by
  cases x <;> cases v <;> rfl
theorem ServiceDataChoice.toJson_at (v : SpecVersion) (x : ServiceDataChoice) :
    ServiceDataChoice.toJson v (ServiceDataChoice.at v x) = ServiceDataChoice.toJson v x := by
  cases x <;> cases v <;> simp [ServiceDataChoice.at, ServiceDataChoice.toJson, since15, Json.ofList]
theorem ServiceDataChoice.writeXml_at (v : SpecVersion) (x : ServiceDataChoice) :
    ServiceDataChoice.writeXml v (ServiceDataChoice.at v x) = ServiceDataChoice.writeXml v x := by
  cases x <;> cases v <;>
    simp [ServiceDataChoice.at, ServiceDataChoice.writeXml, ServiceDataChoice.writeInner, since15, List.flatMap_map]

theorem ComponentEvidence.at_v1_5 (x : ComponentEvidence) : ComponentEvidence.at .v1_5 x = x := by
  simp only [ComponentEvidence.at, since15, optMap_id' Licenses.at_v1_5]
theorem ComponentEvidence.at_at (v : SpecVersion) (x : ComponentEvidence) :
    ComponentEvidence.at v (ComponentEvidence.at v x) = ComponentEvidence.at v x := by
  simp only [ComponentEvidence.at, optMap_same fun y _ => Licenses.at_at v y]
  cases v <;> rfl
theorem ComponentEvidence.toJson_at (v : SpecVersion) (x : ComponentEvidence) :
    ComponentEvidence.toJson v (ComponentEvidence.at v x) = ComponentEvidence.toJson v x := by
  simp only [ComponentEvidence.at, ComponentEvidence.toJson, optMap_same fun y _ => Licenses.toJson_at v y]
  cases v <;> rfl
theorem ComponentEvidence.writeXml_at (v : SpecVersion) (x : ComponentEvidence) :
    ComponentEvidence.writeXml v (ComponentEvidence.at v x) = ComponentEvidence.writeXml v x := by
  simp only [ComponentEvidence.at, ComponentEvidence.writeXml, writeOpt_same fun y _ => Licenses.writeXml_at v y]
theorem ComponentEvidence.willWrite_at (v : SpecVersion) (x : ComponentEvidence) :
    ComponentEvidence.willWrite (ComponentEvidence.at v x) = ComponentEvidence.willWrite x := by
  simp only [ComponentEvidence.at, ComponentEvidence.willWrite, Option.isSome_map]

/-! ### Services -/

theorem Service.at_v1_5 (x : Service) : Service.at .v1_5 x = x := by
  induction x using Service.ind with
  | h x ih =>
    rw [Service.at_eq]
    rw [optMap_id' ServiceDataChoice.at_v1_5, optMap_id' Licenses.at_v1_5,
      optMap_id fun l hl => listMap_id fun y hy => ih y (Service.mem_services hl hy)]
    cases x; rfl
theorem Service.at_at (v : SpecVersion) (x : Service) : Service.at v (Service.at v x) = Service.at v x := by
  induction x using Service.ind with
  | h x ih =>
    rw [Service.at_eq v (Service.at v x), Service.at_eq v x]
    simp only [optMap_same fun y _ => ServiceDataChoice.at_at v y, optMap_same fun y _ => Licenses.at_at v y]
    rw [optList_same fun l hl y hy => ih y (Service.mem_services hl hy)]
    cases v <;> rfl
theorem Service.toJson_at (v : SpecVersion) (x : Service) : Service.toJson v (Service.at v x) = Service.toJson v x := by
  induction x using Service.ind with
  | h x ih =>
    rw [Service.toJson_eq v (Service.at v x), Service.toJson_eq v x, Service.at_eq v x]
    simp only [optMap_same fun y _ => ServiceDataChoice.toJson_at v y, optMap_same fun y _ => Licenses.toJson_at v y]
    rw [optOfList_same fun l hl y hy => ih y (Service.mem_services hl hy)]
    cases v <;> rfl
theorem Service.writeXml_at (v : SpecVersion) (x : Service) :
    Service.writeXml v (Service.at v x) = Service.writeXml v x := by
  induction x using Service.ind with
  | h x ih =>
    rw [Service.writeXml_eq v (Service.at v x), Service.writeXml_eq v x, Service.at_eq v x]
    simp only [writeOpt_same fun y _ => ServiceDataChoice.writeXml_at v y,
      writeOpt_same fun y _ => Licenses.writeXml_at v y]
    rw [writeOptList_same fun l hl y hy => ih y (Service.mem_services hl hy)]
    cases v <;> rfl

/-! ### Components -/

theorem Pedigree.at_id {v : SpecVersion} {x : Pedigree} (h : ∀ y ∈ x.children, Component.at v y = y) :
    Pedigree.at v x = x := by
  rw [Pedigree.at_eq,
    optMap_id fun l hl => listMap_id fun y hy => h y (Pedigree.mem_ancestors hl hy),
    optMap_id fun l hl => listMap_id fun y hy => h y (Pedigree.mem_descendants hl hy),
    optMap_id fun l hl => listMap_id fun y hy => h y (Pedigree.mem_variants hl hy)]
  cases x; rfl
theorem Pedigree.at_same {v : SpecVersion} {x : Pedigree}
    (h : ∀ y ∈ x.children, Component.at v (Component.at v y) = Component.at v y) :
    Pedigree.at v (Pedigree.at v x) = Pedigree.at v x := by
  rw [Pedigree.at_eq v (Pedigree.at v x), Pedigree.at_eq v x,
    optList_same fun l hl y hy => h y (Pedigree.mem_ancestors hl hy),
    optList_same fun l hl y hy => h y (Pedigree.mem_descendants hl hy),
    optList_same fun l hl y hy => h y (Pedigree.mem_variants hl hy)]
theorem Pedigree.toJson_same {v : SpecVersion} {x : Pedigree}
    (h : ∀ y ∈ x.children, Component.toJson v (Component.at v y) = Component.toJson v y) :
    Pedigree.toJson v (Pedigree.at v x) = Pedigree.toJson v x := by
  rw [Pedigree.toJson_eq v (Pedigree.at v x), Pedigree.toJson_eq v x, Pedigree.at_eq v x,
    optOfList_same fun l hl y hy => h y (Pedigree.mem_ancestors hl hy),
    optOfList_same fun l hl y hy => h y (Pedigree.mem_descendants hl hy),
    optOfList_same fun l hl y hy => h y (Pedigree.mem_variants hl hy)]
theorem Pedigree.writeXml_same {v : SpecVersion} {x : Pedigree}
    (h : ∀ y ∈ x.children, Component.writeXml v (Component.at v y) = Component.writeXml v y) :
    Pedigree.writeXml v (Pedigree.at v x) = Pedigree.writeXml v x := by
  rw [Pedigree.writeXml_eq v (Pedigree.at v x), Pedigree.writeXml_eq v x, Pedigree.at_eq v x,
    writeOptList_same fun l hl y hy => h y (Pedigree.mem_ancestors hl hy),
    writeOptList_same fun l hl y hy => h y (Pedigree.mem_descendants hl hy),
    writeOptList_same fun l hl y hy => h y (Pedigree.mem_variants hl hy)]

theorem Component.at_v1_5 (x : Component) : Component.at .v1_5 x = x := by
  induction x using Component.ind with
  | h x ih =>
    rw [Component.at_eq, optMap_id' Licenses.at_v1_5, optMap_id' ComponentEvidence.at_v1_5,
      optMap_id fun l hl => listMap_id fun y hy => ih y (Component.mem_components hl hy),
      optMap_id fun p hp => Pedigree.at_id fun y hy => ih y (Component.mem_pedigree hp hy)]
    cases x; rfl
theorem Component.at_at (v : SpecVersion) (x : Component) :
    Component.at v (Component.at v x) = Component.at v x := by
  induction x using Component.ind with
  | h x ih =>
    rw [Component.at_eq v (Component.at v x), Component.at_eq v x]
    simp only [optMap_same fun y _ => Licenses.at_at v y, optMap_same fun y _ => ComponentEvidence.at_at v y]
    rw [optList_same fun l hl y hy => ih y (Component.mem_components hl hy),
      optMap_same fun p hp => Pedigree.at_same fun y hy => ih y (Component.mem_pedigree hp hy)]
    cases v <;> rfl
theorem Component.toJson_at (v : SpecVersion) (x : Component) :
    Component.toJson v (Component.at v x) = Component.toJson v x := by
  induction x using Component.ind with
  | h x ih =>
    rw [Component.toJson_eq v (Component.at v x), Component.toJson_eq v x, Component.at_eq v x]
    simp only [optMap_same fun y _ => Licenses.toJson_at v y,
      optMap_same fun y _ => ComponentEvidence.toJson_at v y]
    rw [optOfList_same fun l hl y hy => ih y (Component.mem_components hl hy),
      optMap_same fun p hp => Pedigree.toJson_same fun y hy => ih y (Component.mem_pedigree hp hy)]
    cases v <;> rfl
theorem Component.writeXml_at (v : SpecVersion) (x : Component) :
    Component.writeXml v (Component.at v x) = Component.writeXml v x := by
  induction x using Component.ind with
  | h x ih =>
    rw [Component.writeXml_eq v (Component.at v x), Component.writeXml_eq v x, Component.at_eq v x]
    dsimp only
    rw [writeOpt_same fun y _ => Licenses.writeXml_at v y,
      writeOptList_same fun l hl y hy => ih y (Component.mem_components hl hy),
      writeOpt_same fun p hp => Pedigree.writeXml_same fun y hy => ih y (Component.mem_pedigree hp hy),
      writeOpt_same (f := fun c => if ComponentEvidence.willWrite c then ComponentEvidence.writeXml v c else [])
        fun y _ => by rw [ComponentEvidence.willWrite_at, ComponentEvidence.writeXml_at]]
    cases v <;> rfl

/-! ### Tools, metadata, vulnerabilities -/

theorem Tool.at_v1_5 (x : Tool) : Tool.at .v1_5 x = x := rfl
theorem Tool.at_at (v : SpecVersion) (x : Tool) : Tool.at v (Tool.at v x) = Tool.at v x := by cases v <;> rfl
theorem Tool.toJson_at (v : SpecVersion) (x : Tool) : Tool.toJson v (Tool.at v x) = Tool.toJson v x := by
  cases v <;> rfl
theorem Tool.writeXml_at (v : SpecVersion) (x : Tool) : Tool.writeXml v (Tool.at v x) = Tool.writeXml v x := by
  cases v <;> rfl

theorem Tools.at_v1_5 (x : Tools) : Tools.at .v1_5 x = x := by
  cases x with
  | list l => simp only [Tools.at, listMap_id fun y _ => Tool.at_v1_5 y]
  | object s c => simp only [Tools.at, since15, optList_id Service.at_v1_5, optList_id Component.at_v1_5]
theorem Tools.at_at (v : SpecVersion) (x : Tools) : Tools.at v (Tools.at v x) = Tools.at v x := by
  cases x with
  | list l => simp only [Tools.at, listMap_same fun y _ => Tool.at_at v y]
  | object s c =>
    cases v with
    | v1_5 => rw [Tools.at_v1_5]
    | v1_3 => rfl
    | v1_4 => rfl
theorem Tools.toJson_at (v : SpecVersion) (x : Tools) : Tools.toJson v (Tools.at v x) = Tools.toJson v x := by
  cases x with
  | list l =>
    simp only [Tools.at, Tools.toJson, Json.ofList, listMap_same fun y _ => Tool.toJson_at v y]
  | object s c =>
    cases v with
    | v1_5 => rw [Tools.at_v1_5]
    | v1_3 => rfl
    | v1_4 => rfl
theorem Tools.writeXml_at (v : SpecVersion) (x : Tools) : Tools.writeXml v (Tools.at v x) = Tools.writeXml v x := by
  cases x with
  | list l =>
    simp only [Tools.at, Tools.writeXml, writeList_same fun y _ => Tool.writeXml_at v y]
  | object s c =>
    cases v with
    | v1_5 => rw [Tools.at_v1_5]
    | v1_3 => rfl
    | v1_4 => rfl

theorem Metadata.at_v1_5 (x : Metadata) : Metadata.at .v1_5 x = x := by
  simp only [Metadata.at, since15, optMap_id' Tools.at_v1_5, optMap_id' Component.at_v1_5, optMap_id' Licenses.at_v1_5]
theorem Metadata.at_at (v : SpecVersion) (x : Metadata) : Metadata.at v (Metadata.at v x) = Metadata.at v x := by
  simp only [Metadata.at, optMap_same fun y _ => Tools.at_at v y, optMap_same fun y _ => Component.at_at v y,
    optMap_same fun y _ => Licenses.at_at v y]
  cases v <;> rfl
theorem Metadata.toJson_at (v : SpecVersion) (x : Metadata) :
    Metadata.toJson v (Metadata.at v x) = Metadata.toJson v x := by
  simp only [Metadata.at, Metadata.toJson, optMap_same fun y _ => Tools.toJson_at v y,
    optMap_same fun y _ => Component.toJson_at v y, optMap_same fun y _ => Licenses.toJson_at v y]
  cases v <;> rfl
theorem Metadata.writeXml_at (v : SpecVersion) (x : Metadata) :
    Metadata.writeXml v (Metadata.at v x) = Metadata.writeXml v x := by
  simp only [Metadata.at, Metadata.writeXml, writeOpt_same fun y _ => Tools.writeXml_at v y,
    writeOpt_same fun y _ => Component.writeXml_at v y, writeOpt_same fun y _ => Licenses.writeXml_at v y]
  cases v <;> rfl

theorem Vulnerability.at_v1_5 (x : Vulnerability) : Vulnerability.at .v1_5 x = x := by
  simp only [Vulnerability.at, since15, optMap_id' Tools.at_v1_5, optMap_id' VulnerabilityAnalysis.at_v1_5]
theorem Vulnerability.at_at (v : SpecVersion) (x : Vulnerability) :
    Vulnerability.at v (Vulnerability.at v x) = Vulnerability.at v x := by
  simp only [Vulnerability.at, optMap_same fun y _ => Tools.at_at v y,
    optMap_same fun y _ => VulnerabilityAnalysis.at_at v y]
  cases v <;> rfl
theorem Vulnerability.toJson_at (v : SpecVersion) (x : Vulnerability) :
    Vulnerability.toJson v (Vulnerability.at v x) = Vulnerability.toJson v x := by
  simp only [Vulnerability.at, Vulnerability.toJson, optMap_same fun y _ => Tools.toJson_at v y,
    optMap_same fun y _ => VulnerabilityAnalysis.toJson_at v y]
  cases v <;> rfl
theorem Vulnerability.writeXml_at (v : SpecVersion) (x : Vulnerability) :
    Vulnerability.writeXml v (Vulnerability.at v x) = Vulnerability.writeXml v x := by
  simp only [Vulnerability.at, Vulnerability.writeXml, writeOpt_same fun y _ => Tools.writeXml_at v y,
    writeOpt_same fun y _ => VulnerabilityAnalysis.writeXml_at v y]
  cases v <;> rfl

/-! ### Annotations, formulations -/

theorem Annotator.at_v1_5 (x : Annotator) : Annotator.at .v1_5 x = x := by
  cases x <;> simp only [Annotator.at, Component.at_v1_5, Service.at_v1_5]
theorem Annotation.at_v1_5 (x : Annotation) : Annotation.at .v1_5 x = x := by
  simp only [Annotation.at, Annotator.at_v1_5]
theorem Formula.at_v1_5 (x : Formula) : Formula.at .v1_5 x = x := by
  simp only [Formula.at, optList_id Component.at_v1_5, optList_id Service.at_v1_5]

/-! ### Documents -/

variable [ReadLimit]

theorem Bom.at_v1_5 (x : Bom) : Bom.at .v1_5 x = { x with specVersion := .v1_5 } := by
  simp only [Bom.at, since15, since14, optMap_id' Metadata.at_v1_5, optList_id Component.at_v1_5,
    optList_id Service.at_v1_5, optList_id Composition.at_v1_5, optList_id Vulnerability.at_v1_5,
    optList_id Annotation.at_v1_5, optList_id Formula.at_v1_5]
theorem Bom.at_at (v : SpecVersion) (x : Bom) : Bom.at v (Bom.at v x) = Bom.at v x := by
  cases v with
  | v1_5 => rw [Bom.at_v1_5, Bom.at_v1_5]
  | v1_3 =>
    simp only [Bom.at, since15, since14, optMap_same fun y _ => Metadata.at_at .v1_3 y,
      optList_same fun _ _ y _ => Component.at_at .v1_3 y, optList_same fun _ _ y _ => Service.at_at .v1_3 y,
      optList_same fun _ _ y _ => Composition.at_at .v1_3 y]
  | v1_4 =>
    simp only [Bom.at, since15, since14, optMap_same fun y _ => Metadata.at_at .v1_4 y,
      optList_same fun _ _ y _ => Component.at_at .v1_4 y, optList_same fun _ _ y _ => Service.at_at .v1_4 y,
      optList_same fun _ _ y _ => Composition.at_at .v1_4 y,
      optList_same fun _ _ y _ => Vulnerability.at_at .v1_4 y]
theorem Bom.toJson_at (v : SpecVersion) (x : Bom) : Bom.toJson v (Bom.at v x) = Bom.toJson v x := by
  cases v with
  | v1_5 => rw [Bom.at_v1_5]; rfl
  | v1_3 =>
    simp only [Bom.at, Bom.toJson, since15, since14, optMap_same fun y _ => Metadata.toJson_at .v1_3 y,
      optOfList_same fun _ _ y _ => Component.toJson_at .v1_3 y,
      optOfList_same fun _ _ y _ => Service.toJson_at .v1_3 y,
      optOfList_same fun _ _ y _ => Composition.toJson_at .v1_3 y]
  | v1_4 =>
    simp only [Bom.at, Bom.toJson, since15, since14, optMap_same fun y _ => Metadata.toJson_at .v1_4 y,
      optOfList_same fun _ _ y _ => Component.toJson_at .v1_4 y,
      optOfList_same fun _ _ y _ => Service.toJson_at .v1_4 y,
      optOfList_same fun _ _ y _ => Composition.toJson_at .v1_4 y,
      optOfList_same fun _ _ y _ => Vulnerability.toJson_at .v1_4 y]
theorem Bom.writeXml_at (v : SpecVersion) (x : Bom) : Bom.writeXml v (Bom.at v x) = Bom.writeXml v x := by
  cases v with
  | v1_5 => rw [Bom.at_v1_5]; rfl
  | v1_3 =>
    simp only [Bom.at, Bom.writeXml, since15, since14, writeOpt_same fun y _ => Metadata.writeXml_at .v1_3 y,
      writeOptList_same fun _ _ y _ => Component.writeXml_at .v1_3 y,
      writeOptList_same fun _ _ y _ => Service.writeXml_at .v1_3 y,
      writeOptList_same fun _ _ y _ => Composition.writeXml_at .v1_3 y]
  | v1_4 =>
    simp only [Bom.at, Bom.writeXml, since15, since14, writeOpt_same fun y _ => Metadata.writeXml_at .v1_4 y,
      writeOptList_same fun _ _ y _ => Component.writeXml_at .v1_4 y,
      writeOptList_same fun _ _ y _ => Service.writeXml_at .v1_4 y,
      writeOptList_same fun _ _ y _ => Composition.writeXml_at .v1_4 y,
      writeOptList_same fun _ _ y _ => Vulnerability.writeXml_at .v1_4 y]

end Cdx
