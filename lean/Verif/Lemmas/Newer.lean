import Verif.Lemmas.Format.Between
import Verif.Lemmas.Older

set_option linter.unusedSectionVars false
set_option linter.unusedSimpArgs false

/-!
# What a later version writes for what an earlier version has
-/

namespace Cdx

open Spec

theorem optMap_newer {α β : Type} {f f' : α → β} {g : α → α} {x : Option α}
    (h : ∀ y, x = some y → f (g y) = f' y) : (x.map g).map f = x.map f' := by
  cases x with
  | none => rfl
  | some y => rw [Option.map_some, Option.map_some, Option.map_some, h y rfl]

theorem listMap_newer {α β : Type} {f f' : α → β} {g : α → α} : ∀ {l : List α},
    (∀ y ∈ l, f (g y) = f' y) → (l.map g).map f = l.map f'
  | [], _ => rfl
  | x :: l, h => by
    simp only [List.map_cons]
    rw [h x (.head _), listMap_newer fun y hy => h y (.tail _ hy)]

theorem optOfList_newer {α : Type} {f f' : α → Json} {g : α → α} {x : Option (List α)}
    (h : ∀ l, x = some l → ∀ y ∈ l, f (g y) = f' y) :
    (x.map (List.map g)).map (Json.ofList f) = x.map (Json.ofList f') :=
  optMap_newer fun l hl => congrArg Json.arr (listMap_newer (h l hl))

theorem writeOpt_newer {α : Type} {f f' : α → List WEvent} {g : α → α} {x : Option α}
    (h : ∀ y, x = some y → f (g y) = f' y) : writeOpt f (x.map g) = writeOpt f' x := by
  cases x with
  | none => rfl
  | some y => exact h y rfl

theorem writeList_newer {α : Type} {tag : String} {f f' : α → List WEvent} {g : α → α} {l : List α}
    (h : ∀ y ∈ l, f (g y) = f' y) : writeList tag f (l.map g) = writeList tag f' l := by
  rw [writeList, writeList]
  congr 1
  induction l with
  | nil => rfl
  | cons x l ih =>
    simp only [List.map_cons, List.flatMap_cons]
    rw [h x (.head _), ih fun y hy => h y (.tail _ hy)]

theorem writeOptList_newer {α : Type} {tag : String} {f f' : α → List WEvent} {g : α → α}
    {x : Option (List α)} (h : ∀ l, x = some l → ∀ y ∈ l, f (g y) = f' y) :
    writeOpt (writeList tag f) (x.map (List.map g)) = writeOpt (writeList tag f') x :=
  writeOpt_newer fun l hl => writeList_newer (h l hl)

theorem mk_none1 {l : List (String × Option Json)} {a : String} : Json.mk (l ++ [(a, none)]) = Json.mk l := by
  simp [Json.mk, Json.mkFields]

theorem mk_none2 {l : List (String × Option Json)} {a b : String} :
    Json.mk (l ++ [(a, none), (b, none)]) = Json.mk l := by
  simp [Json.mk, Json.mkFields]

theorem mk_none3 {l : List (String × Option Json)} {a b c : String} :
    Json.mk (l ++ [(a, none), (b, none), (c, none)]) = Json.mk l := by
  simp [Json.mk, Json.mkFields]

/-- Members and elements that neither of the two versions writes. -/
macro "same" : tactic => `(tactic|
  simp only [since14, since15, Option.map_none, mk_none1, mk_none2, mk_none3, List.append_nil, writeOpt])

variable [F32Format] {v w : SpecVersion}

theorem License.toJson_newer (hlt : v.ord < w.ord) (x : License) :
    License.toJson w (License.at v x) = License.toJson v x := by
  simp only [License.at, License.toJson]
  rcases lt_cases hlt with ⟨rfl, rfl⟩ | ⟨rfl, rfl⟩ | ⟨rfl, rfl⟩ <;> same
theorem License.writeXml_newer (hlt : v.ord < w.ord) (x : License) :
    License.writeXml w (License.at v x) = License.writeXml v x := by
  rcases lt_cases hlt with ⟨rfl, rfl⟩ | ⟨rfl, rfl⟩ | ⟨rfl, rfl⟩ <;> rfl

theorem LicenseChoice.toJson_newer (hlt : v.ord < w.ord) (x : LicenseChoice) :
    LicenseChoice.toJson w (LicenseChoice.at v x) = LicenseChoice.toJson v x := by
  cases x with
  | license l => simp only [LicenseChoice.at, LicenseChoice.toJson, License.toJson_newer hlt]
  | expression e => rfl
theorem LicenseChoice.writeXml_newer (hlt : v.ord < w.ord) (x : LicenseChoice) :
    LicenseChoice.writeXml w (LicenseChoice.at v x) = LicenseChoice.writeXml v x := by
  cases x with
  | license l => simp only [LicenseChoice.at, LicenseChoice.writeXml, License.writeXml_newer hlt]
  | expression e => rfl

theorem Licenses.toJson_newer (hlt : v.ord < w.ord) (x : Licenses) :
    Licenses.toJson w (Licenses.at v x) = Licenses.toJson v x :=
  congrArg Json.arr (listMap_newer fun y _ => LicenseChoice.toJson_newer hlt y)
theorem Licenses.writeXml_newer (hlt : v.ord < w.ord) (x : Licenses) :
    Licenses.writeXml w (Licenses.at v x) = Licenses.writeXml v x :=
  writeList_newer fun y _ => LicenseChoice.writeXml_newer hlt y

theorem Composition.toJson_newer (hlt : v.ord < w.ord) (x : Composition) :
    Composition.toJson w (Composition.at v x) = Composition.toJson v x := by
  simp only [Composition.at, Composition.toJson]
  rcases lt_cases hlt with ⟨rfl, rfl⟩ | ⟨rfl, rfl⟩ | ⟨rfl, rfl⟩ <;> same
theorem Composition.writeXml_newer (hlt : v.ord < w.ord) (x : Composition) :
    Composition.writeXml w (Composition.at v x) = Composition.writeXml v x := by
  rcases lt_cases hlt with ⟨rfl, rfl⟩ | ⟨rfl, rfl⟩ | ⟨rfl, rfl⟩ <;> rfl

theorem VulnerabilityAnalysis.toJson_newer (hlt : v.ord < w.ord) (x : VulnerabilityAnalysis) :
    VulnerabilityAnalysis.toJson w (VulnerabilityAnalysis.at v x) = VulnerabilityAnalysis.toJson v x := by
  simp only [VulnerabilityAnalysis.at, VulnerabilityAnalysis.toJson]
  rcases lt_cases hlt with ⟨rfl, rfl⟩ | ⟨rfl, rfl⟩ | ⟨rfl, rfl⟩ <;> same
theorem VulnerabilityAnalysis.writeXml_newer (hlt : v.ord < w.ord) (x : VulnerabilityAnalysis) :
    VulnerabilityAnalysis.writeXml w (VulnerabilityAnalysis.at v x) = VulnerabilityAnalysis.writeXml v x := by
  rcases lt_cases hlt with ⟨rfl, rfl⟩ | ⟨rfl, rfl⟩ | ⟨rfl, rfl⟩ <;> rfl

theorem ServiceDataChoice.toJson_newer (hlt : v.ord < w.ord) (x : ServiceDataChoice) :
    ServiceDataChoice.toJson w (ServiceDataChoice.at v x) = ServiceDataChoice.toJson v x := by
  rcases lt_cases hlt with ⟨rfl, rfl⟩ | ⟨rfl, rfl⟩ | ⟨rfl, rfl⟩ <;> cases x <;> rfl
theorem ServiceDataChoice.writeXml_newer (hlt : v.ord < w.ord) (x : ServiceDataChoice) :
    ServiceDataChoice.writeXml w (ServiceDataChoice.at v x) = ServiceDataChoice.writeXml v x := by
  rcases lt_cases hlt with ⟨rfl, rfl⟩ | ⟨rfl, rfl⟩ | ⟨rfl, rfl⟩ <;> cases x <;>
    simp [ServiceDataChoice.at, ServiceDataChoice.writeXml, ServiceDataChoice.writeInner, since15, List.flatMap_map]

theorem ComponentEvidence.toJson_newer (hlt : v.ord < w.ord) (x : ComponentEvidence) :
    ComponentEvidence.toJson w (ComponentEvidence.at v x) = ComponentEvidence.toJson v x := by
  simp only [ComponentEvidence.at, ComponentEvidence.toJson, optMap_newer fun y _ => Licenses.toJson_newer hlt y]
  rcases lt_cases hlt with ⟨rfl, rfl⟩ | ⟨rfl, rfl⟩ | ⟨rfl, rfl⟩ <;> same
theorem ComponentEvidence.writeXml_newer (hlt : v.ord < w.ord) (x : ComponentEvidence) :
    ComponentEvidence.writeXml w (ComponentEvidence.at v x) = ComponentEvidence.writeXml v x := by
  simp only [ComponentEvidence.at, ComponentEvidence.writeXml, writeOpt_newer fun y _ => Licenses.writeXml_newer hlt y]

theorem Service.toJson_newer (hlt : v.ord < w.ord) (x : Service) :
    Service.toJson w (Service.at v x) = Service.toJson v x := by
  induction x using Service.ind with
  | h x ih =>
    rw [Service.toJson_eq w (Service.at v x), Service.toJson_eq v x, Service.at_eq v x]
    simp only [optMap_newer fun y _ => ServiceDataChoice.toJson_newer hlt y,
      optMap_newer fun y _ => Licenses.toJson_newer hlt y]
    rw [optOfList_newer fun l hl y hy => ih y (Service.mem_services hl hy)]
    rcases lt_cases hlt with ⟨rfl, rfl⟩ | ⟨rfl, rfl⟩ | ⟨rfl, rfl⟩ <;> same
theorem Service.writeXml_newer (hlt : v.ord < w.ord) (x : Service) :
    Service.writeXml w (Service.at v x) = Service.writeXml v x := by
  induction x using Service.ind with
  | h x ih =>
    rw [Service.writeXml_eq w (Service.at v x), Service.writeXml_eq v x, Service.at_eq v x]
    simp only [writeOpt_newer fun y _ => ServiceDataChoice.writeXml_newer hlt y,
      writeOpt_newer fun y _ => Licenses.writeXml_newer hlt y]
    rw [writeOptList_newer fun l hl y hy => ih y (Service.mem_services hl hy)]
    rcases lt_cases hlt with ⟨rfl, rfl⟩ | ⟨rfl, rfl⟩ | ⟨rfl, rfl⟩ <;> rfl

theorem Pedigree.toJson_newer {x : Pedigree}
    (h : ∀ y ∈ x.children, Component.toJson w (Component.at v y) = Component.toJson v y) :
    Pedigree.toJson w (Pedigree.at v x) = Pedigree.toJson v x := by
  rw [Pedigree.toJson_eq w (Pedigree.at v x), Pedigree.toJson_eq v x, Pedigree.at_eq v x,
    optOfList_newer fun l hl y hy => h y (Pedigree.mem_ancestors hl hy),
    optOfList_newer fun l hl y hy => h y (Pedigree.mem_descendants hl hy),
    optOfList_newer fun l hl y hy => h y (Pedigree.mem_variants hl hy)]
theorem Pedigree.writeXml_newer {x : Pedigree}
    (h : ∀ y ∈ x.children, Component.writeXml w (Component.at v y) = Component.writeXml v y) :
    Pedigree.writeXml w (Pedigree.at v x) = Pedigree.writeXml v x := by
  rw [Pedigree.writeXml_eq w (Pedigree.at v x), Pedigree.writeXml_eq v x, Pedigree.at_eq v x,
    writeOptList_newer fun l hl y hy => h y (Pedigree.mem_ancestors hl hy),
    writeOptList_newer fun l hl y hy => h y (Pedigree.mem_descendants hl hy),
    writeOptList_newer fun l hl y hy => h y (Pedigree.mem_variants hl hy)]

theorem Component.toJson_newer (hlt : v.ord < w.ord) (x : Component) :
    Component.toJson w (Component.at v x) = Component.toJson v x := by
  induction x using Component.ind with
  | h x ih =>
    rw [Component.toJson_eq w (Component.at v x), Component.toJson_eq v x, Component.at_eq v x]
    simp only [optMap_newer fun y _ => Licenses.toJson_newer hlt y,
      optMap_newer fun y _ => ComponentEvidence.toJson_newer hlt y]
    rw [optOfList_newer fun l hl y hy => ih y (Component.mem_components hl hy),
      optMap_newer fun p hp => Pedigree.toJson_newer fun y hy => ih y (Component.mem_pedigree hp hy)]
    rcases lt_cases hlt with ⟨rfl, rfl⟩ | ⟨rfl, rfl⟩ | ⟨rfl, rfl⟩ <;> same
theorem Component.writeXml_newer (hlt : v.ord < w.ord) (x : Component) :
    Component.writeXml w (Component.at v x) = Component.writeXml v x := by
  induction x using Component.ind with
  | h x ih =>
    rw [Component.writeXml_eq w (Component.at v x), Component.writeXml_eq v x, Component.at_eq v x]
    dsimp only
    rw [writeOpt_newer fun y _ => Licenses.writeXml_newer hlt y,
      writeOptList_newer fun l hl y hy => ih y (Component.mem_components hl hy),
      writeOpt_newer fun p hp => Pedigree.writeXml_newer fun y hy => ih y (Component.mem_pedigree hp hy),
      writeOpt_newer (f := fun c => if ComponentEvidence.willWrite c then ComponentEvidence.writeXml w c else [])
        (f' := fun c => if ComponentEvidence.willWrite c then ComponentEvidence.writeXml v c else [])
        fun y _ => by rw [ComponentEvidence.willWrite_at, ComponentEvidence.writeXml_newer hlt]]
    rcases lt_cases hlt with ⟨rfl, rfl⟩ | ⟨rfl, rfl⟩ | ⟨rfl, rfl⟩ <;> rfl

theorem Tool.toJson_newer (hlt : v.ord < w.ord) (x : Tool) : Tool.toJson w (Tool.at v x) = Tool.toJson v x := by
  simp only [Tool.at, Tool.toJson]
  rcases lt_cases hlt with ⟨rfl, rfl⟩ | ⟨rfl, rfl⟩ | ⟨rfl, rfl⟩ <;> same
theorem Tool.writeXml_newer (hlt : v.ord < w.ord) (x : Tool) : Tool.writeXml w (Tool.at v x) = Tool.writeXml v x := by
  rcases lt_cases hlt with ⟨rfl, rfl⟩ | ⟨rfl, rfl⟩ | ⟨rfl, rfl⟩ <;> rfl

theorem Tools.toJson_newer (hlt : v.ord < w.ord) (x : Tools) : Tools.toJson w (Tools.at v x) = Tools.toJson v x := by
  cases x with
  | list l => simp only [Tools.at, Tools.toJson, Json.ofList, listMap_newer fun y _ => Tool.toJson_newer hlt y]
  | object s c => rcases lt_cases hlt with ⟨rfl, rfl⟩ | ⟨rfl, rfl⟩ | ⟨rfl, rfl⟩ <;> rfl
theorem Tools.writeXml_newer (hlt : v.ord < w.ord) (x : Tools) :
    Tools.writeXml w (Tools.at v x) = Tools.writeXml v x := by
  cases x with
  | list l => simp only [Tools.at, Tools.writeXml, writeList_newer fun y _ => Tool.writeXml_newer hlt y]
  | object s c => rcases lt_cases hlt with ⟨rfl, rfl⟩ | ⟨rfl, rfl⟩ | ⟨rfl, rfl⟩ <;> rfl

theorem Metadata.toJson_newer (hlt : v.ord < w.ord) (x : Metadata) :
    Metadata.toJson w (Metadata.at v x) = Metadata.toJson v x := by
  simp only [Metadata.at, Metadata.toJson, optMap_newer fun y _ => Tools.toJson_newer hlt y,
    optMap_newer fun y _ => Component.toJson_newer hlt y, optMap_newer fun y _ => Licenses.toJson_newer hlt y]
  rcases lt_cases hlt with ⟨rfl, rfl⟩ | ⟨rfl, rfl⟩ | ⟨rfl, rfl⟩ <;> same
theorem Metadata.writeXml_newer (hlt : v.ord < w.ord) (x : Metadata) :
    Metadata.writeXml w (Metadata.at v x) = Metadata.writeXml v x := by
  simp only [Metadata.at, Metadata.writeXml, writeOpt_newer fun y _ => Tools.writeXml_newer hlt y,
    writeOpt_newer fun y _ => Component.writeXml_newer hlt y, writeOpt_newer fun y _ => Licenses.writeXml_newer hlt y]
  rcases lt_cases hlt with ⟨rfl, rfl⟩ | ⟨rfl, rfl⟩ | ⟨rfl, rfl⟩ <;> rfl

theorem Vulnerability.toJson_newer (hlt : v.ord < w.ord) (x : Vulnerability) :
    Vulnerability.toJson w (Vulnerability.at v x) = Vulnerability.toJson v x := by
  simp only [Vulnerability.at, Vulnerability.toJson, optMap_newer fun y _ => Tools.toJson_newer hlt y,
    optMap_newer fun y _ => VulnerabilityAnalysis.toJson_newer hlt y]
  rcases lt_cases hlt with ⟨rfl, rfl⟩ | ⟨rfl, rfl⟩ | ⟨rfl, rfl⟩ <;> same
theorem Vulnerability.writeXml_newer (hlt : v.ord < w.ord) (x : Vulnerability) :
    Vulnerability.writeXml w (Vulnerability.at v x) = Vulnerability.writeXml v x := by
  simp only [Vulnerability.at, Vulnerability.writeXml, writeOpt_newer fun y _ => Tools.writeXml_newer hlt y,
    writeOpt_newer fun y _ => VulnerabilityAnalysis.writeXml_newer hlt y]
  rcases lt_cases hlt with ⟨rfl, rfl⟩ | ⟨rfl, rfl⟩ | ⟨rfl, rfl⟩ <;> rfl

variable [ReadLimit]

/-- The members of a written document, with the version to be written into it. -/
def Bom.labelled (s : String) (v : SpecVersion) (x : Bom) : Json :=
  .mk ([("bomFormat", some (Json.str "CycloneDX")),
    ("specVersion", some (Json.str s)),
    ("version", some (Json.nat x.version)),
    ("serialNumber", x.serialNumber.map Json.str),
    ("metadata", x.metadata.map (Metadata.toJson v)),
    ("components", x.components.map (Json.ofList (Component.toJson v))),
    ("services", x.services.map (Json.ofList (Service.toJson v))),
    ("externalReferences", x.externalReferences.map (Json.ofList ExternalReference.toJson)),
    ("dependencies", x.dependencies.map (Json.ofList Dependency.toJson)),
    ("compositions", x.compositions.map (Json.ofList (Composition.toJson v)))] ++
    since14 v [("vulnerabilities", x.vulnerabilities.map (Json.ofList (Vulnerability.toJson v))),
    ("signature", x.signature.map Signature.toJson)] [] ++
    since15 v [("annotations", x.annotations.map (Json.ofList (Annotation.toJson v))),
    ("properties", x.properties.map (Json.ofList Property.toJson)),
    ("formulation", x.formulation.map (Json.ofList (Formula.toJson v)))] [])

theorem relabel_append {s : String} {l m : List (String × Json)} :
    relabel s (l ++ m) = relabel s l ++ relabel s m := List.map_append

theorem relabel_fields {s : String} : ∀ {l : List (String × Option Json)}, (∀ p ∈ l, p.1 ≠ "specVersion") →
    relabel s (Json.mkFields l) = Json.mkFields l
  | [], _ => rfl
  | (k, none) :: l, h => relabel_fields (l := l) fun p hp => h p (.tail _ hp)
  | (k, some x) :: l, h => by
    have ih := relabel_fields (s := s) (l := l) fun p hp => h p (.tail _ hp)
    have hk : k ≠ "specVersion" := h (k, some x) (.head _)
    show (if k = "specVersion" then _ else _) :: relabel s (Json.mkFields l) = (k, x) :: Json.mkFields l
    rw [ih, if_neg hk]

theorem Bom.toJson_relabel (s : String) (x : Bom) :
    ∃ o, Bom.toJson v x = .obj o ∧ Bom.labelled s v x = .obj (relabel s o) := by
  refine ⟨_, rfl, ?_⟩
  unfold Bom.labelled Json.mk
  congr 1
  show _ :: _ :: Json.mkFields _ = relabel s (_ :: _ :: Json.mkFields _)
  have := fun l => relabel_fields (s := s) (l := l)
  rw [relabel, List.map_cons, List.map_cons, ← relabel, this]
  · rfl
  · cases v <;> simp [since14, since15]

theorem Bom.toJson_newer (hlt : v.ord < w.ord) (x : Bom) :
    Bom.toJson w (Bom.at v x) = Bom.labelled w.display v x := by
  simp only [Bom.at, Bom.toJson, Bom.labelled, optMap_newer fun y _ => Metadata.toJson_newer hlt y,
    optOfList_newer fun _ _ y _ => Component.toJson_newer hlt y,
    optOfList_newer fun _ _ y _ => Service.toJson_newer hlt y,
    optOfList_newer fun _ _ y _ => Composition.toJson_newer hlt y]
  rcases lt_cases hlt with ⟨rfl, rfl⟩ | ⟨rfl, rfl⟩ | ⟨rfl, rfl⟩
  · same
  · same
  · simp only [since14, since15, Option.map_none, mk_none1, mk_none2, mk_none3, List.append_nil,
      optOfList_newer fun _ _ y _ => Vulnerability.toJson_newer hlt y]

theorem Bom.writeXml_newer (hlt : v.ord < w.ord) (x : Bom) :
    Bom.writeXml w (Bom.at v x) = Bom.writeXml v x := by
  simp only [Bom.at, Bom.writeXml, writeOpt_newer fun y _ => Metadata.writeXml_newer hlt y,
    writeOptList_newer fun _ _ y _ => Component.writeXml_newer hlt y,
    writeOptList_newer fun _ _ y _ => Service.writeXml_newer hlt y,
    writeOptList_newer fun _ _ y _ => Composition.writeXml_newer hlt y]
  rcases lt_cases hlt with ⟨rfl, rfl⟩ | ⟨rfl, rfl⟩ | ⟨rfl, rfl⟩
  · rfl
  · rfl
  · simp only [since14, since15, writeOptList_newer fun _ _ y _ => Vulnerability.writeXml_newer hlt y]
    rfl

end Cdx
