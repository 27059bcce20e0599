import Verif.Spec.Dated
import Verif.Spec.Format.Bom
import Verif.Lemmas.Format.Component
import Verif.Lemmas.Format.Service
import Verif.Lemmas.ElemEqs

/-!
# What a version keeps as it is has nothing that came later
-/

set_option linter.unusedSectionVars false
set_option linter.unusedVariables false
set_option linter.unusedSimpArgs false

namespace Cdx

open Spec

variable [F32Format] {v : SpecVersion}

/-- The version keeps the part as it is. -/
def Fixed (v : SpecVersion) : Elem → Prop
  | .bom x => x.at v = { x with specVersion := v }
  | .metadata x => x.at v = x
  | .component x => x.at v = x
  | .pedigree x => x.at v = x
  | .componentEvidence x => x.at v = x
  | .service x => x.at v = x
  | .serviceDataChoice x => x.at v = x
  | .license x => x.at v = x
  | .licenseChoice x => x.at v = x
  | .licenses x => Licenses.at v x = x
  | .tool x => x.at v = x
  | .tools x => x.at v = x
  | .composition x => x.at v = x
  | .vulnerability x => x.at v = x
  | .vulnerabilityAnalysis x => x.at v = x
  | .annotation x => x.at v = x
  | .annotator x => x.at v = x
  | .formula x => x.at v = x
  | _ => True

/-- The version keeps all parts in a list as they are. -/
def FixedAll (v : SpecVersion) (l : List Elem) : Prop := ∀ p ∈ l, Fixed v p

theorem fixed_nil : FixedAll v [] := fun _ hp => absurd hp List.not_mem_nil

theorem fixed_append {l m : List Elem} (hl : FixedAll v l) (hm : FixedAll v m) : FixedAll v (l ++ m) :=
  fun p hp => (List.mem_append.mp hp).elim (hl p) (hm p)

theorem fixed_one {p : Elem} (h : Fixed v p) : FixedAll v [p] := fun q hq => by
  cases List.mem_singleton.mp hq
  exact h

theorem fixed_map {α : Type} {f : α → Elem} {l : List α} (h : ∀ x ∈ l, Fixed v (f x)) :
    FixedAll v (l.map f) := fun p hp => by
  obtain ⟨x, hx, rfl⟩ := List.mem_map.mp hp
  exact h x hx

theorem fixed_opt {α : Type} {f : α → Elem} {o : Option α} (h : ∀ x, o = some x → Fixed v (f x)) :
    FixedAll v (opt f o) := by
  cases o with
  | none => exact fixed_nil
  | some y => exact fixed_one (h y rfl)

theorem fixed_many {α : Type} {f : α → Elem} {o : Option (List α)}
    (h : ∀ l, o = some l → ∀ x ∈ l, Fixed v (f x)) : FixedAll v (many f o) := by
  cases o with
  | none => exact fixed_nil
  | some l => exact fixed_map (h l rfl)

theorem map_fix {α : Type} {f : α → α} {o : Option α} (h : o.map f = o) : ∀ x, o = some x → f x = x := by
  rintro x rfl
  exact Option.some.inj h

theorem list_fix {α : Type} {f : α → α} {l : List α} (h : l.map f = l) : ∀ x ∈ l, f x = x := by
  induction l with
  | nil => exact nofun
  | cons y l ih =>
    rw [List.map_cons] at h
    obtain ⟨h1, h2⟩ := List.cons.inj h
    intro x hx
    cases hx with
    | head => exact h1
    | tail _ hx => exact ih h2 x hx

theorem lists_fix {α : Type} {f : α → α} {o : Option (List α)} (h : o.map (List.map f) = o) :
    ∀ l, o = some l → ∀ x ∈ l, f x = x := fun l hl => list_fix (map_fix h l hl)

theorem late14 {α : Type} {o : Option α} (h : since14 v o none = o) (e : v = .v1_3) : o = none := by
  subst e; exact h.symm

theorem late15 {α : Type} {o : Option α} (h : since15 v o none = o) (e : v ≠ .v1_5) : o = none := by
  cases v with
  | v1_3 => exact h.symm
  | v1_4 => exact h.symm
  | v1_5 => exact absurd rfl e

theorem inner14 {α : Type} {f : α → α} {o : Option (List α)} (h : since14 v (o.map (List.map f)) none = o) :
    o.map (List.map f) = o := by
  cases v with
  | v1_3 => have : o = none := h.symm
            subst this; rfl
  | v1_4 => exact h
  | v1_5 => exact h

theorem inner15 {α : Type} {f : α → α} {o : Option (List α)} (h : since15 v (o.map (List.map f)) none = o) :
    o.map (List.map f) = o := by
  cases v with
  | v1_3 => have : o = none := h.symm
            subst this; rfl
  | v1_4 => have : o = none := h.symm
            subst this; rfl
  | v1_5 => exact h

theorem gone14 {α : Type} {f : α → α} {o : Option (List α)} (h : since14 v (o.map (List.map f)) none = o)
    (e : v = .v1_3) : o = none := by
  subst e; exact h.symm

theorem gone15 {α : Type} {f : α → α} {o : Option (List α)} (h : since15 v (o.map (List.map f)) none = o)
    (e : v ≠ .v1_5) : o = none := by
  cases v with
  | v1_3 => exact h.symm
  | v1_4 => exact h.symm
  | v1_5 => exact absurd rfl e

/-! ## What is kept as it is has no later fields -/

theorem Fixed.dated {e : Elem} (h : Fixed v e) : e.Dated v := by
  cases e with
  | bom x =>
    have h : Bom.at v x = { x with specVersion := v } := h
    have h1 := congrArg Bom.vulnerabilities h
    have h2 := congrArg Bom.signature h
    have h3 := congrArg Bom.properties h
    have h4 := congrArg Bom.annotations h
    have h5 := congrArg Bom.formulation h
    exact ⟨fun e => ⟨gone14 h1 e, late14 h2 e⟩, fun e => ⟨late15 h3 e, gone15 h4 e, gone15 h5 e⟩⟩
  | metadata x => exact fun e => late15 (congrArg Metadata.lifecycles (show Metadata.at v x = x from h)) e
  | component x =>
    have h : Component.at v x = x := h
    rw [Component.at_eq] at h
    exact ⟨fun e => late14 (congrArg Component.signature h) e,
      fun e => ⟨late15 (congrArg Component.modelCard h) e, late15 (congrArg Component.data h) e⟩⟩
  | componentEvidence x =>
    have h : ComponentEvidence.at v x = x := h
    exact fun e => ⟨late15 (congrArg ComponentEvidence.occurrences h) e,
      late15 (congrArg ComponentEvidence.callstack h) e, late15 (congrArg ComponentEvidence.identity h) e⟩
  | service x =>
    have h : Service.at v x = x := h
    rw [Service.at_eq] at h
    exact ⟨fun e => late14 (congrArg Service.signature h) e, fun e => late15 (congrArg Service.trustZone h) e⟩
  | serviceDataChoice x =>
    have h : ServiceDataChoice.at v x = x := h
    intro e
    cases x with
    | classification l => exact ⟨l, rfl⟩
    | serviceData l => cases v <;> first | exact absurd rfl e | cases h
  | license x =>
    have h : License.at v x = x := h
    exact fun e => ⟨late15 (congrArg License.bomRef h) e, late15 (congrArg License.licensing h) e,
      late15 (congrArg License.properties h) e⟩
  | tool x => exact fun e => late14 (congrArg Tool.externalReferences (show Tool.at v x = x from h)) e
  | tools x =>
    have h : Tools.at v x = x := h
    intro e
    cases x with
    | list l => exact ⟨l, rfl⟩
    | object s c => cases v <;> first | exact absurd rfl e | cases h
  | composition x =>
    have h : Composition.at v x = x := h
    exact ⟨fun e => late14 (congrArg Composition.signature h) e,
      fun e => ⟨late15 (congrArg Composition.bomRef h) e, late15 (congrArg Composition.vulnerabilities h) e⟩⟩
  | vulnerability x =>
    have h : Vulnerability.at v x = x := h
    exact fun e => ⟨late15 (congrArg Vulnerability.workaround h) e,
      late15 (congrArg Vulnerability.proofOfConcept h) e, late15 (congrArg Vulnerability.rejected h) e⟩
  | vulnerabilityAnalysis x =>
    have h : VulnerabilityAnalysis.at v x = x := h
    exact fun e => ⟨late15 (congrArg VulnerabilityAnalysis.firstIssued h) e,
      late15 (congrArg VulnerabilityAnalysis.lastUpdated h) e⟩
  | _ => trivial

/-! ## What is kept as it is has parts that are kept as they are -/

/-- Closes the goals for lists of parts. -/
syntax "fixed" : tactic
macro_rules
  | `(tactic| fixed) => `(tactic|
      repeat' first
        | assumption
        | exact fixed_nil
        | apply fixed_append
        | exact fixed_one trivial
        | exact fixed_opt fun _ _ => trivial
        | exact fixed_many fun _ _ _ _ => trivial
        | exact fixed_map fun _ _ => trivial
        | exact fixed_opt fun y hy => map_fix (by assumption) y hy
        | exact fixed_many fun y hy z hz => lists_fix (by assumption) y hy z hz)

theorem fixed_bom {x : Bom} (h : Bom.at v x = { x with specVersion := v }) : FixedAll v (Elem.bom x).parts := by
  unfold Elem.parts
  have h1 := congrArg Bom.metadata h
  have h2 := congrArg Bom.components h
  have h3 := congrArg Bom.services h
  have h4 := congrArg Bom.compositions h
  have h5 := inner14 (congrArg Bom.vulnerabilities h)
  have h6 := inner15 (congrArg Bom.annotations h)
  have h7 := inner15 (congrArg Bom.formulation h)
  simp only [Bom.at] at h1 h2 h3 h4 h5 h6 h7
  rw [checked_bom]
  dsimp only [Elem.unchecked]
  fixed

theorem fixed_metadata {x : Metadata} (h : Metadata.at v x = x) : FixedAll v (Elem.metadata x).parts := by
  unfold Elem.parts
  have h1 := congrArg Metadata.tools h
  have h2 := congrArg Metadata.component h
  have h3 := congrArg Metadata.licenses h
  simp only [Metadata.at] at h1 h2 h3
  rw [checked_metadata]
  refine fixed_append ?_ ?_
  · fixed
  · intro p hp
    obtain ⟨y, _, hp⟩ := List.mem_flatMap.mp hp
    cases y with
    | phase _ => cases hp
    | description d =>
      rcases List.mem_cons.mp hp with rfl | hp
      · trivial
      · exact fixed_opt (f := .normalizedString) (o := d.description) (fun _ _ => trivial) p hp

theorem fixed_component {x : Component} (h : Component.at v x = x) : FixedAll v (Elem.component x).parts := by
  unfold Elem.parts
  rw [Component.at_eq] at h
  have p1 : FixedAll v (opt .licenses x.licenses) := fixed_opt fun y hy => map_fix (congrArg Component.licenses h) y hy
  have p2 : FixedAll v (opt .pedigree x.pedigree) := fixed_opt fun y hy => map_fix (congrArg Component.pedigree h) y hy
  have p3 : FixedAll v (many .component x.components) :=
    fixed_many fun y hy z hz => lists_fix (congrArg Component.components h) y hy z hz
  have p4 : FixedAll v (opt .componentEvidence x.evidence) :=
    fixed_opt fun y hy => map_fix (congrArg Component.evidence h) y hy
  clear h
  rw [checked_component]
  refine fixed_append ?_ ?_
  · refine fixed_append (fixed_append (fixed_append (fixed_append (fixed_append ?_ p2) ?_) ?_) p3) p4
    · clear p2 p3 p4
      refine fixed_append (fixed_append (fixed_append (fixed_append (fixed_append ?_ p1) ?_) ?_) ?_) ?_
      · clear p1
        fixed
      all_goals exact fixed_opt fun _ _ => trivial
    · exact fixed_many fun _ _ => fun _ _ => trivial
    · exact fixed_many fun _ _ => fun _ _ => trivial
  · exact fixed_append (fixed_append (fixed_opt fun _ _ => trivial) (fixed_opt fun _ _ => trivial))
      (fixed_opt fun _ _ => trivial)

theorem fixed_pedigree {x : Pedigree} (h : Pedigree.at v x = x) : FixedAll v (Elem.pedigree x).parts := by
  unfold Elem.parts
  rw [Pedigree.at_eq] at h
  have h1 := congrArg Pedigree.ancestors h
  have h2 := congrArg Pedigree.descendants h
  have h3 := congrArg Pedigree.variants h
  dsimp only at h1 h2 h3
  rw [checked_pedigree]
  rw [show Elem.unchecked (.pedigree x) = _ from rfl]
  fixed

theorem fixed_componentEvidence {x : ComponentEvidence} (h : ComponentEvidence.at v x = x) : FixedAll v (Elem.componentEvidence x).parts := by
  unfold Elem.parts
  have h1 := congrArg ComponentEvidence.licenses h
  simp only [ComponentEvidence.at] at h1
  rw [checked_componentEvidence]
  rw [show Elem.unchecked (.componentEvidence x) = _ from rfl]
  fixed

theorem fixed_service {x : Service} (h : Service.at v x = x) : FixedAll v (Elem.service x).parts := by
  unfold Elem.parts
  rw [Service.at_eq] at h
  have h1 := congrArg Service.data h
  have h2 := congrArg Service.licenses h
  have h3 := congrArg Service.services h
  dsimp only at h1 h2 h3
  rw [checked_service]
  dsimp only [Elem.unchecked]
  fixed

theorem fixed_vulnerability {x : Vulnerability} (h : Vulnerability.at v x = x) : FixedAll v (Elem.vulnerability x).parts := by
  unfold Elem.parts
  have h1 := congrArg Vulnerability.tools h
  have h2 := congrArg Vulnerability.vulnerabilityAnalysis h
  simp only [Vulnerability.at] at h1 h2
  rw [checked_vulnerability]
  dsimp only [Elem.unchecked]
  fixed

theorem fixed_annotation {x : Annotation} (h : Annotation.at v x = x) : FixedAll v (Elem.annotation x).parts := by
  unfold Elem.parts
  have h1 := congrArg Annotation.annotator h
  simp only [Annotation.at] at h1
  rw [checked_annotation]
  exact fixed_append (fixed_append (fixed_one h1) (fixed_one trivial)) (fixed_opt fun _ _ => trivial)

theorem fixed_formula {x : Formula} (h : Formula.at v x = x) : FixedAll v (Elem.formula x).parts := by
  unfold Elem.parts
  have h1 := congrArg Formula.components h
  have h2 := congrArg Formula.services h
  simp only [Formula.at] at h1 h2
  rw [checked_formula]
  dsimp only [Elem.unchecked]
  fixed

theorem Fixed.parts {e : Elem} (h : Fixed v e) : FixedAll v e.parts := by
  unfold Elem.parts
  cases e with
  | bom x => exact fixed_bom h
  | metadata x => exact fixed_metadata h
  | component x => exact fixed_component h
  | pedigree x => exact fixed_pedigree h
  | componentEvidence x => exact fixed_componentEvidence h
  | service x => exact fixed_service h
  | licenses l =>
    exact fixed_append (fixed_map fun x hx => list_fix (show l.map (LicenseChoice.at v) = l from h) x hx)
      fixed_nil
  | licenseChoice c =>
    cases c with
    | license l => exact fixed_append (fixed_one (LicenseChoice.license.inj h)) fixed_nil
    | expression e => exact fixed_append (fixed_one trivial) fixed_nil
  | tools t =>
    cases t with
    | list l => exact fixed_append (fixed_map fun x hx => list_fix (Tools.list.inj h) x hx) fixed_nil
    | object s c =>
      have h : Tools.at v (.object s c) = .object s c := h
      refine fixed_append (fixed_append ?_ ?_) fixed_nil
      · cases v with
        | v1_5 => exact fixed_many fun y hy z hz => lists_fix (Tools.object.inj h).1 y hy z hz
        | _ => cases h
      · cases v with
        | v1_5 => exact fixed_many fun y hy z hz => lists_fix (Tools.object.inj h).2 y hy z hz
        | _ => cases h
  | vulnerability x => exact fixed_vulnerability h
  | annotation x => exact fixed_annotation h
  | annotator a =>
    cases a with
    | organization o => exact fixed_append (fixed_one trivial) fixed_nil
    | individual o => exact fixed_append (fixed_one trivial) fixed_nil
    | component c => exact fixed_append (fixed_one (Annotator.component.inj h)) fixed_nil
    | service c => exact fixed_append (fixed_one (Annotator.service.inj h)) fixed_nil
  | formula x => exact fixed_formula h
  | licenseIdentifier x => cases x <;> exact fixed_append (fixed_one trivial) fixed_nil
  | licenseContact x => cases x <;> exact fixed_append (fixed_one trivial) fixed_nil
  | dataGovernanceResponsibleParty x => cases x <;> exact fixed_append (fixed_one trivial) fixed_nil
  | signature x =>
    cases x with
    | single s => exact fixed_append (fixed_one trivial) fixed_nil
    | _ => exact fixed_append (fixed_map fun _ _ => trivial) fixed_nil
  | dataset x =>
    cases x with
    | component s => exact fixed_append (fixed_one trivial) fixed_nil
    | _ => exact fixed_append fixed_nil fixed_nil
  | resourceReference x =>
    cases x with
    | externalReference s => exact fixed_append (fixed_one trivial) fixed_nil
    | _ => exact fixed_append fixed_nil fixed_nil
  | serviceDataChoice x => cases x <;> exact fixed_append (fixed_map fun _ _ => trivial) fixed_nil
  | versionRange x =>
    cases x with
    | undefinedVersionRange s => exact fixed_append fixed_nil fixed_nil
    | version s => exact fixed_append fixed_nil (fixed_one (p := .normalizedString s) trivial)
    | range s => exact fixed_append fixed_nil (fixed_one (p := .normalizedString s) trivial)
  | input x =>
    rw [checked_input]
    cases h : x.required <;> (dsimp only [inputParts, Elem.unchecked]; fixed)
  | output x =>
    rw [checked_output]
    cases h : x.required <;> (dsimp only [outputParts, Elem.unchecked]; fixed)
  | _ => dsimp only [Elem.checked, Elem.unchecked]; fixed

theorem Fixed.inside {e p : Elem} (hp : Inside Elem.parts e p) (h : Fixed v e) : Fixed v p := by
  induction hp with
  | refl _ => exact h
  | step hm _ ih => exact ih (h.parts _ hm)

end Cdx
