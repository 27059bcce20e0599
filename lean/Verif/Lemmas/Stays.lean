import Verif.Lemmas.ElemEqs
import Verif.Lemmas.Format.Component
import Verif.Lemmas.Format.Service
import Verif.Spec.Format.Bom

/-!
# What a version keeps of a valid BOM
-/

namespace Cdx

open Spec

variable [F32Format] [ReadLimit]

set_option linter.unusedSectionVars false
set_option linter.unusedSimpArgs false
set_option linter.unusedVariables false

/-- The first element is what version `v` has of the second. -/
inductive Cut (v : SpecVersion) : Elem → Elem → Prop
  | same (e : Elem) : Cut v e e
  | license (x : License) : Cut v (.license (x.at v)) (.license x)
  | licenseChoice (x : LicenseChoice) : Cut v (.licenseChoice (x.at v)) (.licenseChoice x)
  | licenses (x : Licenses) : Cut v (.licenses (x.at v)) (.licenses x)
  | componentEvidence (x : ComponentEvidence) : Cut v (.componentEvidence (x.at v)) (.componentEvidence x)
  | component (x : Component) : Cut v (.component (x.at v)) (.component x)
  | pedigree (x : Pedigree) : Cut v (.pedigree (x.at v)) (.pedigree x)
  | service (x : Service) : Cut v (.service (x.at v)) (.service x)
  | serviceDataChoice (x : ServiceDataChoice) : Cut v (.serviceDataChoice (x.at v)) (.serviceDataChoice x)
  | tool (x : Tool) : Cut v (.tool (x.at v)) (.tool x)
  | tools (x : Tools) : Cut v (.tools (x.at v)) (.tools x)
  | metadata (x : Metadata) : Cut v (.metadata (x.at v)) (.metadata x)
  | composition (x : Composition) : Cut v (.composition (x.at v)) (.composition x)
  | vulnerabilityAnalysis (x : VulnerabilityAnalysis) :
      Cut v (.vulnerabilityAnalysis (x.at v)) (.vulnerabilityAnalysis x)
  | vulnerability (x : Vulnerability) : Cut v (.vulnerability (x.at v)) (.vulnerability x)
  | bom (x : Bom) : Cut v (.bom (x.at v)) (.bom x)

/-- All of the first list is what version `v` has of something in the second. -/
def CutAll (v : SpecVersion) (l' l : List Elem) : Prop := ∀ p' ∈ l', ∃ p ∈ l, Cut v p' p

theorem CutAll.rfl {v l} : CutAll v l l := fun p h => ⟨p, h, .same p⟩

theorem CutAll.append {v a' a b' b} (ha : CutAll v a' a) (hb : CutAll v b' b) :
    CutAll v (a' ++ b') (a ++ b) := by
  intro p h
  rcases List.mem_append.1 h with h | h
  · obtain ⟨q, hq, c⟩ := ha p h
    exact ⟨q, List.mem_append_left _ hq, c⟩
  · obtain ⟨q, hq, c⟩ := hb p h
    exact ⟨q, List.mem_append_right _ hq, c⟩

theorem CutAll.map {α : Type} {v} {f : α → Elem} {g : α → α} (h : ∀ x, Cut v (f (g x)) (f x)) (l : List α) :
    CutAll v ((l.map g).map f) (l.map f) := by
  intro p hp
  obtain ⟨y, hy, e⟩ := List.mem_map.1 hp
  obtain ⟨x, hx, e'⟩ := List.mem_map.1 hy
  exact ⟨f x, List.mem_map.2 ⟨x, hx, Eq.refl _⟩, by rw [← e, ← e']; exact h x⟩

theorem CutAll.opt {α : Type} {v} {f : α → Elem} {g : α → α} (h : ∀ x, Cut v (f (g x)) (f x)) (x : Option α) :
    CutAll v (Spec.opt f (x.map g)) (Spec.opt f x) := by
  cases x
  · exact .rfl
  · exact CutAll.map h [_]

theorem CutAll.many {α : Type} {v} {f : α → Elem} {g : α → α} (h : ∀ x, Cut v (f (g x)) (f x))
    (x : Option (List α)) : CutAll v (Spec.many f (x.map (List.map g))) (Spec.many f x) := by
  cases x
  · exact .rfl
  · exact CutAll.map h _

theorem CutAll.nil {v l} : CutAll v [] l := fun _ h => (nomatch h)

theorem CutAll.opt15 {α : Type} {v} (f : α → Elem) (x : Option α) :
    CutAll v (Spec.opt f (since15 v x none)) (Spec.opt f x) := by
  cases v
  · exact .nil
  · exact .nil
  · exact .rfl

theorem CutAll.many15 {α : Type} {v} (f : α → Elem) (x : Option (List α)) :
    CutAll v (Spec.many f (since15 v x none)) (Spec.many f x) := by
  cases v
  · exact .nil
  · exact .nil
  · exact .rfl

theorem CutAll.opt14 {α : Type} {v} (f : α → Elem) (x : Option α) :
    CutAll v (Spec.opt f (since14 v x none)) (Spec.opt f x) := by
  cases v
  · exact .nil
  · exact .rfl
  · exact .rfl

theorem CutAll.many14 {α : Type} {v} (f : α → Elem) (x y : Option (List α))
    (h : CutAll v (Spec.many f x) (Spec.many f y)) :
    CutAll v (Spec.many f (since14 v x none)) (Spec.many f y) := by
  cases v
  · exact .nil
  · exact h
  · exact h

theorem inside_trans {f : Elem → List Elem} {a b c : Elem} (h : Inside f a b) (h' : Inside f b c) :
    Inside f a c := by
  induction h with
  | refl => exact h'
  | step m _ ih => exact .step m (ih h')

macro "cut_all" : tactic => `(tactic| (
  repeat' (first
    | with_reducible apply CutAll.append
    | with_reducible exact CutAll.rfl
    | exact CutAll.rfl
    | exact CutAll.opt15 _ _
    | exact CutAll.many15 _ _
    | exact CutAll.opt14 _ _
    | exact CutAll.opt (by intro x; constructor) _
    | exact CutAll.many (by intro x; constructor) _)))

theorem CutAll.inside {v : SpecVersion} {e' e : Elem} (h : CutAll v e'.checked e.checked) :
    ∀ p' ∈ e'.checked, ∃ p, Inside Elem.checked e p ∧ Cut v p' p := fun p' m => by
  obtain ⟨p, hp, c⟩ := h p' m
  exact ⟨p, .step hp (.refl _), c⟩

theorem Component.cut (v : SpecVersion) (x : Component) :
    CutAll v (Elem.component (x.at v)).checked (Elem.component x).checked := by
  rw [checked_component, checked_component]
  cases x
  simp only [Component.at, Component.atOpt_eq, Pedigree.atOpt_eq]
  cut_all

theorem Service.cut (v : SpecVersion) (x : Service) :
    CutAll v (Elem.service (x.at v)).checked (Elem.service x).checked := by
  rw [checked_service, checked_service]
  cases x
  simp only [Service.at, Service.atOpt_eq]
  cut_all

theorem Cut.parts {v : SpecVersion} {e' e : Elem} (h : Cut v e' e) :
    ∀ p' ∈ e'.checked, ∃ p, Inside Elem.checked e p ∧ Cut v p' p := by
  cases h with
  | same => exact (CutAll.inside CutAll.rfl)
  | license x =>
    refine CutAll.inside ?_
    rw [checked_license, checked_license]
    cut_all
  | licenseChoice x =>
    refine CutAll.inside ?_
    cases x with
    | license l => exact CutAll.map (f := Elem.license) (g := License.at v) Cut.license [l]
    | expression e => exact .rfl
  | licenses x => exact CutAll.inside (CutAll.map (f := Elem.licenseChoice) Cut.licenseChoice x)
  | componentEvidence x =>
    refine CutAll.inside ?_
    rw [checked_componentEvidence, checked_componentEvidence]
    cut_all
  | component x => exact CutAll.inside (Component.cut v x)
  | pedigree x =>
    refine CutAll.inside ?_
    rw [checked_pedigree, checked_pedigree]
    cases x
    simp only [Pedigree.at, Component.atOpt_eq]
    cut_all
  | service x => exact CutAll.inside (Service.cut v x)
  | serviceDataChoice x =>
    cases x with
    | classification l => exact (CutAll.inside CutAll.rfl)
    | serviceData l =>
      have old : ∀ p' ∈ ((l.map (·.classification)).map Elem.dataClassification),
          ∃ p, Inside Elem.checked (.serviceDataChoice (.serviceData l)) p ∧ Cut v p' p := by
        intro p' m
        obtain ⟨c, hc, rfl⟩ := List.mem_map.1 m
        obtain ⟨d, hd, rfl⟩ := List.mem_map.1 hc
        refine ⟨_, .step (List.mem_map.2 ⟨d, hd, Eq.refl _⟩) (.step (b := .dataClassification d.classification) ?_ (.refl _)), .same _⟩
        rw [checked_serviceData]
        simp
      cases v
      · exact old
      · exact old
      · exact (CutAll.inside CutAll.rfl)
  | tool x =>
    refine CutAll.inside ?_
    rw [checked_tool, checked_tool]
    refine CutAll.append (by cut_all) ?_
    exact CutAll.many14 _ _ _ .rfl
  | tools x =>
    refine CutAll.inside ?_
    cases x with
    | list l => exact CutAll.map (f := Elem.tool) Cut.tool l
    | object s c =>
      cases v
      · exact .nil
      · exact .nil
      · exact .append (CutAll.many Cut.service _) (CutAll.many Cut.component _)
  | metadata x =>
    refine CutAll.inside ?_
    rw [checked_metadata, checked_metadata]
    cut_all
  | composition x =>
    refine CutAll.inside ?_
    rw [checked_composition, checked_composition]
    cut_all
  | vulnerabilityAnalysis x =>
    refine CutAll.inside ?_
    rw [checked_vulnerabilityAnalysis, checked_vulnerabilityAnalysis]
    cut_all
  | vulnerability x =>
    refine CutAll.inside ?_
    rw [checked_vulnerability, checked_vulnerability]
    cut_all
  | bom x =>
    refine CutAll.inside ?_
    rw [checked_bom, checked_bom]
    refine CutAll.append (by cut_all) ?_
    exact CutAll.many14 _ _ _ (CutAll.many Cut.vulnerability _)

theorem Cut.inside {v a' b'} (h : Inside Elem.checked a' b') :
    ∀ {a}, Cut v a' a → ∃ b, Inside Elem.checked a b ∧ Cut v b' b := by
  induction h with
  | refl => exact fun c => ⟨_, .refl _, c⟩
  | step m _ ih =>
    intro a c
    obtain ⟨p, hp, c'⟩ := c.parts _ m
    obtain ⟨q, hq, c''⟩ := ih c'
    exact ⟨q, inside_trans hp hq, c''⟩

theorem Cut.rule {E v e' e} (h : Cut v e' e) (hb : ∀ b, e' ≠ .bom b) (hr : e.rule E v) : e'.rule E v := by
  cases h with
  | same => exact hr
  | licenses x =>
    rintro rfl
    refine (hr rfl).imp (fun h c hc => ?_) (fun h => ?_)
    · obtain ⟨d, hd, rfl⟩ := List.mem_map.1 hc
      obtain ⟨l, rfl⟩ := h d hd
      exact ⟨_, rfl⟩
    · show (List.map _ x).length ≤ 1
      rwa [List.length_map]
  | tools x =>
    cases x with
    | list l => exact .inr ⟨_, rfl⟩
    | object s c =>
      cases v
      · exact .inr ⟨_, rfl⟩
      · exact .inr ⟨_, rfl⟩
      · exact .inl rfl
  | bom x => exact absurd rfl (hb _)
  | _ => trivial

/-! ## References -/

mutual

theorem Component.refs_at (v : SpecVersion) : (x : Component) → (Component.at v x).refs = x.refs
  | ⟨_, _, _, _, _, _, _, _, _, _, _, _, _, _, _, _, _, _, _, _, _, cs, _, _, _, _⟩ => by
    simp only [Component.at, Component.refs]
    rw [Component.refsOption_at v cs]
termination_by structural x => x

theorem Component.refsOption_at (v : SpecVersion) :
    (l : Option (List Component)) → Component.refsOption (Component.atOpt v l) = Component.refsOption l
  | none => rfl
  | some l => Component.refsList_at v l
termination_by structural l => l

theorem Component.refsList_at (v : SpecVersion) :
    (l : List Component) → Component.refsList (Component.atAll v l) = Component.refsList l
  | [] => rfl
  | x :: l => by
    simp only [Component.atAll, Component.refsList]
    rw [Component.refs_at v x, Component.refsList_at v l]
termination_by structural l => l

end

mutual

theorem Service.refs_at (v : SpecVersion) : (x : Service) → (Service.at v x).refs = x.refs
  | ⟨_, _, _, _, _, _, _, _, _, _, _, _, _, ss, _, _⟩ => by
    simp only [Service.at, Service.refs]
    rw [Service.refsOption_at v ss]
termination_by structural x => x

theorem Service.refsOption_at (v : SpecVersion) :
    (l : Option (List Service)) → Service.refsOption (Service.atOpt v l) = Service.refsOption l
  | none => rfl
  | some l => Service.refsList_at v l
termination_by structural l => l

theorem Service.refsList_at (v : SpecVersion) :
    (l : List Service) → Service.refsList (Service.atAll v l) = Service.refsList l
  | [] => rfl
  | x :: l => by
    simp only [Service.atAll, Service.refsList]
    rw [Service.refs_at v x, Service.refsList_at v l]
termination_by structural l => l

end

/-- The `bom-ref`s of the vulnerabilities of a BOM. -/
def Bom.vulnRefs (b : Bom) : List String := (b.vulnerabilities.getD []).flatMap (·.bomRef.toList)

/-- The other `bom-ref`s of a BOM. -/
def Bom.otherRefs (b : Bom) : List String :=
  (b.metadata.bind (·.component)).toList.flatMap Component.refs ++
  Component.refsOption b.components ++ Service.refsOption b.services

theorem Bom.refs_split (b : Bom) : b.refs = b.otherRefs ++ b.vulnRefs := rfl

theorem Bom.otherRefs_at (v : SpecVersion) (b : Bom) : (b.at v).otherRefs = b.otherRefs := by
  have h1 : Component.refsOption (b.components.map (List.map (Component.at v))) = Component.refsOption b.components := by
    rw [← Component.atOpt_eq, Component.refsOption_at]
  have h2 : Service.refsOption (b.services.map (List.map (Service.at v))) = Service.refsOption b.services := by
    rw [← Service.atOpt_eq, Service.refsOption_at]
  show (((b.metadata.map (Metadata.at v)).bind (·.component)).toList.flatMap Component.refs ++ _ ++ _) = _
  rw [show (b.at v).components = b.components.map (List.map (Component.at v)) from rfl,
    show (b.at v).services = b.services.map (List.map (Service.at v)) from rfl, h1, h2]
  unfold Bom.otherRefs
  congr 2
  cases b.metadata with
  | none => rfl
  | some m =>
    show ((m.component.map (Component.at v)).toList.flatMap Component.refs) = _
    cases hc : m.component with
    | none => simp [hc]
    | some c => simp [hc, Component.refs_at]

theorem Bom.vulnRefs_at (v : SpecVersion) (b : Bom) :
    (b.at v).vulnRefs = if v = .v1_3 then [] else b.vulnRefs := by
  have h : ∀ l : Option (List Vulnerability),
      ((l.map (List.map (Vulnerability.at v))).getD []).flatMap (fun x => x.bomRef.toList) =
        (l.getD []).flatMap (fun x => x.bomRef.toList) := by
    intro l
    cases l with
    | none => rfl
    | some l =>
      show (l.map (Vulnerability.at v)).flatMap _ = l.flatMap _
      rw [List.flatMap_map]
      rfl
  cases v
  · rfl
  · exact h _
  · exact h _

end Cdx
